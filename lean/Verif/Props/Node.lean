import Verif.Lemmas.Node

/-! # The node and NMT: C42 – C45 -/

namespace Verif.Props
open Verif Verif.Nmt Verif.Lay Verif.Spec.Node

/-- a report of state `b` (only for the examples) -/
private def rep (b : Byte) : Frame :=
  { id := 0x701, isError := false, isRtr := false, isExtended := false, data := #v[b, 0, 0, 0, 0, 0, 0, 0], dlc := 1 }

private def hb0 : Hb := { present := true, dflt := some 0, conf := some 0, buf := 0, valid := true }
private def hb100 : Hb := { present := true, dflt := some 0, conf := some 100, buf := 0, valid := true }

/-! ## C42: the reported state -/

/-- C42.  After any sequence of error-control frames the state is the last state byte received, and the listeners were told exactly the changes,
in order.  (The heartbeat interval must be known: see `C42_unknown_interval_escapes`.) -/
theorem C42_state (n : Nmt.Node) (hl : n.listening = true) (hr : n.hb.present = false ∨ n.hb.valid = true) (fs : List (Frame × Int)) :
    (n.run (fs.map fun p => .frame p.1 p.2)).1.state = ((fs.map fun p => p.1.data[0]).getLast?).getD n.state ∧
    (n.run (fs.map fun p => .frame p.1 p.2)).2 = (changes n.state (fs.map fun p => p.1.data[0])).map .notify := by
  have : reports (fs.map fun p => Ev.frame p.1 p.2) = fs.map fun p => p.1.data[0] := by
    induction fs with
    | nil => rfl
    | cons p fs ih => simp only [List.map_cons, reports, ih]
  rw [← this]
  exact frames_run n hl hr fs

/-- reports 0, 127, 127, 5: three notifications -/
example : ∃ (n : Nmt.Node) (fs : List (Frame × Int)), n.listening = true ∧ n.hb.valid = true ∧
    (changes n.state (fs.map fun p => p.1.data[0])) = [0, 127, 5] :=
  ⟨.fresh 1 true hb0, [(rep 0, 10), (rep 127, 20), (rep 127, 30), (rep 5, 40)], rfl, rfl, by decide +kernel⟩

/-- The assumption of `C42_state` is needed: if the heartbeat interval is not known (no default in the EDS and not written since the last
reset), handling the frame ends in an exception on the receiving thread and the report is lost. -/
theorem C42_unknown_interval_escapes (n : Nmt.Node) (hl : n.listening = true) (hp : n.hb.present = true) (hv : n.hb.valid = false)
    (f : Frame) (t : Int) :
    (n.run [.frame f t]).1.state = n.state ∧ ∃ o, (n.run [.frame f t]).2 = [o] ∧ o = .escaped := by
  simp [Node.run, Node.step, hl, Node.handleNMT, Hb.interval, hp, hv]

/-- the situation is reached: reset a node without a default for its heartbeat, and let it boot -/
example : ∃ (n : Nmt.Node) (es : List Ev), n = (Node.fresh 1 true { present := true, dflt := none, conf := some 100, buf := 0, valid := false }) ∧
    (n.run es).1.listening = true ∧ (n.run es).1.hb.present = true ∧ (n.run es).1.hb.valid = false ∧ es ≠ [] :=
  ⟨_, [.call .resetCom 0], rfl, rfl, rfl, rfl, by simp⟩

/-! ## C43: SYNC membership -/

/-- C43.  In every history of reports of standard states, commands, timeouts and shut-downs a node takes part in SYNC only while its state is
operational.  Partial: the history must be free of two races of the code, see `Spec.Node.Undisturbed` and `C43_race`. -/
theorem C43_sync_partial (id : Byte) (hasSync : Bool) (hb : Hb) (es : List Ev) (hu : Undisturbed (.fresh id hasSync hb) es)
    (hs : ∀ b ∈ reports es, standard b) :
    ((Node.fresh id hasSync hb).run es).1.synced = true → ((Node.fresh id hasSync hb).run es).1.state = 5 :=
  (run_syncInv _ ⟨fun _ => rfl, fun h => (by cases h), fun _ h => (by cases h)⟩ es hu hs).op

/-- C43, second part.  Under the same conditions, a report of boot-up, pre-operational or stopped removes a listening node. -/
theorem C43_removed_partial (id : Byte) (hasSync : Bool) (hb : Hb) (hr : Ready hb) (es : List Ev) (f : Frame) (t : Int)
    (hu : Undisturbed (.fresh id hasSync hb) (es ++ [.frame f t])) (hup : Up es)
    (hs : ∀ b ∈ reports es, standard b) (hf : f.data[0] = 0 ∨ f.data[0] = 127 ∨ f.data[0] = 4) :
    ((Node.fresh id hasSync hb).run (es ++ [.frame f t])).1.synced = false := by
  have hl := run_listening (.fresh id hasSync hb) rfl es hup
  have hrd := run_ready (.fresh id hasSync hb) hr es
  have hi := run_syncInv (.fresh id hasSync hb) ⟨fun _ => rfl, fun h => (by cases h), fun _ h => (by cases h)⟩ (es ++ [.frame f t]) hu (by
    intro b hb
    rw [reports_append] at hb
    rcases List.mem_append.mp hb with hb | hb
    · exact hs b hb
    · simp only [reports, List.mem_singleton] at hb
      rw [hb]
      rcases hf with h | h | h
      · exact .inl h
      · exact .inr (.inr (.inr h))
      · exact .inr (.inl h))
  have hst : ((Node.fresh id hasSync hb).run (es ++ [.frame f t])).1.state = f.data[0] := by
    rw [run_snoc]
    simp only [Node.step, hl, if_true]
    rw [handleNMT_ready _ (hrd.imp _root_.id And.right), switchState_state]
  cases hz : ((Node.fresh id hasSync hb).run (es ++ [.frame f t])).1.synced with
  | false => rfl
  | true =>
    have := hi.op hz
    rw [hst] at this
    rw [this] at hf
    exact absurd hf (by decide)

/-- a history for which both say something: started by a report, then pre-operational -/
example : ∃ (es : List Ev), Undisturbed (.fresh 1 true hb0) (es ++ [.frame (rep 127) 30]) ∧ (∀ b ∈ reports es, standard b) ∧ Up es ∧
    ((Node.fresh 1 true hb0).run es).1.synced = true := by
  refine ⟨[.frame (rep 0) 10, .call .start 15, .frame (rep 5) 20, .wake], ?_, ?_, ?_, by decide +kernel⟩
  · intro pre e post h
    rcases pre with _ | ⟨a, _ | ⟨b, _ | ⟨c, _ | ⟨d, _ | ⟨g, pre⟩⟩⟩⟩⟩ <;>
      simp only [List.cons_append, List.nil_append, List.cons.injEq] at h
    · obtain ⟨rfl, -⟩ := h
      exact ⟨fun _ _ _ c hc => (by simp [Node.run, Node.fresh] at hc), fun h => by cases h⟩
    · obtain ⟨rfl, rfl, -⟩ := h
      exact ⟨fun _ _ h => (by cases h), fun h => by cases h⟩
    · obtain ⟨rfl, rfl, rfl, -⟩ := h
      exact ⟨fun _ _ _ c hc => (by
        have hc' : ((Node.fresh 1 true hb0).run [Ev.frame (rep 0) 10, Ev.call Cmd.start 15]).1.phase = Phase.waiting .start 2015 := by decide +kernel
        rw [hc'] at hc; cases hc), fun h => by cases h⟩
    · obtain ⟨rfl, rfl, rfl, rfl, -⟩ := h
      exact ⟨fun _ _ h => (by cases h), fun h => by cases h⟩
    · obtain ⟨rfl, rfl, rfl, rfl, rfl, -⟩ := h
      exact ⟨fun _ _ _ c hc => (by
        have hc' : ((Node.fresh 1 true hb0).run [Ev.frame (rep 0) 10, Ev.call Cmd.start 15, Ev.frame (rep 5) 20, Ev.wake]).1.phase = Phase.idle := by decide +kernel
        rw [hc'] at hc; cases hc), fun h => by cases h⟩
    · simp at h
  · intro b hb
    have : b = 0 ∨ b = 5 := by simpa [reports, rep] using hb
    rcases this with rfl | rfl
    · exact .inl rfl
    · exact .inr (.inr (.inl rfl))
  · intro e he
    simp only [List.mem_cons, List.not_mem_nil, or_false] at he
    rcases he with rfl | rfl | rfl | rfl <;> exact ⟨fun h => (by cases h), fun h => by cases h⟩

/-- The race excluded above: a report of operational that arrives between the end of the wait of a reset and the assignment of the
pre-operational state leaves the node in SYNC, and the device's own report of pre-operational does not remove it.  All reports are standard. -/
theorem C43_race :
    ∃ es : List Ev, (∀ b ∈ reports es, standard b) ∧ (reports es).getLast? = some 127 ∧
      ((Node.fresh 1 true hb0).run es).1.synced = true ∧ ((Node.fresh 1 true hb0).run es).1.state = 127 := by
  refine ⟨[.call .resetCom 0, .frame (rep 0) 10, .wake, .frame (rep 5) 11, .finish true, .frame (rep 127) 20], ?_, by decide +kernel, by decide +kernel, by decide +kernel⟩
  intro b hb
  have : b = 0 ∨ b = 5 ∨ b = 127 := by simpa [reports, rep] using hb
  rcases this with rfl | rfl | rfl
  · exact .inl rfl
  · exact .inr (.inr (.inl rfl))
  · exact .inr (.inr (.inr rfl))

/-- A state byte outside the standard never changes SYNC membership: for every node and every such report. -/
theorem C43_unknown_state_keeps (n : Nmt.Node) (f : Frame) (t : Int) (h : ¬ standard f.data[0]) :
    (n.run [.frame f t]).1.synced = n.synced := by
  have h1 : ¬ f.data[0] = Operational := fun e => h (.inr (.inr (.inl e)))
  have h2 : ¬ (f.data[0] = BootUp ∨ f.data[0] = PreOperational ∨ f.data[0] = Stopped) := by
    rintro (e | e | e)
    · exact h (.inl e)
    · exact h (.inr (.inr (.inr e)))
    · exact h (.inr (.inl e))
  simp only [Node.run, Node.step]
  split
  · unfold Node.handleNMT
    cases n.hb.interval none with
    | mk hb o =>
      cases o with
      | none => rfl
      | some v => simp only; rw [switchState_synced, if_neg h1, if_neg h2]
  · rfl

/-- an operational node that reports the reserved state 6 stays in SYNC -/
example : ∃ (n : Nmt.Node) (f : Frame), n.synced = true ∧ ¬ standard f.data[0] :=
  ⟨((Node.fresh 1 true hb0).run [.frame (rep 5) 10]).1, rep 6, by decide +kernel, by
    intro h
    have h6 : (rep 6).data[0] = (6 : Byte) := by decide +kernel
    rw [h6] at h
    unfold standard at h
    revert h
    decide⟩

/-- Stopping a node that is not monitored by heartbeat and starting it again does not bring it back to SYNC: it is still believed to be
operational, so no change is seen. -/
theorem C43_restart_without_report (n : Nmt.Node) (hop : n.state = 5) (hph : n.phase = .idle) (hs : n.hasSync = true) (now : Int) :
    (n.run [.stop, .call .start now, .wake]).1.synced = false ∧
    (n.run [.stop, .call .start now, .wake]).2 = [.sent (nmtFrame 2 n.id), .sent (nmtFrame 1 n.id), .returned .start true] := by
  simp [Node.run, Node.step, hph, hs, hop, Cmd.target, Operational, Node.waited, Cmd.isReset, Cmd.code]

example : ∃ n : Nmt.Node, n.state = 5 ∧ n.phase = .idle ∧ n.hasSync = true ∧ n.synced = true :=
  ⟨((Node.fresh 1 true hb0).run [.frame (rep 5) 10]).1, by decide +kernel, by decide +kernel, by decide +kernel, by decide +kernel⟩

/-! ## C44: commands -/

/-- C44, sending.  A command sends exactly one frame, the NMT command of CiA 301 for this node, and sends it at once; stopping too. -/
theorem C44_command_sent (n : Nmt.Node) (hi : n.phase = .idle) (c : Cmd) (now : Int) :
    (∃ f, (n.run [.call c now]).2 = [.sent f] ∧ IsCommand f (specifier c) n.id) ∧
    (∃ f, (n.run [.stop]).2 = [.sent f] ∧ IsCommand f 2 n.id) := by
  refine ⟨⟨nmtFrame c.code n.id, by simp [Node.run, Node.step, hi], ?_⟩, ⟨nmtFrame 2 n.id, by simp [Node.run, Node.step, hi], ?_⟩⟩
  · cases c <;> exact ⟨rfl, rfl, rfl, rfl, rfl, rfl, rfl⟩
  · exact ⟨rfl, rfl, rfl, rfl, rfl, rfl, rfl⟩

example : (Node.fresh 7 true hb100).phase = .idle := rfl

/-- C44, nothing else is sent: every frame a node sends in any history comes from a command or a stop. -/
theorem C44_nothing_else_sent (n : Nmt.Node) (e : Ev) (f : Frame) (h : Out.sent f ∈ (n.step e).2) :
    (∃ c now, e = .call c now ∧ IsCommand f (specifier c) n.id) ∨ (e = .stop ∧ IsCommand f 2 n.id) := by
  have hw : ∀ (m : Nmt.Node) (c' : Cmd) (r : Int), Out.sent f ∉ (m.waited c' r).2 := by
    intro m c' r hh
    unfold Node.waited at hh
    split at hh
    · split at hh <;> simp at hh
    · simp at hh
  have hsw : ∀ (m : Nmt.Node) (t : Byte), Out.sent f ∉ (m.switchState t).2 := by
    intro m t hm
    rw [switchState_out] at hm
    split at hm <;> simp at hm
  cases e with
  | frame g t =>
    exfalso
    simp only [Node.step] at h
    split at h
    · unfold Node.handleNMT at h
      cases hi : n.hb.interval none with
      | mk hb o =>
        rw [hi] at h
        cases o with
        | none => simp at h
        | some v => exact hsw _ _ h
    · simp at h
  | call c t =>
    simp only [Node.step] at h
    split at h
    · simp only [List.mem_singleton, Out.sent.injEq] at h
      rw [h]
      refine .inl ⟨c, t, rfl, ?_⟩
      cases c <;> exact ⟨rfl, rfl, rfl, rfl, rfl, rfl, rfl⟩
    · simp at h
  | stop =>
    simp only [Node.step] at h
    split at h
    · simp only [List.mem_singleton, Out.sent.injEq] at h
      rw [h]
      exact .inr ⟨rfl, rfl, rfl, rfl, rfl, rfl, rfl, rfl⟩
    · simp at h
  | wake =>
    simp only [Node.step] at h
    split at h
    · split at h
      · exact absurd h (hw _ _ _)
      · simp at h
    · simp at h
  | expire t sdo =>
    exfalso
    simp only [Node.step] at h
    split at h
    · split at h
      · simp at h
      · split at h
        · exact absurd h (hw _ _ _)
        · cases hi : n.hb.interval sdo with
          | mk hb o =>
            rw [hi] at h
            cases o with
            | none => simp at h
            | some v =>
              simp only at h
              split at h
              · simp only [List.mem_append, List.mem_singleton, reduceCtorEq, false_or] at h
                rcases h with h | h
                · exact absurd h (hsw _ _)
                · exact absurd h (hw _ _ _)
              · exact absurd h (hw _ _ _)
    · simp at h
  | finish ok =>
    simp only [Node.step] at h
    split at h
    · split at h
      · simp at h
      · split at h
        · simp at h
        · split at h <;> simp at h
    · simp at h
  | hbOff sdo ok =>
    simp only [Node.step] at h
    cases hi : n.hb.interval sdo with
    | mk hb o =>
      rw [hi] at h
      cases o with
      | none => simp at h
      | some v => simp only at h; split at h <;> simp at h
  | unlisten => simp [Node.step] at h
  | forget => simp only [Node.step] at h; exact absurd h (hsw _ _)

example : ∃ (n : Nmt.Node) (e : Ev) (f : Frame), Out.sent f ∈ (n.step e).2 :=
  ⟨.fresh 7 true hb100, .stop, nmtFrame 2 7, by simp [Node.step, Node.fresh]⟩

/-- C44, success of `start`.  Whatever the device does: if `start` reports success, the last thing the node was told by the device is that it
is operational, or, without heartbeat, the state was assumed. -/
theorem C44_start_confirmed (id : Byte) (hasSync : Bool) (hb : Hb) (hr : Ready hb) (es : List Ev) (e : Ev) (hu : Up es)
    (h : Out.returned .start true ∈ (((Node.fresh id hasSync hb).run es).1.step e).2) :
    LastTold (.fresh id hasSync hb) (es ++ [e]) 5 := by
  have hk := run_know (.fresh id hasSync hb) rfl hr rfl rfl es hu
  rcases step_returned _ _ _ h with ⟨-, hne, h1 | h1⟩ | ⟨ok, rfl, h1⟩
  · rcases hk.state with h2 | h2 | ⟨h2, -⟩
    · rw [h2] at h1; exact absurd (show Unknown = Operational from h1) (by decide)
    · rw [h1] at h2; exact lastTold_snoc e hne h2
    · rw [h2] at h1; exact absurd h1 (by decide)
  · exact ⟨es, e, [], rfl, .inr h1, fun _ _ h => by cases h⟩
  · -- `start` never comes to the last part of a reset
    exfalso
    have : ∀ es : List Ev, ((Node.fresh id hasSync hb).run es).1.phase ≠ .finishing .start := by
      intro es
      apply run_induction (.fresh id hasSync hb) (fun es => ((Node.fresh id hasSync hb).run es).1.phase ≠ .finishing .start)
      · intro hc; cases hc
      · intro es e ih hc
        rw [run_snoc] at hc
        rcases step_finishing _ _ _ hc with h2 | ⟨h2, -⟩
        · exact ih h2
        · cases h2
    exact this es h1

/-- C44, success of a reset: the device reported its boot-up, or, without heartbeat, it was assumed. -/
theorem C44_reset_confirmed (id : Byte) (hasSync : Bool) (hb : Hb) (hr : Ready hb) (es : List Ev) (e : Ev) (hu : Up es) (c : Cmd)
    (hc : c = .reset ∨ c = .resetCom)
    (h : Out.returned c true ∈ (((Node.fresh id hasSync hb).run es).1.step e).2) :
    Told (.fresh id hasSync hb) es 0 := by
  have hk := run_know (.fresh id hasSync hb) rfl hr rfl rfl es hu
  rcases step_returned _ _ _ h with ⟨hi, -⟩ | ⟨ok, rfl, h1⟩
  · rcases hc with rfl | rfl <;> cases hi
  · exact hk.fin c h1

/-- C44, success of `prepare`.  Partial: after a successful reset the node takes the device for pre-operational without a report, and
`prepare` succeeds on that; see `C44_prepare_without_report`. -/
theorem C44_prepare_confirmed_partial (id : Byte) (hasSync : Bool) (hb : Hb) (hr : Ready hb) (es : List Ev) (e : Ev) (hu : Up es)
    (h : Out.returned .prepare true ∈ (((Node.fresh id hasSync hb).run es).1.step e).2) :
    LastTold (.fresh id hasSync hb) (es ++ [e]) 127 ∨ ResetSince (.fresh id hasSync hb) (es ++ [e]) := by
  have hk := run_know (.fresh id hasSync hb) rfl hr rfl rfl es hu
  rcases step_returned _ _ _ h with ⟨-, hne, h1 | h1⟩ | ⟨ok, rfl, h1⟩
  · rcases hk.state with h2 | h2 | ⟨h2, h3⟩
    · rw [h2] at h1; exact absurd (show Unknown = PreOperational from h1) (by decide)
    · rw [h1] at h2; exact .inl (lastTold_snoc e hne h2)
    · exact .inr (resetSince_snoc e hne h3)
  · exact .inl ⟨es, e, [], rfl, .inr h1, fun _ _ h => by cases h⟩
  · exfalso
    have : ∀ es : List Ev, ((Node.fresh id hasSync hb).run es).1.phase ≠ .finishing .prepare := by
      intro es
      apply run_induction (.fresh id hasSync hb) (fun es => ((Node.fresh id hasSync hb).run es).1.phase ≠ .finishing .prepare)
      · intro hc; cases hc
      · intro es e ih hc
        rw [run_snoc] at hc
        rcases step_finishing _ _ _ hc with h2 | ⟨h2, -⟩
        · exact ih h2
        · cases h2
    exact this es h1

/-- the three commands do succeed: reset, prepare and start with a cooperating device and heartbeat -/
example : ((Node.fresh 1 true hb100).run [.call .resetCom 0, .frame (rep 0) 10, .wake, .finish true, .call .prepare 20, .frame (rep 127) 30, .wake,
      .call .start 40, .frame (rep 5) 50, .wake]).2.filterMap (fun o => match o with | .returned c ok => some (c, ok) | _ => none)
    = [(.resetCom, true), (.prepare, true), (.start, true)] := by decide +kernel

/-- C44, where the last theorem falls short of the property: with heartbeat configured, `prepare` succeeds without any report of the
pre-operational state. -/
theorem C44_prepare_without_report :
    ∃ es : List Ev, ((Node.fresh 1 true hb100).run es).2.getLast? matches some (.returned .prepare true) ∧ 127 ∉ reports es ∧
      ∀ o ∈ ((Node.fresh 1 true hb100).run es).2, ¬ o matches .assumed _ := by
  refine ⟨[.call .resetCom 0, .frame (rep 0) 10, .wake, .finish true, .call .prepare 20, .wake], by decide +kernel, by decide +kernel, ?_⟩
  simp [Node.run, Node.step, Node.fresh, Node.handleNMT, Hb.interval, hb100, Hb.reset, Cmd.isReset, rep, Node.switchState, Node.waited, Cmd.target, BootUp,
    Unknown, PreOperational, Operational]

/-- C44, assuming a state happens only if the heartbeat interval is zero (or the object does not exist), and only after the full time-out. -/
theorem C44_assumed_only_without_heartbeat (n : Nmt.Node) (e : Ev) (s : Byte) (h : Out.assumed s ∈ (n.step e).2) :
    ∃ now sdo, e = .expire now sdo ∧ (n.hb.interval sdo).2 = some 0 ∧ ∃ c d, n.phase = .waiting c d ∧ s = c.target ∧ d ≤ now :=
  step_assumed n e s h

/-- without heartbeat `start` succeeds after two seconds of silence -/
example : Out.assumed 5 ∈ (((Node.fresh 1 true hb0).run [.call .start 0]).1.step (.expire 2000 none)).2 ∧
    Out.returned .start true ∈ (((Node.fresh 1 true hb0).run [.call .start 0]).1.step (.expire 2000 none)).2 := by
  simp [Node.run, Node.step, Node.fresh, hb0, Cmd.isReset, Cmd.timeout, Cmd.target, Unknown, Operational, Hb.interval, Node.switchState, Node.waited]

/-- Without heartbeat a reset cannot succeed at the first attempt unless the boot-up is received, but the failed attempt leaves the node
believing in it, so the next attempt succeeds although the device never answered. -/
theorem C44_second_reset_succeeds :
    ((Node.fresh 1 true hb0).run [.call .resetCom 0, .expire 10000 none, .call .resetCom 10001, .wake, .finish true]).2.filterMap
      (fun o => match o with | .returned c ok => some (c, ok) | _ => none) = [(.resetCom, false), (.resetCom, true)] := by decide +kernel

/-! ## C45: heartbeat supervision -/

/-- C45.  While an interval is configured, a read cycle reports the heartbeat problem exactly if more than three intervals have passed since
the last NMT frame of the device.  Partial: the interval must not change in between (`steady`), see `C45_interval_changed`. -/
theorem C45_heartbeat_partial (n : Nmt.Node) (hl : n.listening = true) (hp : n.hb.present = true) (hv : n.hb.valid = true) (hz : n.hb.buf ≠ 0)
    (hi : n.phase = .idle) (es : List Ev) (hs : ∀ e ∈ es, steady e) (t : Int) (ht : lastTime es = some t)
    (st : LayerState) (hst : LayerState.init.toNat < st.toNat) (now : Int) (sdo : Option (BitVec 16)) :
    (n.run es).1.handleRead st now sdo = .heartbeatProblem ↔ now - t > 3 * (n.hb.buf.toNat : Int) := by
  obtain ⟨h1, h2⟩ := steady_run n hl hp hv hz (by rw [hi]; intro c d h; cases h) (by rw [hi]; intro c h; cases h) es hs
  rw [ht] at h2
  simp only at h2
  unfold Node.handleRead Node.checkHeartbeat
  rw [if_pos hst, h1, interval_ready n.hb (.inr hv), hp, if_pos rfl]
  simp only
  rw [if_neg hz, h2]
  by_cases hc : t + 3 * (n.hb.buf.toNat : Int) ≥ now
  · simp only [hc, decide_true]
    constructor
    · intro h; split at h <;> cases h
    · intro h; omega
  · simp only [hc, decide_false]
    simp; omega

/-- 100 ms; the last frame at 50: at 350 all is well, at 351 it is not -/
example : ∃ (n : Nmt.Node) (es : List Ev), n.listening = true ∧ n.hb.present = true ∧ n.hb.valid = true ∧ n.hb.buf ≠ 0 ∧ n.phase = .idle ∧
    (∀ e ∈ es, steady e) ∧ lastTime es = some 50 ∧ (n.run es).1.handleRead .ready 350 none = .pdo ∧
    (n.run es).1.handleRead .ready 351 none = .heartbeatProblem := by
  refine ⟨((Node.fresh 1 true hb100).run [.call .resetCom 0, .frame (rep 0) 10, .wake, .finish true]).1,
    [.call .start 20, .frame (rep 127) 30, .frame (rep 5) 50, .wake], by decide +kernel, by decide +kernel, by decide +kernel, by decide +kernel,
    by decide +kernel, ?_, by decide +kernel, by decide +kernel, by decide +kernel⟩
  intro e he
  simp only [List.mem_cons, List.not_mem_nil, or_false] at he
  rcases he with rfl | rfl | rfl | rfl
  · exact .inr rfl
  all_goals trivial

/-- C45, no supervision.  Without the heartbeat object no history leads to a heartbeat problem; with an interval of zero neither. -/
theorem C45_no_interval (n : Nmt.Node) (st : LayerState) (now : Int) (sdo : Option (BitVec 16)) :
    (n.hb.present = false → ∀ es, (n.run es).1.handleRead st now sdo ≠ .heartbeatProblem) ∧
    (n.hb.valid = true → n.hb.buf = 0 → n.handleRead st now sdo ≠ .heartbeatProblem) := by
  have key : ∀ m : Nmt.Node, (m.hb.interval sdo).2 = some 0 → m.handleRead st now sdo ≠ .heartbeatProblem := by
    intro m hm
    unfold Node.handleRead Node.checkHeartbeat
    rw [hm]
    simp only
    split
    · simp only [if_true]
      split <;> exact fun h => by cases h
    · exact fun h => by cases h
  constructor
  · intro hp es
    apply key
    have := run_hb_off n hp es
    simp [Hb.interval, this]
  · intro hv hb
    apply key
    rw [interval_ready n.hb (.inr hv), hb]
    simp

example : ∃ n : Nmt.Node, n.hb.present = false ∧ ∃ es : List Ev, es ≠ [] ∧ (n.run es).1.state = 5 :=
  ⟨.fresh 1 true { hb0 with present := false }, rfl, [.frame (rep 5) 3], by simp, by decide +kernel⟩

/-- C45, what a read cycle does: nothing before the node is initialised; otherwise it reports the heartbeat problem if there is one, else
that the node is not operational if its last known state is any other than 5, and only else it reads the process data. -/
theorem C45_read_cycle (n : Nmt.Node) (st : LayerState) (now : Int) (sdo : Option (BitVec 16)) :
    (n.handleRead st now sdo = .nothing ↔ st = .off ∨ st = .init) ∧
    (n.handleRead st now sdo = .pdo → n.state = 5) ∧ (n.handleRead st now sdo = .notOperational → n.state ≠ 5) ∧
    (n.hb.present = false → LayerState.init.toNat < st.toNat → n.handleRead st now sdo = if n.state = 5 then .pdo else .notOperational) := by
  have hop : Operational = 5 := rfl
  unfold Node.handleRead
  refine ⟨?_, ?_, ?_, ?_⟩
  · cases st <;> simp [LayerState.toNat] <;> (split <;> (try split)) <;> simp
  · split
    · split
      · intro h; cases h
      · intro h; cases h
      · split
        · intro h; cases h
        · rename_i h; intro _; rw [← hop]; exact Decidable.not_not.1 h
    · intro h; cases h
  · split
    · split
      · intro h; cases h
      · intro h; cases h
      · split
        · rename_i h; intro _; rwa [← hop]
        · intro h; cases h
    · intro h; cases h
  · intro hp hst
    rw [if_pos hst]
    have : (n.hb.interval sdo).2 = some 0 := by simp [Hb.interval, hp]
    unfold Node.checkHeartbeat
    rw [this]
    simp only [if_true, hop]
    split <;> simp_all

example : (Node.fresh 1 true { hb0 with present := false }).handleRead .ready 0 none = .notOperational ∧
    (((Node.fresh 1 true { hb0 with present := false }).run [.frame (rep 127) 3]).1.handleRead .ready 0 none = .notOperational) ∧
    ((Node.fresh 1 true { hb0 with present := false }).run [.frame (rep 5) 3]).1.handleRead .error 0 none = .pdo := by decide +kernel

/-- What `C45_heartbeat_partial` leaves out: after a reset the interval is written without starting its time-out.  Here the device reports
its boot-up and one millisecond later the read cycle reports a heartbeat problem although the interval is 100 ms. -/
theorem C45_interval_changed :
    ∃ es : List Ev, lastTime es = some 1000 ∧ ((Node.fresh 1 true hb100).run es).1.hb.buf = 100 ∧
      ((Node.fresh 1 true hb100).run es).1.handleRead .ready 1001 none = .heartbeatProblem :=
  ⟨[.call .resetCom 0, .frame (rep 0) 1000, .wake, .finish true], by decide +kernel, by decide +kernel, by decide +kernel⟩

end Verif.Props
