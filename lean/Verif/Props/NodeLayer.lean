import Verif.Lemmas.NodeLayer

/-! # C89: initialising, recovering and shutting down a node -/

namespace Verif.Props
open Verif Verif.Nmt Verif.Lay Verif.Spec.NodeLayer

/-- a report of state `b` by node 1 (only for the examples) -/
private def news (b : Byte) : Frame :=
  { id := 0x701, isError := false, isRtr := false, isExtended := false, data := #v[b, 0, 0, 0, 0, 0, 0, 0], dlc := 1 }

private def noHb : Hb := { present := true, dflt := some 0, conf := some 0, buf := 0, valid := true }
private def someHb : Hb := { present := true, dflt := some 0, conf := some 100, buf := 0, valid := true }

/-- a device that answers everything (only for the examples) -/
private def allWell : List IEv :=
  [.next .works 0, .next .works 0, .next .works 0, .frame (news 0) 10, .wake, .finish true false, .next .works 20, .next .works 30, .next .works 40,
   .next .works 50, .frame (news 5) 60]

/-! ## initialisation -/

/-- C89.  At every point of every initialisation, whatever the device and the other thread do, the work done so far is an initial part of: send the
reset command to this node, complete the reset, set up the PDOs, write the configured values, send the start command.  If the handler ends without a
complaint, all of it was done, so no failure of a part is swallowed. -/
theorem C89_init_order (n : Nmt.Node) (hi : n.phase = .idle) (es : List IEv) :
    work (n.beginInit.run es).log <+: plan n.id ∧
    ((n.beginInit.run es).pc = .done .fine → work (n.beginInit.run es).log = plan n.id) := by
  have h := (run_inv' n false _ es (begin_inv n hi)).work
  refine ⟨plan_take n.id _ h, fun hp => ?_⟩
  rw [hp] at h
  exact h

example : ∃ (n : Nmt.Node) (es : List IEv), n.phase = .idle ∧ (n.beginInit.run es).pc = .done .fine ∧ 0 < (work (n.beginInit.run es).log).length :=
  ⟨.fresh 1 true someHb, allWell ++ [.wake], rfl, by decide +kernel, by decide +kernel⟩

example : ∃ (n : Nmt.Node) (es : List IEv), n.phase = .idle ∧ (n.beginInit.run es).pc = .done .error :=
  ⟨.fresh 1 true someHb, allWell ++ [.frame (news 127) 70, .expire 2050 none false], rfl, by decide +kernel⟩

/-- C89.  From its first statement on, an initialising node hears its device, also after a shutdown, which ended the listening. -/
theorem C89_init_listens (n : Nmt.Node) (es : List IEv) :
    ((n.beginInit.run es).pc ≠ .listen → (n.beginInit.run es).node.listening = true) := by
  have hstep : ∀ (i : Initing) (e : IEv), (i.pc ≠ .listen → i.node.listening = true) → ((i.step e).pc ≠ .listen → (i.step e).node.listening = true) := by
    intro i e h
    have hl : ∀ e : Ev, e ≠ .unlisten → (i.node.step e).1.listening = i.node.listening := fun e he => step_listening i.node e he
    have hcont : ∀ (e : Ev) (to : Bool), e ≠ .unlisten → ((i.cont e to).pc ≠ .listen → (i.cont e to).node.listening = true) := by
      intro e to he hp
      cases hpc : i.pc <;> simp only [Initing.cont, hpc, Initing.command] at hp ⊢ <;> (repeat' split) <;>
        simp_all
    cases e with
    | frame f now =>
      have hf := hl (.frame f now) (by simp)
      simp only [Initing.step, Initing.frame]
      split <;> (intro hp; rw [show (_ : Nmt.Node).listening = i.node.listening from hf]; exact h hp)
    | next p now =>
      have h1 := hl (.call .resetCom now) (by simp)
      have h2 := hl (.call .start now) (by simp)
      cases hpc : i.pc <;> simp only [Initing.step, Initing.next, hpc] <;> (repeat' split) <;> simp_all
    | wake => exact hcont _ _ (by simp)
    | expire now sdo to => exact hcont _ _ (by simp)
    | finish ok to => exact hcont _ _ (by simp)
  have hrun : ∀ (es : List IEv) (i : Initing), (i.pc ≠ .listen → i.node.listening = true) →
      ((i.run es).pc ≠ .listen → (i.run es).node.listening = true) := by
    intro es
    induction es with
    | nil => exact fun i h => h
    | cons e es ih => exact fun i h => ih (i.step e) (hstep i e h)
  exact hrun es n.beginInit (fun h => absurd rfl h)

/-- a node that was shut down is initialised again -/
example : let n : Nmt.Node := { Nmt.Node.fresh 1 true someHb with listening := false }
    (n.beginInit.run [.frame (news 0) 0]).node.listening = false ∧ (n.beginInit.run (allWell ++ [.wake])).pc = .done .fine ∧
    (n.beginInit.run (allWell ++ [.wake])).node.state = 5 := by
  refine ⟨by decide +kernel, by decide +kernel, by decide +kernel⟩

/-- C89.  For a node that is not believed to have just booted: when the handler ends without a complaint, the device reported a boot-up before the
reset counted as complete (a reset is never assumed), the node is operational, and that is the latest news. -/
theorem C89_init_result (n : Nmt.Node) (hi : n.phase = .idle) (h0 : n.state ≠ 0) (es : List IEv) (e : IEv)
    (hn : ∀ x, (n.beginInit.run es).pc ≠ .done x) (hd : (n.beginInit.run (es ++ [e])).pc = .done .fine) :
    (n.beginInit.run (es ++ [e])).node.state = 5 ∧ Latest (n.beginInit.run (es ++ [e])).log 5 ∧
    ∃ l1 l2, (n.beginInit.run (es ++ [e])).log = l1 ++ .isReset :: l2 ∧ Item.told 0 ∈ l1 ∧ Latest l2 5 := by
  have hr : n.beginInit.run (es ++ [e]) = (n.beginInit.run es).step e := by simp [Initing.run]
  have hI := run_inv' n false _ es (begin_inv n hi)
  have hJ := step_inv n false _ e hI
  rw [hr] at hd ⊢
  obtain ⟨h1, h2 | ⟨h2, _⟩⟩ := step_fine n false _ e hI hn hd
  · have hm : Item.isReset ∈ ((n.beginInit.run es).step e).log := by
      rw [← mem_work]
      have := hJ.work
      rw [hd] at this
      rw [show work ((n.beginInit.run es).step e).log = plan n.id from this]
      simp [plan]
    obtain ⟨l1, l2, h3, h4⟩ := hJ.ready h0 hm
    have hc : current PreOperational l2 = Operational := by
      rw [← h2, h1, h3, current_append]
      rfl
    have hno : Item.isReset ∉ l2 := by
      have := hJ.work
      rw [hd, h3, work_append] at this
      have hw : work l1 ++ Item.isReset :: work l2 = plan n.id := this
      intro hx
      have hx := (mem_work l2).mpr hx
      have hcnt := congrArg (fun l => (l.filter fun x => match x with | .isReset => true | _ => false).length) hw
      simp only [List.filter_append, List.length_append, List.filter_cons, plan] at hcnt
      have : 0 < ((work l2).filter fun x => match x with | .isReset => true | _ => false).length := by
        apply List.length_pos_of_mem (a := Item.isReset)
        simp [hx]
      simp only [if_true, List.length_cons, List.filter_nil, List.length_nil, reduceCtorEq, if_false] at hcnt
      simp at hcnt
      omega
    have hl : Latest l2 5 := by
      rcases current_latest _ _ _ hc with h | ⟨h, _⟩ | ⟨h, _⟩
      · exact h
      · exact absurd h (by decide)
      · exact absurd h (by decide)
    refine ⟨h2, ?_, l1, l2, h3, h4, hl⟩
    rw [h3]
    obtain ⟨m1, x, m2, h5, h6⟩ := hl
    exact ⟨l1 ++ .isReset :: m1, x, m2, by rw [h5]; simp, h6⟩
  · cases h2

example : ∃ (n : Nmt.Node) (es : List IEv) (e : IEv), n.phase = .idle ∧ n.state ≠ 0 ∧ (∀ x, (n.beginInit.run es).pc ≠ .done x) ∧
    (n.beginInit.run (es ++ [e])).pc = .done .fine := by
  refine ⟨.fresh 1 true someHb, allWell, .wake, rfl, by decide, ?_, by decide +kernel⟩
  rw [show ((Nmt.Node.fresh 1 true someHb).beginInit.run allWell).pc = .starting from by decide +kernel]
  simp

/-- C89: an assumed state needs a heartbeat interval of zero and a time-out.  Without heartbeat the initialisation succeeds without any report that the
device is operational. -/
theorem C89_init_assumes : ∃ es : List IEv,
    ((Nmt.Node.fresh 1 true noHb).beginInit.run es).pc = .done .fine ∧ (∀ f t, IEv.frame f t ∈ es → f.data[0] ≠ 5) ∧
    ((Nmt.Node.fresh 1 true noHb).beginInit.run es).node.synced = true := by
  refine ⟨[.next .works 0, .next .works 0, .next .works 0, .frame (news 0) 10, .wake, .finish true false, .next .works 20, .next .works 30,
    .next .works 40, .next .works 50, .expire 2050 none false], by decide +kernel, ?_, by decide +kernel⟩
  intro f t h
  simp only [List.mem_cons, IEv.frame.injEq, reduceCtorEq, false_or, List.not_mem_nil, or_false] at h
  rw [h.1]
  decide

/-- C89 is false for the order of boot-up and reset command: a boot-up message that is handled before the reset command is sent counts as its
confirmation, here with a device that never reacts to the command. -/
theorem C89_early_boot_false : ∃ es : List IEv, ∃ l, ((Nmt.Node.fresh 1 true noHb).beginInit.run es).pc = .pdo ∧
    ((Nmt.Node.fresh 1 true noHb).beginInit.run es).log = .told 0 :: l ∧ ∀ x ∈ l, ∀ s, x ≠ .told s :=
  ⟨[.next .works 0, .frame (news 0) 1, .next .works 2, .next .works 3, .wake, .finish true false], [.sent (command 130 1), .isReset],
    by decide +kernel, rfl, by simp⟩

/-- C89.  No initialisation waits for ever: the reset command, sent at `t`, is waited for until `t` + 10 s, the start command until `t` + 2 s, whatever
frames arrive; then the wait ends. -/
theorem C89_init_waits (i : Initing) (hi : i.node.phase = .idle) (t now : Int) (fs : List (Frame × Int)) (sdo : Option (BitVec 16)) (to : Bool) :
    (i.pc = .reset → t + 10000 ≤ now → ∀ d,
      (i.run (.next .works t :: (fs.map fun p => .frame p.1 p.2) ++ [.expire now sdo to])).node.phase ≠ .waiting .resetCom d) ∧
    (i.pc = .start → t + 2000 ≤ now → ∃ r,
      (i.run (.next .works t :: (fs.map fun p => .frame p.1 p.2) ++ [.expire now sdo to])).pc = .done r) := by
  constructor
  · intro hp ht d
    have hs : i.step (.next .works t) =
        { i with node := (i.node.step (.call .resetCom t)).1, pc := .resetting, log := i.log ++ items (i.node.step (.call .resetCom t)).2 } := by
      simp [Initing.step, Initing.next, hp]
    have hrun : i.run (.next .works t :: (fs.map fun p => .frame p.1 p.2) ++ [.expire now sdo to]) =
        ((i.step (.next .works t)).run (fs.map fun p => .frame p.1 p.2)).step (.expire now sdo to) := by
      simp [Initing.run]
    obtain ⟨h1, h2⟩ := frames_phase (i.step (.next .works t)) fs
    rw [hs, call_step _ _ _ hi] at h1 h2
    rw [hrun, hs, call_step _ _ _ hi]
    generalize Initing.run _ _ = j at h1 h2 ⊢
    obtain ⟨nd, pc, log, rc⟩ := j
    obtain ⟨nid, nsync, nst, nhb, nt, nsy, nl, nph⟩ := nd
    dsimp only at h1 h2
    subst h1 h2
    have ht' : ¬ now < t + Cmd.resetCom.timeout := by
      show ¬ now < t + 10000
      omega
    by_cases hst : nst = BootUp
    · simp [Initing.step, Initing.cont, Initing.command, Node.step, ht', hst, Cmd.target, Node.waited, Cmd.isReset, items]
    · cases hv : nhb.interval sdo with
      | mk hb o =>
        cases o with
        | none => simp [Initing.step, Initing.cont, Initing.command, Node.step, ht', hst, hv, Cmd.target, items]
        | some v =>
          by_cases h0 : v = 0#16
          · simp [Initing.step, Initing.cont, Initing.command, Node.step, ht', hst, hv, h0, Node.switchState, Cmd.target, Node.waited, Cmd.isReset, items]
          · simp [Initing.step, Initing.cont, Initing.command, Node.step, ht', hst, hv, h0, Cmd.target, Node.waited, Cmd.isReset, items]
  · intro hp ht
    have hs : i.step (.next .works t) =
        { i with node := (i.node.step (.call .start t)).1, pc := .starting, log := i.log ++ items (i.node.step (.call .start t)).2 } := by
      simp [Initing.step, Initing.next, hp]
    have hrun : i.run (.next .works t :: (fs.map fun p => .frame p.1 p.2) ++ [.expire now sdo to]) =
        ((i.step (.next .works t)).run (fs.map fun p => .frame p.1 p.2)).step (.expire now sdo to) := by
      simp [Initing.run]
    obtain ⟨h1, h2⟩ := frames_phase (i.step (.next .works t)) fs
    rw [hs, call_step _ _ _ hi] at h1 h2
    rw [hrun, hs, call_step _ _ _ hi]
    generalize Initing.run _ _ = j at h1 h2 ⊢
    obtain ⟨nd, pc, log, rc⟩ := j
    obtain ⟨nid, nsync, nst, nhb, nt, nsy, nl, nph⟩ := nd
    dsimp only at h1 h2
    subst h1 h2
    have ht' : ¬ now < t + Cmd.start.timeout := by
      show ¬ now < t + 2000
      omega
    by_cases hst : nst = Operational
    · simp [Initing.step, Initing.cont, Initing.command, Node.step, ht', hst, Cmd.target, Node.waited, Cmd.isReset, items]
    · cases hv : nhb.interval sdo with
      | mk hb o =>
        cases o with
        | none => simp [Initing.step, Initing.cont, Initing.command, Node.step, ht', hst, hv, Cmd.target, items]
        | some v =>
          by_cases h0 : v = 0#16
          · simp [Initing.step, Initing.cont, Initing.command, Node.step, ht', hst, hv, h0, Node.switchState, Cmd.target, Node.waited, Cmd.isReset, items]
          · simp [Initing.step, Initing.cont, Initing.command, Node.step, ht', hst, hv, h0, Cmd.target, Node.waited, Cmd.isReset, items]

example : ∃ i : Initing, i.node.phase = .idle ∧ i.pc = .reset :=
  ⟨(Nmt.Node.fresh 1 true someHb).beginInit.run [.next .works 0, .next .works 0], by decide +kernel, by decide +kernel⟩

example : ∃ i : Initing, i.node.phase = .idle ∧ i.pc = .start :=
  ⟨(Nmt.Node.fresh 1 true someHb).beginInit.run (allWell.take 9), by decide +kernel, by decide +kernel⟩

/-! ## recovery -/

/-- C89, recovery.  Exactly one frame is sent, the start command for this node; and when the handler ends without a complaint, the node is operational
— or the wait for it timed out although the device has a heartbeat.  The second case should be a complaint: `C89_recover_false`. -/
theorem C89_recover_partial (n : Nmt.Node) (hi : n.phase = .idle) (now : Int) (es : List IEv) (e : IEv)
    (hn : ∀ x, ((n.beginRecover now).run es).pc ≠ .done x) (hd : ((n.beginRecover now).run (es ++ [e])).pc = .done .fine) :
    work ((n.beginRecover now).run (es ++ [e])).log = [.sent (command 1 n.id)] ∧
    (((n.beginRecover now).run (es ++ [e])).node.state = 5 ∨
      ∃ t sdo to v, e = .expire t sdo to ∧ (((n.beginRecover now).run es).node.hb.interval sdo).2 = some v ∧ v ≠ 0) := by
  have hr : (n.beginRecover now).run (es ++ [e]) = ((n.beginRecover now).run es).step e := by simp [Initing.run]
  have hI := run_inv' n true _ es (recover_inv n now hi)
  have hJ := step_inv n true _ e hI
  rw [hr] at hd ⊢
  constructor
  · have := hJ.work
    rw [hd] at this
    exact this
  · obtain ⟨_, h2 | ⟨_, h2⟩⟩ := step_fine n true _ e hI hn hd
    · exact Or.inl h2
    · exact Or.inr h2

example : ∃ (n : Nmt.Node) (now : Int) (es : List IEv) (e : IEv), n.phase = .idle ∧ (∀ x, ((n.beginRecover now).run es).pc ≠ .done x) ∧
    ((n.beginRecover now).run (es ++ [e])).pc = .done .fine ∧ n.state ≠ 5 := by
  refine ⟨.fresh 1 true someHb, 0, [.frame (news 5) 10], .wake, rfl, ?_, by decide +kernel, by decide⟩
  rw [show (((Nmt.Node.fresh 1 true someHb).beginRecover 0).run [.frame (news 5) 10]).pc = .starting from by decide +kernel]
  simp

private def hb250 : Hb := { present := true, dflt := some 250, conf := some 250, buf := 250, valid := true }

/-- C89 is false for recovery: the result of `start` is dropped, so a device that stays stopped is reported as recovered. -/
theorem C89_recover_false : ∃ es : List IEv, (((Nmt.Node.fresh 1 true hb250).beginRecover 0).run es).pc = .done .fine ∧
    (((Nmt.Node.fresh 1 true hb250).beginRecover 0).run es).node.state = 4 :=
  ⟨[.frame (news 4) 10, .expire 2000 none false], by decide +kernel, by decide +kernel⟩

/-! ## shut-down -/

/-- C89, shut-down.  Whatever is received meanwhile: when the handler ends normally, exactly one frame was sent, the stop command for this node; the
node no longer listens and its state is unknown; the heartbeat of the device was switched off unless its interval was zero. -/
theorem C89_shutdown (n : Nmt.Node) (hi : n.phase = .idle) (es : List SEv) (hd : (n.beginShutdown.run es).pc = .done .fine) :
    (n.beginShutdown.run es).sent = [command 2 n.id] ∧ (n.beginShutdown.run es).node.listening = false ∧ (n.beginShutdown.run es).node.state = 255 ∧
    (n.hb.present = true → n.hb.valid = true → n.hb.buf ≠ 0 → (n.beginShutdown.run es).hbOff = true) := by
  have h := (close_run n _ es (close_begin n hi)).fine hd
  refine ⟨h.1, h.2.1, h.2.2, fun hp hv hb => ?_⟩
  have := (hb_run n (Or.inr hv) n.beginShutdown es ⟨fun _ => rfl, fun h => absurd rfl h.1⟩).2 (by rw [hd]; simp)
  rcases this with h | h | h
  · exact h
  · rw [hp] at h; cases h
  · exact absurd h hb

example : ∃ (n : Nmt.Node) (es : List SEv), n.phase = .idle ∧ (n.beginShutdown.run es).pc = .done .fine ∧ n.hb.present = true ∧ n.hb.valid = true ∧
    n.hb.buf ≠ 0 ∧ n.synced = true :=
  ⟨((Nmt.Node.fresh 1 true hb250).step (.frame (news 5) 0)).1, [.next none true, .frame (news 5) 1, .next none true, .next none true, .next none true],
    by decide +kernel, by decide +kernel, by decide +kernel, by decide +kernel, by decide +kernel, by decide +kernel⟩

/-- C89, shut-down.  If in addition no report of the operational state is handled meanwhile, the node no longer counts for the SYNC producer.  With
such a report it can: `C89_shutdown_synced_false`. -/
theorem C89_shutdown_unsynced_partial (n : Nmt.Node) (hi : n.phase = .idle) (hs : n.hasSync = true) (es : List SEv)
    (hd : (n.beginShutdown.run es).pc = .done .fine) (ho : NoOperational es) : (n.beginShutdown.run es).node.synced = false :=
  unsynced_run n hs _ es (close_begin n hi) (by simp [Unsynced, Node.beginShutdown]) ho (Or.inr (Or.inr hd))

example : ∃ (n : Nmt.Node) (es : List SEv), n.phase = .idle ∧ n.hasSync = true ∧ (n.beginShutdown.run es).pc = .done .fine ∧ NoOperational es ∧
    n.synced = true := by
  refine ⟨((Nmt.Node.fresh 1 true hb250).step (.frame (news 5) 0)).1, [.next none true, .frame (news 4) 1, .next none true, .next none true, .next none true],
    by decide +kernel, by decide +kernel, by decide +kernel, ?_, by decide +kernel⟩
  intro f t h
  simp only [List.mem_cons, SEv.frame.injEq, reduceCtorEq, false_or, List.not_mem_nil, or_false] at h
  rw [h.1]
  decide

/-- C89 is false for a report that comes between the stop command and the end of the subscription: the node has been shut down, but still counts for the
SYNC producer. -/
theorem C89_shutdown_synced_false : ∃ es : List SEv, ((Nmt.Node.fresh 1 true noHb).beginShutdown.run es).pc = .done .fine ∧
    ((Nmt.Node.fresh 1 true noHb).beginShutdown.run es).node.synced = true :=
  ⟨[.next none true, .next none true, .frame (news 5) 1, .next none true, .next none true], by decide +kernel, by decide +kernel⟩

/-- C89, shut-down.  If the handler is left by an exception, which happens exactly when the heartbeat cannot be switched off, nothing was sent: the
device was not stopped, and the node goes on listening. -/
theorem C89_shutdown_exception (n : Nmt.Node) (hi : n.phase = .idle) (es : List SEv) (hd : (n.beginShutdown.run es).pc = .done .exception) :
    (n.beginShutdown.run es).sent = [] ∧ (n.beginShutdown.run es).hbOff = false ∧ (n.beginShutdown.run es).node.listening = n.listening :=
  (close_run n _ es (close_begin n hi)).failed hd

example : ∃ es : List SEv, ((Nmt.Node.fresh 1 true hb250).step (.frame (news 5) 0)).1.phase = .idle ∧
    ((((Nmt.Node.fresh 1 true hb250).step (.frame (news 5) 0)).1.beginShutdown).run es).pc = .done .exception :=
  ⟨[.next none false], by decide +kernel, by decide +kernel⟩

/-- C89 is false for a device that does not answer: it is not stopped, its state stays operational and it still counts for the SYNC producer.  A
second attempt ends normally although the device was never told to stop its heartbeat. -/
theorem C89_shutdown_false : ∃ (n : Nmt.Node) (es1 es2 : List SEv), n.phase = .idle ∧
    (n.beginShutdown.run es1).pc = .done .exception ∧ (n.beginShutdown.run es1).sent = [] ∧ (n.beginShutdown.run es1).node.state = 5 ∧
    (n.beginShutdown.run es1).node.synced = true ∧
    ((n.beginShutdown.run es1).node.beginShutdown.run es2).pc = .done .fine ∧
    ((n.beginShutdown.run es1).node.beginShutdown.run es2).hbOff = false :=
  ⟨((Nmt.Node.fresh 1 true hb250).step (.frame (news 5) 0)).1, [.next none false], [.next none true, .next none true, .next none true, .next none true],
    by decide +kernel, by decide +kernel, rfl, by decide +kernel, by decide +kernel, by decide +kernel, by decide +kernel⟩

/-! ## diagnostics and writing -/

/-- C89.  The diagnostics report a node that is not operational, with its state, otherwise a heartbeat that is more than three intervals old (the stored
deadline has passed), otherwise nothing. -/
theorem C89_diag (n : Nmt.Node) (hr : n.hb.present = true) (hv : n.hb.valid = true) (now : Int) (sdo : Option (BitVec 16)) :
    (n.state ≠ 5 → n.handleDiag now sdo = .notOperational n.state) ∧
    (n.state = 5 → (n.handleDiag now sdo = .heartbeatTimeout ↔ n.hb.buf ≠ 0 ∧ n.hbTimeout < now) ∧
      (n.handleDiag now sdo = .nothing ↔ n.hb.buf = 0 ∨ now ≤ n.hbTimeout)) := by
  refine ⟨fun h => by simp [Node.handleDiag, show n.state ≠ Operational from h], fun h => ?_⟩
  by_cases hz : n.hb.buf = 0#16
  · simp [Node.handleDiag, h, Operational, Node.checkHeartbeat, Hb.interval, hr, hv, hz]
  · by_cases ht : n.hbTimeout < now
    · have : ¬ now ≤ n.hbTimeout := by omega
      simp [Node.handleDiag, h, Operational, Node.checkHeartbeat, Hb.interval, hr, hv, hz, ht, this]
    · have : now ≤ n.hbTimeout := by omega
      simp [Node.handleDiag, h, Operational, Node.checkHeartbeat, Hb.interval, hr, hv, hz, ht, this]

example : ∃ (n : Nmt.Node) (now : Int), n.hb.present = true ∧ n.hb.valid = true ∧ n.state = 5 ∧ n.handleDiag now none = .heartbeatTimeout ∧
    n.handleDiag (now - 1) none = .nothing :=
  ⟨((Nmt.Node.fresh 1 true hb250).step (.frame (news 5) 1000)).1, 1751, by decide +kernel, by decide +kernel, by decide +kernel, by decide +kernel,
    by decide +kernel⟩

/-- C89.  Process data is sent exactly in the cycles of an initialised node that is operational; a problem is reported exactly if the node is not
operational or the PDOs cannot be sent. -/
theorem C89_write (n : Nmt.Node) (st : LayerState) (pdo : Bool) :
    (n.handleWrite st pdo = .written ↔ (st = .shutdown ∨ st = .error ∨ st = .halt ∨ st = .recover ∨ st = .ready) ∧ n.state = 5 ∧ pdo = true) ∧
    (n.handleWrite st pdo = .nothing ↔ st = .off ∨ st = .init) := by
  by_cases h : n.state = 5#8 <;> cases st <;> cases pdo <;> simp [Node.handleWrite, LayerState.toNat, h, Operational]

example : (((Nmt.Node.fresh 1 true hb250).step (.frame (news 5) 1000)).1.handleWrite .ready true) = .written := by decide +kernel

end Verif.Props
