import Verif.Spec.Node

set_option linter.unusedSimpArgs false
set_option linter.unusedVariables false

namespace Verif.Nmt
open Verif Verif.Lay Verif.Spec.Node

theorem run_append (n : Node) (a b : List Ev) :
    n.run (a ++ b) = ((((n.run a).1).run b).1, (n.run a).2 ++ (((n.run a).1).run b).2) := by
  induction a generalizing n with
  | nil => simp [Node.run]
  | cons e es ih => simp only [List.cons_append, Node.run, ih, List.append_assoc]

theorem run_snoc (n : Node) (a : List Ev) (e : Ev) :
    n.run (a ++ [e]) = (((n.run a).1.step e).1, (n.run a).2 ++ ((n.run a).1.step e).2) := by
  rw [run_append]; simp [Node.run]

/-- induction over histories, last event first -/
theorem run_induction (n : Node) (P : List Ev → Prop) (h0 : P []) (h1 : ∀ es e, P es → P (es ++ [e])) (es : List Ev) : P es := by
  have : ∀ l : List Ev, P l.reverse := by
    intro l
    induction l with
    | nil => exact h0
    | cons e l ih => rw [List.reverse_cons]; exact h1 _ _ ih
  have := this es.reverse
  rwa [List.reverse_reverse] at this

theorem interval_ready (h : Hb) (hr : h.present = false ∨ h.valid = true) (sdo : Option (BitVec 16)) :
    h.interval sdo = (h, some (if h.present then h.buf else 0)) := by
  unfold Hb.interval
  rcases hr with hr | hr
  · simp [hr]
  · cases hp : h.present <;> simp [hr, hp]

theorem switchState_state (n : Node) (s : Byte) : (n.switchState s).1.state = s := by
  unfold Node.switchState
  by_cases h : n.state = s
  · simp [h]
  · simp [h]

theorem switchState_out (n : Node) (s : Byte) : (n.switchState s).2 = if s = n.state then [] else [.notify s] := by
  unfold Node.switchState
  by_cases h : n.state = s
  · simp [h]
  · have h' : ¬ s = n.state := fun e => h e.symm
    simp [h, h']

theorem switchState_rest (n : Node) (s : Byte) : (n.switchState s).1.hb = n.hb ∧ (n.switchState s).1.phase = n.phase ∧
    (n.switchState s).1.listening = n.listening ∧ (n.switchState s).1.hbTimeout = n.hbTimeout ∧ (n.switchState s).1.id = n.id ∧
    (n.switchState s).1.hasSync = n.hasSync := by
  unfold Node.switchState
  by_cases h : n.state = s <;> simp [h]

theorem switchState_synced (n : Node) (s : Byte) :
    (n.switchState s).1.synced =
      if s = Operational then (if n.state ≠ s ∧ n.hasSync = true then true else n.synced)
      else if s = BootUp ∨ s = PreOperational ∨ s = Stopped then (if n.state ≠ s ∧ n.hasSync = true then false else n.synced)
      else n.synced := by
  unfold Node.switchState
  by_cases h : n.state = s <;> simp [h]

theorem waited_state (n : Node) (c : Cmd) (r : Int) : (n.waited c r).1.state = n.state ∧ (n.waited c r).1.synced = n.synced ∧
    (n.waited c r).1.hasSync = n.hasSync ∧ (n.waited c r).1.hb = n.hb ∧ (n.waited c r).1.listening = n.listening ∧
    (n.waited c r).1.hbTimeout = n.hbTimeout ∧ (n.waited c r).1.id = n.id := by
  unfold Node.waited
  split <;> (try split) <;> simp

theorem handleNMT_ready (n : Node) (hr : n.hb.present = false ∨ n.hb.valid = true) (f : Frame) (now : Int) :
    n.handleNMT f now = ({ n with hbTimeout := if (if n.hb.present then n.hb.buf else 0) ≠ 0 then now + 3 * (if n.hb.present then n.hb.buf else (0 : BitVec 16)).toNat else n.hbTimeout }).switchState f.data[0] := by
  unfold Node.handleNMT
  rw [interval_ready _ hr]

/-- frames only -/
theorem frames_run (n : Node) (hl : n.listening = true) (hr : n.hb.present = false ∨ n.hb.valid = true) (fs : List (Frame × Int)) :
    (n.run (fs.map fun p => .frame p.1 p.2)).1.state = ((reports (fs.map fun p => .frame p.1 p.2)).getLast?).getD n.state ∧
    (n.run (fs.map fun p => .frame p.1 p.2)).2 = (changes n.state (reports (fs.map fun p => .frame p.1 p.2))).map .notify := by
  induction fs generalizing n with
  | nil => simp [Node.run, reports, changes]
  | cons p fs ih =>
    obtain ⟨f, t⟩ := p
    simp only [List.map_cons, Node.run, Node.step, hl, if_true, reports]
    rw [handleNMT_ready n hr]
    generalize hm : ({ n with hbTimeout := if (if n.hb.present then n.hb.buf else 0) ≠ 0 then t + 3 * (if n.hb.present then n.hb.buf else (0 : BitVec 16)).toNat else n.hbTimeout } : Node) = m
    have e1 : m.state = n.state := by rw [← hm]
    have e2 : m.hb = n.hb := by rw [← hm]
    have e3 : m.listening = n.listening := by rw [← hm]
    obtain ⟨r1, r2, r3, -⟩ := switchState_rest m f.data[0]
    obtain ⟨h1, h2⟩ := ih (m.switchState f.data[0]).1 (by rw [r3, e3, hl]) (by rw [r1, e2]; exact hr)
    constructor
    · rw [h1, switchState_state]
      cases hrep : reports (fs.map fun p => Ev.frame p.1 p.2) with
      | nil => simp
      | cons b bs => simp [List.getLast?_cons]
    · rw [h2, switchState_state, switchState_out, e1]
      simp only [changes]
      split
      · rename_i he; rw [he]; simp
      · simp

theorem reports_append (a b : List Ev) : reports (a ++ b) = reports a ++ reports b := by
  induction a with
  | nil => rfl
  | cons e es ih => cases e <;> simp [reports, ih]

theorem handleNMT_state (n : Node) (f : Frame) (t : Int) :
    (n.handleNMT f t).1.state = f.data[0] ∨ ((n.handleNMT f t).1.state = n.state ∧ (n.handleNMT f t).2 = [.escaped]) := by
  unfold Node.handleNMT
  cases h : n.hb.interval none with
  | mk hb o =>
    cases o with
    | none => right; exact ⟨rfl, rfl⟩
    | some v => left; simp only; rw [switchState_state]

theorem handleNMT_rest (n : Node) (f : Frame) (t : Int) :
    (n.handleNMT f t).1.phase = n.phase ∧ (n.handleNMT f t).1.listening = n.listening ∧ (n.handleNMT f t).1.hasSync = n.hasSync ∧
    (n.handleNMT f t).1.id = n.id := by
  unfold Node.handleNMT
  cases h : n.hb.interval none with
  | mk hb o =>
    cases o with
    | none => exact ⟨rfl, rfl, rfl, rfl⟩
    | some v =>
      simp only
      refine ⟨?_, ?_, ?_, ?_⟩ <;> simp [switchState_rest]

theorem handleNMT_synced (n : Node) (f : Frame) (t : Int) (hs : standard f.data[0]) (hn : n.hasSync = false → n.synced = false)
    (h : n.synced = true → n.state = Operational) :
    (n.handleNMT f t).1.synced = true → (n.handleNMT f t).1.state = Operational := by
  unfold Node.handleNMT
  cases hi : n.hb.interval none with
  | mk hb o =>
    cases o with
    | none => exact h
    | some v =>
      simp only
      rw [switchState_state, switchState_synced]
      simp only
      intro h1
      by_cases h5 : f.data[0] = Operational
      · exact h5
      · exfalso
        have hb' : f.data[0] = BootUp ∨ f.data[0] = PreOperational ∨ f.data[0] = Stopped := by
          rcases hs with hs | hs | hs | hs
          · exact .inl hs
          · exact .inr (.inr hs)
          · exact absurd hs h5
          · exact .inr (.inl hs)
        rw [if_neg h5, if_pos hb'] at h1
        split at h1
        · cases h1
        · rename_i hc
          have hst := h h1
          apply hc
          refine ⟨fun e => h5 (by rw [← e, hst]), ?_⟩
          cases hh : n.hasSync with
          | true => rfl
          | false => rw [hn hh] at h1; cases h1

/-- what holds of SYNC membership in undisturbed histories -/
structure SyncInv (n : Node) : Prop where
  nosync : n.hasSync = false → n.synced = false
  op : n.synced = true → n.state = Operational
  fin : ∀ c, n.phase = .finishing c → n.synced = false

theorem Cmd.target_known (c : Cmd) : c.target = Operational ∨ (c.target ≠ Operational ∧ (c.target = BootUp ∨ c.target = PreOperational ∨ c.target = Stopped)) := by
  cases c <;> decide

theorem Cmd.target_reset (c : Cmd) (h : c.isReset = true) : c.target ≠ Operational := by
  cases c <;> first | decide | cases h

theorem waited_inv (n : Node) (c : Cmd) (r : Int) (hst : n.state = c.target) (hi : n.hasSync = false → n.synced = false)
    (ho : n.synced = true → n.state = Operational) : SyncInv (n.waited c r).1 := by
  obtain ⟨h1, h2, h3, -⟩ := waited_state n c r
  refine ⟨by rw [h2, h3]; exact hi, by rw [h1, h2]; exact ho, ?_⟩
  intro c' hc'
  rw [h2]
  cases hs : n.synced with
  | false => rfl
  | true =>
    exfalso
    unfold Node.waited at hc'
    by_cases hr : c.isReset = true
    · exact c.target_reset hr (by rw [← hst]; exact ho hs)
    · simp [hr] at hc'

theorem waited_inv_fail (n : Node) (c : Cmd) (r : Int) (hr : r ≠ 1) (hi : n.hasSync = false → n.synced = false)
    (ho : n.synced = true → n.state = Operational) : SyncInv (n.waited c r).1 := by
  obtain ⟨h1, h2, h3, -⟩ := waited_state n c r
  refine ⟨by rw [h2, h3]; exact hi, by rw [h1, h2]; exact ho, ?_⟩
  intro c' hc'
  unfold Node.waited at hc'
  split at hc' <;> simp [hr] at hc'

theorem step_hasSync (n : Node) (e : Ev) : (n.step e).1.hasSync = n.hasSync := by
  cases e with
  | frame f t => simp only [Node.step]; split <;> simp [handleNMT_rest]
  | call c t => simp only [Node.step]; split <;> rfl
  | stop => simp only [Node.step]; split <;> rfl
  | wake =>
    simp only [Node.step]; split
    · split <;> simp [waited_state]
    · rfl
  | expire t sdo =>
    simp only [Node.step]; split
    · split
      · rfl
      · split
        · simp [waited_state]
        · cases n.hb.interval sdo with
          | mk hb o =>
            cases o with
            | none => rfl
            | some v => simp only; split <;> simp [waited_state, switchState_rest]
    · rfl
  | finish ok =>
    simp only [Node.step]; split
    · split
      · rfl
      · split
        · rfl
        · split <;> rfl
    · rfl
  | hbOff sdo ok =>
    simp only [Node.step]
    cases n.hb.interval sdo with
    | mk hb o => cases o with
      | none => rfl
      | some v => simp only; split <;> rfl
  | unlisten => rfl
  | forget => simp [Node.step, switchState_rest]

theorem step_syncInv (n : Node) (e : Ev) (h : SyncInv n)
    (hf : ∀ f t, e = .frame f t → standard f.data[0] ∧ ∀ c, n.phase ≠ .finishing c)
    (hg : e = .forget → n.synced = false ∧ n.phase = .idle) : SyncInv (n.step e).1 := by
  have hns : (n.step e).1.hasSync = false → (n.step e).1.synced = false := by
    intro hq
    rw [step_hasSync] at hq
    have hz := h.nosync hq
    cases e with
    | frame f t =>
      simp only [Node.step]; split
      · unfold Node.handleNMT
        cases hi : n.hb.interval none with
        | mk hb o =>
          cases o with
          | none => exact hz
          | some v => simp only; rw [switchState_synced]; simp [hq, hz]
      · exact hz
    | call c t => simp only [Node.step]; split <;> exact hz
    | stop => simp only [Node.step]; split <;> simp [hq, hz]
    | wake =>
      simp only [Node.step]; split
      · split <;> simp [waited_state, hz]
      · exact hz
    | expire t sdo =>
      simp only [Node.step]; split
      · split
        · exact hz
        · split
          · simp [waited_state, hz]
          · cases n.hb.interval sdo with
            | mk hb o =>
              cases o with
              | none => exact hz
              | some v => simp only; split <;> simp [waited_state, switchState_synced, hz, hq]
      · exact hz
    | finish ok =>
      simp only [Node.step]; split
      · split
        · exact hz
        · split
          · exact hz
          · split <;> exact hz
      · exact hz
    | hbOff sdo ok =>
      simp only [Node.step]
      cases n.hb.interval sdo with
      | mk hb o => cases o with
        | none => exact hz
        | some v => simp only; split <;> exact hz
    | unlisten => exact hz
    | forget => simp [Node.step, switchState_synced, hz, hq]
  cases e with
  | frame f t =>
    obtain ⟨hs, hp⟩ := hf f t rfl
    simp only [Node.step] at hns ⊢
    split
    · rename_i hl
      rw [if_pos hl] at hns
      refine ⟨hns, handleNMT_synced n f t hs h.nosync h.op, ?_⟩
      intro c hc
      rw [(handleNMT_rest n f t).1] at hc
      exact absurd hc (hp c)
    · exact h
  | call c t =>
    simp only [Node.step] at hns ⊢
    split
    · exact ⟨h.nosync, h.op, fun c hc => by cases hc⟩
    · exact h
  | stop =>
    simp only [Node.step]
    split
    · rename_i hidle
      refine ⟨fun hq => ?_, fun hq => ?_, fun c hc => ?_⟩
      · have hq' : n.hasSync = false := hq
        simp [hq', h.nosync hq']
      · cases hh : n.hasSync with
        | true => simp [hh] at hq
        | false => simp [hh, h.nosync hh] at hq
      · simp only at hc; rw [hidle] at hc; cases hc
    · exact h
  | wake =>
    simp only [Node.step]; split
    · split
      · rename_i hst; exact waited_inv _ _ _ hst h.nosync h.op
      · exact h
    · exact h
  | expire t sdo =>
    simp only [Node.step]; split
    · rename_i c d hph
      split
      · exact h
      · split
        · rename_i hst; exact waited_inv _ _ _ hst h.nosync h.op
        · rename_i hne
          cases hi : n.hb.interval sdo with
          | mk hb o =>
            cases o with
            | none => exact ⟨h.nosync, h.op, fun c hc => by cases hc⟩
            | some v =>
              simp only
              split
              · apply waited_inv_fail _ _ _ (by decide)
                · intro hq
                  rw [(switchState_rest _ _).2.2.2.2.2] at hq
                  rw [switchState_synced]
                  have hq' : n.hasSync = false := hq
                  simp [hq', h.nosync hq']
                · rw [switchState_state, switchState_synced]
                  simp only
                  intro h1
                  rcases c.target_known with ht | ⟨ht, hb'⟩
                  · exact ht
                  · exfalso
                    rw [if_neg ht, if_pos hb'] at h1
                    split at h1
                    · cases h1
                    · rename_i hc
                      apply hc
                      refine ⟨hne, ?_⟩
                      cases hh : n.hasSync with
                      | true => rfl
                      | false => rw [h.nosync hh] at h1; cases h1
              · exact waited_inv_fail _ _ _ (by decide) h.nosync h.op
    · exact h
  | finish ok =>
    simp only [Node.step]; split
    · rename_i c hph
      have hz := h.fin c hph
      split
      · exact ⟨h.nosync, fun hq => (by simp [hz] at hq), fun c hc => by cases hc⟩
      · split
        · exact ⟨h.nosync, fun hq => (by simp [hz] at hq), fun c hc => by cases hc⟩
        · split <;> exact ⟨h.nosync, fun hq => (by simp [hz] at hq), fun c hc => by cases hc⟩
    · exact h
  | hbOff sdo ok =>
    simp only [Node.step]
    cases n.hb.interval sdo with
    | mk hb o => cases o with
      | none => exact ⟨h.nosync, h.op, h.fin⟩
      | some v => simp only; split <;> exact ⟨h.nosync, h.op, h.fin⟩
  | unlisten => exact ⟨h.nosync, h.op, h.fin⟩
  | forget =>
    obtain ⟨hz, hp⟩ := hg rfl
    refine ⟨hns, ?_, ?_⟩
    · intro hq
      simp only [Node.step] at hq
      rw [switchState_synced] at hq
      rw [if_neg (by decide), if_neg (by decide), hz] at hq
      cases hq
    · intro c hc
      simp only [Node.step] at hc
      rw [(switchState_rest n _).2.1, hp] at hc
      cases hc

theorem undisturbed_prefix {n : Node} {a b : List Ev} (h : Undisturbed n (a ++ b)) : Undisturbed n a := by
  intro pre e post he
  exact h pre e (post ++ b) (by rw [he]; simp)

theorem run_syncInv (n : Node) (h0 : SyncInv n) (es : List Ev) (hu : Undisturbed n es)
    (hs : ∀ b ∈ reports es, standard b) : SyncInv (n.run es).1 := by
  revert hu hs
  apply run_induction n (fun es => Undisturbed n es → (∀ b ∈ reports es, standard b) → SyncInv (n.run es).1)
  · intro _ _; exact h0
  · intro es e ih hu hs
    rw [run_snoc]
    have hi := ih (undisturbed_prefix hu) (fun b hb => hs b (by rw [reports_append]; simp [hb]))
    obtain ⟨u1, u2⟩ := hu es e [] rfl
    apply step_syncInv _ _ hi
    · intro f t hft
      refine ⟨hs _ ?_, u1 f t hft⟩
      rw [reports_append, hft]
      simp [reports]
    · intro hfg
      obtain ⟨pre', hp, hidle⟩ := u2 hfg
      have e3 : es = (pre' ++ [Ev.stop]) ++ [Ev.unlisten] := by rw [hp]; simp
      rw [e3, run_snoc, run_snoc] at hi ⊢
      simp only [Node.step, hidle] at hi ⊢
      refine ⟨?_, trivial⟩
      cases hh : (n.run pre').1.hasSync with
      | true => rfl
      | false => simpa [hh] using hi.nosync hh

/-! ## confirmed commands -/

theorem interval_keeps (h : Hb) (hr : Ready h) (sdo : Option (BitVec 16)) : (h.interval sdo).1 = h := by
  rw [interval_ready h (hr.imp id And.right)]

theorem step_ready (n : Node) (e : Ev) (h : Ready n.hb) : Ready (n.step e).1.hb := by
  have hk := interval_keeps n.hb h
  cases e with
  | frame f t =>
    simp only [Node.step]; split
    · rw [handleNMT_ready n (h.imp id And.right), (switchState_rest _ _).1]; exact h
    · exact h
  | call c t =>
    simp only [Node.step]; split
    · simp only
      split
      · unfold Hb.reset
        rcases h with h | ⟨h1, h2⟩
        · left; split <;> exact h
        · right
          cases hd : n.hb.dflt with
          | none => rw [hd] at h1; cases h1
          | some v => exact ⟨by simp [hd], rfl⟩
      · exact h
    · exact h
  | stop => simp only [Node.step]; split <;> exact h
  | wake =>
    simp only [Node.step]; split
    · split
      · rw [(waited_state _ _ _).2.2.2.1]; exact h
      · exact h
    · exact h
  | expire t sdo =>
    simp only [Node.step]; split
    · split
      · exact h
      · split
        · rw [(waited_state _ _ _).2.2.2.1]; exact h
        · have := hk sdo
          cases hi : n.hb.interval sdo with
          | mk hb o =>
            rw [hi] at this
            simp only at this
            cases o with
            | none => simp only; rw [this]; exact h
            | some v =>
              simp only; split
              · rw [(waited_state _ _ _).2.2.2.1, (switchState_rest _ _).1]; simp only; rw [this]; exact h
              · rw [(waited_state _ _ _).2.2.2.1]; simp only; rw [this]; exact h
    · exact h
  | finish ok =>
    simp only [Node.step]; split
    · split
      · exact h
      · split
        · exact h
        · have : Ready { n.hb with buf := ‹BitVec 16›, valid := true } := h.imp id (fun h => ⟨h.1, rfl⟩)
          split <;> exact this
    · exact h
  | hbOff sdo ok =>
    simp only [Node.step]
    have := hk sdo
    cases hi : n.hb.interval sdo with
    | mk hb o =>
      rw [hi] at this
      simp only at this
      cases o with
      | none => simp only; rw [this]; exact h
      | some v =>
        simp only; split
        · simp only; rw [this]; rcases h with h | ⟨h1, h2⟩
          · exact .inl h
          · exact .inr ⟨h1, rfl⟩
        · simp only; rw [this]; exact h
  | unlisten => exact h
  | forget => simp only [Node.step]; rw [(switchState_rest _ _).1]; exact h

theorem step_listening (n : Node) (e : Ev) (he : e ≠ .unlisten) : (n.step e).1.listening = n.listening := by
  cases e with
  | frame f t => simp only [Node.step]; split <;> simp [handleNMT_rest]
  | call c t => simp only [Node.step]; split <;> rfl
  | stop => simp only [Node.step]; split <;> rfl
  | wake =>
    simp only [Node.step]; split
    · split <;> simp [waited_state]
    · rfl
  | expire t sdo =>
    simp only [Node.step]; split
    · split
      · rfl
      · split
        · simp [waited_state]
        · cases n.hb.interval sdo with
          | mk hb o =>
            cases o with
            | none => rfl
            | some v => simp only; split <;> simp [waited_state, switchState_rest]
    · rfl
  | finish ok =>
    simp only [Node.step]; split
    · split
      · rfl
      · split
        · rfl
        · split <;> rfl
    · rfl
  | hbOff sdo ok =>
    simp only [Node.step]
    cases n.hb.interval sdo with
    | mk hb o => cases o with
      | none => rfl
      | some v => simp only; split <;> rfl
  | unlisten => exact absurd rfl he
  | forget => simp [Node.step, switchState_rest]

/-- how the state can change -/
theorem step_state (n : Node) (e : Ev) (hl : n.listening = true) (hr : Ready n.hb) (hf : e ≠ .forget) :
    (∃ f t, e = .frame f t ∧ (n.step e).1.state = f.data[0]) ∨
    ((∀ f t, e ≠ .frame f t) ∧
      ((n.step e).1.state = n.state ∨ Out.assumed (n.step e).1.state ∈ (n.step e).2 ∨
        ∃ ok c, e = .finish ok ∧ n.phase = .finishing c ∧ (n.step e).1.state = PreOperational)) := by
  cases e with
  | frame f t =>
    refine .inl ⟨f, t, rfl, ?_⟩
    simp only [Node.step, hl, if_true]
    rw [handleNMT_ready n (hr.imp id And.right), switchState_state]
  | call c t => exact .inr ⟨fun _ _ h => (by cases h), .inl (by simp only [Node.step]; split <;> rfl)⟩
  | stop => exact .inr ⟨fun _ _ h => (by cases h), .inl (by simp only [Node.step]; split <;> rfl)⟩
  | wake =>
    refine .inr ⟨fun _ _ h => (by cases h), .inl ?_⟩
    simp only [Node.step]; split
    · split <;> simp [waited_state]
    · rfl
  | expire t sdo =>
    refine .inr ⟨fun _ _ h => (by cases h), ?_⟩
    simp only [Node.step]; split
    · split
      · exact .inl rfl
      · split
        · exact .inl (by simp [waited_state])
        · cases n.hb.interval sdo with
          | mk hb o =>
            cases o with
            | none => exact .inl rfl
            | some v =>
              simp only; split
              · right; left; simp [waited_state, switchState_state]
              · exact .inl (by simp [waited_state])
    · exact .inl rfl
  | finish ok =>
    refine .inr ⟨fun _ _ h => (by cases h), ?_⟩
    simp only [Node.step]; split
    · rename_i c hc
      refine .inr (.inr ⟨ok, c, rfl, hc, ?_⟩)
      split
      · rfl
      · split
        · rfl
        · split <;> rfl
    · exact .inl rfl
  | hbOff sdo ok =>
    refine .inr ⟨fun _ _ h => (by cases h), .inl ?_⟩
    simp only [Node.step]
    cases n.hb.interval sdo with
    | mk hb o => cases o with
      | none => rfl
      | some v => simp only; split <;> rfl
  | unlisten => exact .inr ⟨fun _ _ h => (by cases h), .inl rfl⟩
  | forget => exact absurd rfl hf

/-- how a reset comes to its last part -/
theorem step_finishing (n : Node) (e : Ev) (c : Cmd) (h : (n.step e).1.phase = .finishing c) :
    n.phase = .finishing c ∨ (c.isReset = true ∧ n.state = c.target) := by
  have hw : ∀ (m : Node) (c' : Cmd) (r : Int), (m.waited c' r).1.phase = .finishing c → r = 1 ∧ c' = c ∧ c.isReset = true := by
    intro m c' r hh
    unfold Node.waited at hh
    split at hh
    · split at hh
      · cases hh
      · rename_i h1 h2
        simp only [Phase.finishing.injEq] at hh
        refine ⟨by omega, hh, hh ▸ h1⟩
    · cases hh
  cases e with
  | frame f t =>
    left
    simp only [Node.step] at h
    split at h
    · rwa [(handleNMT_rest n f t).1] at h
    · exact h
  | call c t =>
    simp only [Node.step] at h
    split at h
    · cases h
    · exact .inl h
  | stop =>
    simp only [Node.step] at h
    split at h <;> exact .inl h
  | wake =>
    simp only [Node.step] at h
    split at h
    · split at h
      · rename_i hst
        obtain ⟨-, rfl, h2⟩ := hw _ _ _ h
        exact .inr ⟨h2, hst⟩
      · exact .inl h
    · exact .inl h
  | expire t sdo =>
    simp only [Node.step] at h
    split at h
    · split at h
      · exact .inl h
      · split at h
        · rename_i hst
          obtain ⟨-, rfl, h2⟩ := hw _ _ _ h
          exact .inr ⟨h2, hst⟩
        · cases hi : n.hb.interval sdo with
          | mk hb o =>
            rw [hi] at h
            cases o with
            | none => cases h
            | some v =>
              simp only at h
              split at h
              · exact absurd (hw _ _ _ h).1 (by decide)
              · exact absurd (hw _ _ _ h).1 (by decide)
    · exact .inl h
  | finish ok =>
    simp only [Node.step] at h
    split at h
    · split at h
      · cases h
      · split at h
        · cases h
        · split at h <;> cases h
    · exact .inl h
  | hbOff sdo ok =>
    simp only [Node.step] at h
    cases hi : n.hb.interval sdo with
    | mk hb o =>
      rw [hi] at h
      cases o with
      | none => exact .inl h
      | some v => simp only at h; split at h <;> exact .inl h
  | unlisten => exact .inl h
  | forget =>
    simp only [Node.step] at h
    rw [(switchState_rest _ _).2.1] at h
    exact .inl h

theorem up_prefix {a b : List Ev} (h : Up (a ++ b)) : Up a := fun e he => h e (by simp [he])

theorem run_listening (n : Node) (hl : n.listening = true) (es : List Ev) (hu : Up es) : (n.run es).1.listening = true := by
  revert hu
  apply run_induction n (fun es => Up es → (n.run es).1.listening = true)
  · intro _; exact hl
  · intro es e ih hu
    rw [run_snoc]
    simp only
    rw [step_listening _ _ (hu e (by simp)).1]
    exact ih (up_prefix hu)

theorem run_ready (n : Node) (h : Ready n.hb) (es : List Ev) : Ready (n.run es).1.hb := by
  apply run_induction n (fun es => Ready (n.run es).1.hb)
  · exact h
  · intro es e ih
    rw [run_snoc]
    exact step_ready _ _ ih

theorem lastTold_told {n : Node} {es : List Ev} {s : Byte} (h : LastTold n es s) : Told n es s := by
  obtain ⟨p, e, q, h1, h2, -⟩ := h
  exact ⟨p, e, q, h1, h2⟩

theorem told_snoc {n : Node} {es : List Ev} {s : Byte} (e : Ev) (h : Told n es s) : Told n (es ++ [e]) s := by
  obtain ⟨p, e', q, h1, h2⟩ := h
  exact ⟨p, e', q ++ [e], by rw [h1]; simp, h2⟩

theorem lastTold_snoc {n : Node} {es : List Ev} {s : Byte} (e : Ev) (he : ∀ f t, e ≠ .frame f t) (h : LastTold n es s) :
    LastTold n (es ++ [e]) s := by
  obtain ⟨p, e', q, h1, h2, h3⟩ := h
  refine ⟨p, e', q ++ [e], by rw [h1]; simp, h2, ?_⟩
  intro f t hm
  rcases List.mem_append.mp hm with hm | hm
  · exact h3 f t hm
  · exact absurd (List.mem_singleton.mp hm).symm (he f t)

theorem resetSince_snoc {n : Node} {es : List Ev} (e : Ev) (he : ∀ f t, e ≠ .frame f t) (h : ResetSince n es) :
    ResetSince n (es ++ [e]) := by
  obtain ⟨p, ok, q, h1, h2, h3⟩ := h
  refine ⟨p, ok, q ++ [e], by rw [h1]; simp, h2, ?_⟩
  intro f t hm
  rcases List.mem_append.mp hm with hm | hm
  · exact h3 f t hm
  · exact absurd (List.mem_singleton.mp hm).symm (he f t)

/-- what the state and the last part of a reset mean -/
structure KnowInv (n : Node) (es : List Ev) : Prop where
  state : (n.run es).1.state = n.state ∨ LastTold n es (n.run es).1.state ∨ ((n.run es).1.state = PreOperational ∧ ResetSince n es)
  fin : ∀ c, (n.run es).1.phase = .finishing c → Told n es 0

theorem run_know (n : Node) (hl : n.listening = true) (hr : Ready n.hb) (hs : n.state = Unknown) (hp : n.phase = .idle)
    (es : List Ev) (hu : Up es) : KnowInv n es := by
  revert hu
  apply run_induction n (fun es => Up es → KnowInv n es)
  · intro _
    exact ⟨.inl rfl, fun c hc => by simp only [Node.run] at hc; rw [hp] at hc; cases hc⟩
  · intro es e ih hu
    have hk := ih (up_prefix hu)
    have hl' := run_listening n hl es (up_prefix hu)
    have hr' := run_ready n hr es
    have hfin : ∀ c, (n.run (es ++ [e])).1.phase = .finishing c → Told n (es ++ [e]) 0 := by
      intro c hc
      rw [run_snoc] at hc
      rcases step_finishing _ _ _ hc with h1 | ⟨h1, h2⟩
      · exact told_snoc e (hk.fin c h1)
      · have ht : c.target = 0 := by cases c <;> first | rfl | cases h1
        rw [ht] at h2
        rcases hk.state with h3 | h3 | ⟨h3, -⟩
        · rw [h3, hs] at h2; exact absurd h2 (by decide)
        · rw [h2] at h3; exact told_snoc e (lastTold_told h3)
        · rw [h3] at h2; exact absurd h2 (by decide)
    refine ⟨?_, hfin⟩
    rw [run_snoc]
    simp only
    rcases step_state _ e hl' hr' (hu e (by simp)).2 with ⟨f, t, rfl, h2⟩ | ⟨hne, h1 | h1 | ⟨ok, c, rfl, hph, h1⟩⟩
    · right; left
      rw [h2]
      exact ⟨es, _, [], rfl, .inl ⟨f, t, rfl, rfl⟩, fun _ _ h => by cases h⟩
    · rw [h1]
      rcases hk.state with h3 | h3 | ⟨h3, h4⟩
      · exact .inl h3
      · exact .inr (.inl (lastTold_snoc e hne h3))
      · exact .inr (.inr ⟨h3, resetSince_snoc e hne h4⟩)
    · right; left
      exact ⟨es, e, [], rfl, .inr h1, fun _ _ h => by cases h⟩
    · right; right
      exact ⟨h1, es, ok, [], rfl, hk.fin c hph, fun _ _ h => by cases h⟩

/-- when a command succeeds -/
theorem step_returned (n : Node) (e : Ev) (c : Cmd) (h : Out.returned c true ∈ (n.step e).2) :
    (c.isReset = false ∧ (∀ f t, e ≠ .frame f t) ∧ (n.state = c.target ∨ Out.assumed c.target ∈ (n.step e).2)) ∨
    (∃ ok, e = .finish ok ∧ n.phase = .finishing c) := by
  have hw : ∀ (m : Node) (c' : Cmd) (r : Int), Out.returned c true ∈ (m.waited c' r).2 → c' = c ∧ c.isReset = false ∧ r ≠ 0 := by
    intro m c' r hh
    unfold Node.waited at hh
    split at hh
    · split at hh <;> simp at hh
    · rename_i h1
      simp at hh
      exact ⟨hh.1.symm, by rw [hh.1]; simpa using h1, hh.2⟩
  have hsw : ∀ (m : Node) (s : Byte), Out.returned c true ∉ (m.switchState s).2 := by
    intro m s hm
    rw [switchState_out] at hm
    split at hm <;> simp at hm
  cases e with
  | frame f t =>
    exfalso
    simp only [Node.step] at h
    split at h
    · unfold Node.handleNMT at h
      cases hi : n.hb.interval none with
      | mk hb o =>
        rw [hi] at h
        cases o with
        | none => simp at h
        | some v => exact hsw _ _ h
    · simp at h
  | call c t => simp only [Node.step] at h; split at h <;> simp at h
  | stop => simp only [Node.step] at h; split at h <;> simp at h
  | wake =>
    simp only [Node.step] at h
    split at h
    · split at h
      · rename_i hst
        obtain ⟨rfl, h2, -⟩ := hw _ _ _ h
        exact .inl ⟨h2, fun _ _ h => (by cases h), .inl hst⟩
      · simp at h
    · simp at h
  | expire t sdo =>
    left
    have h0 := h
    simp only [Node.step] at h
    split at h
    · rename_i c' d hph
      split at h
      · simp at h
      · rename_i hd
        split at h
        · rename_i hst
          obtain ⟨rfl, h2, -⟩ := hw _ _ _ h
          exact ⟨h2, fun _ _ h => (by cases h), .inl hst⟩
        · rename_i hst
          cases hi : n.hb.interval sdo with
          | mk hb o =>
            rw [hi] at h
            cases o with
            | none => simp at h
            | some v =>
              simp only at h
              split at h
              · rename_i hv
                simp only [List.mem_append, List.mem_singleton, reduceCtorEq, false_or] at h
                rcases h with h | h
                · exact absurd h (hsw _ _)
                · obtain ⟨rfl, h2, -⟩ := hw _ _ _ h
                  refine ⟨h2, fun _ _ h => (by cases h), .inr ?_⟩
                  simp only [Node.step, hph, hd, if_false, hst, hi, hv, if_true]
                  simp
              · exact absurd rfl (hw _ _ _ h).2.2
    · simp at h
  | finish ok =>
    right
    simp only [Node.step] at h
    split at h
    · rename_i c' hph
      refine ⟨ok, rfl, ?_⟩
      rw [hph]
      split at h
      · simp at h; rw [h]
      · split at h
        · simp at h
        · split at h <;> simp at h
          rw [h]
    · simp at h
  | hbOff sdo ok =>
    simp only [Node.step] at h
    cases hi : n.hb.interval sdo with
    | mk hb o =>
      rw [hi] at h
      cases o with
      | none => simp at h
      | some v => simp only at h; split at h <;> simp at h
  | unlisten => simp [Node.step] at h
  | forget => simp only [Node.step] at h; exact absurd h (hsw _ _)

/-- a state is assumed only if the interval is zero -/
theorem step_assumed (n : Node) (e : Ev) (s : Byte) (h : Out.assumed s ∈ (n.step e).2) :
    ∃ now sdo, e = .expire now sdo ∧ (n.hb.interval sdo).2 = some 0 ∧ ∃ c d, n.phase = .waiting c d ∧ s = c.target ∧ d ≤ now := by
  have hw : ∀ (m : Node) (c' : Cmd) (r : Int), Out.assumed s ∉ (m.waited c' r).2 := by
    intro m c' r hh
    unfold Node.waited at hh
    split at hh
    · split at hh <;> simp at hh
    · simp at hh
  have hsw : ∀ (m : Node) (t : Byte), Out.assumed s ∉ (m.switchState t).2 := by
    intro m t hm
    rw [switchState_out] at hm
    split at hm <;> simp at hm
  cases e with
  | frame f t =>
    exfalso
    simp only [Node.step] at h
    split at h
    · unfold Node.handleNMT at h
      cases hi : n.hb.interval none with
      | mk hb o =>
        rw [hi] at h
        cases o with
        | none => simp at h
        | some v => exact hsw _ _ h
    · simp at h
  | call c t => simp only [Node.step] at h; split at h <;> simp at h
  | stop => simp only [Node.step] at h; split at h <;> simp at h
  | wake =>
    simp only [Node.step] at h
    split at h
    · split at h
      · exact absurd h (hw _ _ _)
      · simp at h
    · simp at h
  | expire t sdo =>
    refine ⟨t, sdo, rfl, ?_⟩
    simp only [Node.step] at h
    split at h
    · rename_i c' d hph
      split at h
      · simp at h
      · rename_i hd
        split at h
        · exact absurd h (hw _ _ _)
        · cases hi : n.hb.interval sdo with
          | mk hb o =>
            rw [hi] at h
            cases o with
            | none => simp at h
            | some v =>
              simp only at h
              split at h
              · rename_i hv
                simp only [List.mem_append, List.mem_singleton, Out.assumed.injEq] at h
                rcases h with (h | h) | h
                · exact ⟨by rw [hv], c', d, hph, h, by omega⟩
                · exact absurd h (hsw _ _)
                · exact absurd h (hw _ _ _)
              · exact absurd h (hw _ _ _)
    · simp at h
  | finish ok =>
    simp only [Node.step] at h
    split at h
    · split at h
      · simp at h
      · split at h
        · simp at h
        · split at h <;> simp at h
    · simp at h
  | hbOff sdo ok =>
    simp only [Node.step] at h
    cases hi : n.hb.interval sdo with
    | mk hb o =>
      rw [hi] at h
      cases o with
      | none => simp at h
      | some v => simp only at h; split at h <;> simp at h
  | unlisten => simp [Node.step] at h
  | forget => simp only [Node.step] at h; exact absurd h (hsw _ _)

/-! ## heartbeat -/

theorem steady_keeps (n : Node) (hl : n.listening = true) (hr : n.hb.present = false ∨ n.hb.valid = true) (hp : ∀ c d, n.phase = .waiting c d → c.isReset = false)
    (hf : ∀ c, n.phase ≠ .finishing c) (e : Ev) (he : steady e) :
    (n.step e).1.listening = true ∧ (n.step e).1.hb = n.hb ∧ (∀ c d, (n.step e).1.phase = .waiting c d → c.isReset = false) ∧
    (∀ c, (n.step e).1.phase ≠ .finishing c) ∧
    (n.step e).1.hbTimeout = match e with
      | .frame _ t => if (if n.hb.present then n.hb.buf else 0) ≠ 0 then t + 3 * (if n.hb.present then n.hb.buf else (0 : BitVec 16)).toNat else n.hbTimeout
      | _ => n.hbTimeout := by
  have hw : ∀ (m : Node) (c : Cmd) (r : Int), c.isReset = false → (m.waited c r).1.phase = .idle := by
    intro m c r hc
    unfold Node.waited
    simp [hc]
  cases e with
  | frame f t =>
    simp only [Node.step, hl, if_true]
    rw [handleNMT_ready n hr]
    generalize hm : ({ n with hbTimeout := if (if n.hb.present then n.hb.buf else 0) ≠ 0 then t + 3 * (if n.hb.present then n.hb.buf else (0 : BitVec 16)).toNat else n.hbTimeout } : Node) = m
    obtain ⟨r1, r2, r3, r4, -⟩ := switchState_rest m f.data[0]
    rw [r1, r2, r3, r4, ← hm]
    exact ⟨hl, rfl, hp, hf, rfl⟩
  | call c t =>
    have hc : c.isReset = false := by rcases he with rfl | rfl <;> rfl
    simp only [Node.step]
    split
    · refine ⟨hl, by simp [hc], ?_, ?_, rfl⟩
      · intro c' d' h
        simp only [Phase.waiting.injEq] at h
        rw [← h.1]; exact hc
      · intro c' h; cases h
    · exact ⟨hl, rfl, hp, hf, rfl⟩
  | stop => simp only [Node.step]; split <;> exact ⟨hl, rfl, hp, hf, rfl⟩
  | wake =>
    simp only [Node.step]; split
    · rename_i c d hph
      split
      · obtain ⟨-, -, -, h4, h5, h6, -⟩ := waited_state n c 1
        have := hw n c 1 (hp c d hph)
        rw [h4, h5, h6, this]
        exact ⟨hl, rfl, fun _ _ h => (by cases h), fun _ h => (by cases h), rfl⟩
      · exact ⟨hl, rfl, hp, hf, rfl⟩
    · exact ⟨hl, rfl, hp, hf, rfl⟩
  | expire t sdo =>
    simp only [Node.step]; split
    · rename_i c d hph
      split
      · exact ⟨hl, rfl, hp, hf, rfl⟩
      · split
        · obtain ⟨-, -, -, h4, h5, h6, -⟩ := waited_state n c 1
          have := hw n c 1 (hp c d hph)
          rw [h4, h5, h6, this]
          exact ⟨hl, rfl, fun _ _ h => (by cases h), fun _ h => (by cases h), rfl⟩
        · obtain ⟨v, hv⟩ : ∃ v, n.hb.interval sdo = (n.hb, some v) := ⟨_, interval_ready n.hb hr sdo⟩
          rw [hv]
          simp only
          split
          · obtain ⟨-, -, -, h4, h5, h6, -⟩ := waited_state (n.switchState c.target).1 c (-1)
            have := hw (n.switchState c.target).1 c (-1) (hp c d hph)
            obtain ⟨r1, r2, r3, r4, -⟩ := switchState_rest n c.target
            rw [h4, h5, h6, this, r1, r3, r4]
            exact ⟨hl, rfl, fun _ _ h => (by cases h), fun _ h => (by cases h), rfl⟩
          · obtain ⟨-, -, -, h4, h5, h6, -⟩ := waited_state n c 0
            have := hw n c 0 (hp c d hph)
            rw [h4, h5, h6, this]
            exact ⟨hl, rfl, fun _ _ h => (by cases h), fun _ h => (by cases h), rfl⟩
    · exact ⟨hl, rfl, hp, hf, rfl⟩
  | finish ok => exact absurd he id
  | hbOff sdo ok => exact absurd he id
  | unlisten => exact absurd he id
  | forget => exact absurd he id

theorem steady_run (n : Node) (hl : n.listening = true) (hpr : n.hb.present = true) (hv : n.hb.valid = true) (hn : n.hb.buf ≠ 0)
    (hp : ∀ c d, n.phase = .waiting c d → c.isReset = false)
    (hf : ∀ c, n.phase ≠ .finishing c) (es : List Ev) (he : ∀ e ∈ es, steady e) :
    (n.run es).1.hb = n.hb ∧
    (n.run es).1.hbTimeout = match lastTime es with | some t => t + 3 * n.hb.buf.toNat | none => n.hbTimeout := by
  induction es generalizing n with
  | nil => exact ⟨rfl, rfl⟩
  | cons e es ih =>
    obtain ⟨k1, k2, k3, k4, k5⟩ := steady_keeps n hl (.inr hv) hp hf e (he e (by simp))
    obtain ⟨i1, i2⟩ := ih (n.step e).1 k1 (by rw [k2]; exact hpr) (by rw [k2]; exact hv) (by rw [k2]; exact hn) k3 k4
      (fun e' he' => he e' (by simp [he']))
    simp only [Node.run]
    refine ⟨by rw [i1, k2], ?_⟩
    rw [i2, k2, k5]
    cases e with
    | frame f t =>
      simp only [lastTime, hpr, if_true, hn]
      cases lastTime es with
      | none => simp; exact fun h => absurd h hn
      | some u => simp
    | _ => simp only [lastTime]

theorem run_hb_off (n : Node) (h : n.hb.present = false) (es : List Ev) : (n.run es).1.hb.present = false := by
  apply run_induction n (fun es => (n.run es).1.hb.present = false)
  · exact h
  · intro es e ih
    rw [run_snoc]
    simp only
    generalize (n.run es).1 = m at ih
    have hi : ∀ sdo, m.hb.interval sdo = (m.hb, some 0) := by intro sdo; simp [Hb.interval, ih]
    cases e with
    | frame f t =>
      simp only [Node.step]; split
      · rw [handleNMT_ready m (.inl ih), (switchState_rest _ _).1]; exact ih
      · exact ih
    | call c t =>
      simp only [Node.step]; split
      · simp only; split
        · unfold Hb.reset; split <;> exact ih
        · exact ih
      · exact ih
    | stop => simp only [Node.step]; split <;> exact ih
    | wake =>
      simp only [Node.step]; split
      · split
        · rw [(waited_state _ _ _).2.2.2.1]; exact ih
        · exact ih
      · exact ih
    | expire t sdo =>
      simp only [Node.step]; split
      · split
        · exact ih
        · split
          · rw [(waited_state _ _ _).2.2.2.1]; exact ih
          · rw [hi]
            simp only [if_true]
            rw [(waited_state _ _ _).2.2.2.1, (switchState_rest _ _).1]; exact ih
      · exact ih
    | finish ok =>
      simp only [Node.step]; split
      · simp [ih]
      · exact ih
    | hbOff sdo ok => simp only [Node.step]; rw [hi]; simpa using ih
    | unlisten => exact ih
    | forget => simp only [Node.step]; rw [(switchState_rest _ _).1]; exact ih

end Verif.Nmt
