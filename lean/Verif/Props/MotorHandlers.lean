import Verif.Lemmas.MotorHandlers

/-! # C91: enabling, halting, recovering and shutting down a motor -/

namespace Verif.Props
open Verif Verif.M402 Verif.Spec.M402 Verif.Hand Verif.Spec.Hand

/-- a motor whose drive knows the modes profiled velocity and homing -/
private def motor (hs : S402) : Motor :=
  { cw := 0x0F, sfr := false, hs := hs, sw := 0, target := hs, modes := registered 0x24 (fun _ => none), drives := some 0x24, selected := none,
    modeId := 0, phase := .idle }

/-- nothing is under way -/
private def calm (hs : S402) : Sys := { m := motor hs, switching := .enabled, limit := 5000, pc := .idle, halting := none, msgs := [] }

/-- the same with a drive that cannot home -/
private def plain (hs : S402) : Sys :=
  { calm hs with m := { motor hs with modes := registered 0x04 (fun _ => none), drives := some 0x04 } }

/-! ## what a result means -/

/-- C91.  If initialisation ends without an error, the drive has reported in its course that operation is enabled, and it has been homed with success in
homing mode, or does not support it. -/
theorem C91_init (s : Sys) (sw : BitVec 16) (disp : BitVec 8) (es : List HEv) (hc : NoCall es) (hf : Fine ((s.begin (.init sw disp)).run es)) :
    Reported (s.begin (.init sw disp)) es .enabled ∧
    ((Homed (s.begin (.init sw disp)) es ∧ Displayed (s.begin (.init sw disp)) es 6 ∧ ((s.begin (.init sw disp)).run es).m.selected = none) ∨
      ((s.begin (.init sw disp)).run es).m.canAlloc 6 = some false) := by
  have h := run_inv (.init sw disp) _ false _ (begin_inv (.init sw disp) false s (by simp)) es hc (by simp)
  obtain ⟨hm, ok, hp⟩ := hf
  have h := h.2
  rw [hp] at h
  exact h hm

/-- a drive without homing is enabled -/
private def enableSteps : List HEv :=
  [.tick 0, .tick 0, .tick 0, .tick 0, .write, .read 0x21 0, .tick 1, .tick 1, .tick 1, .write, .read 0x23 0, .tick 2, .tick 2, .tick 2, .write,
   .read 0x27 0, .tick 3, .tick 3]

example : NoCall enableSteps ∧ Fine (((plain .disabled).begin (.init 0x40 0)).run enableSteps) :=
  ⟨by simp [NoCall, enableSteps], by decide +kernel, true, by decide +kernel⟩

example : NoCall (enableSteps ++ [.tick 4, .tick 4, .tick 4, .tick 4, .read 0x27 6, .tick 5, .tick 5, .tick 5, .tick 5, .homed true]) ∧
    Fine (((calm .disabled).begin (.init 0x40 0)).run
      (enableSteps ++ [.tick 4, .tick 4, .tick 4, .tick 4, .read 0x27 6, .tick 5, .tick 5, .tick 5, .tick 5, .homed true])) :=
  ⟨by simp [NoCall, enableSteps], by decide +kernel, true, by decide +kernel⟩

/-- C91.  If recovery ends without an error, the drive has reported in its course that operation is enabled. -/
theorem C91_recover (s : Sys) (es : List HEv) (hc : NoCall es) (hf : Fine ((s.begin .recover).run es)) : Reported (s.begin .recover) es .enabled := by
  have h := run_inv .recover _ false _ (begin_inv .recover false s (by simp)) es hc (by simp)
  obtain ⟨hm, ok, hp⟩ := hf
  have h := h.2
  rw [hp] at h
  exact h hm

example : NoCall [HEv.tick 0, .tick 0, .tick 0, .tick 0, .write, .read 0x27 0, .tick 1, .tick 1] ∧
    Fine (((calm .quickStop).begin .recover).run [.tick 0, .tick 0, .tick 0, .tick 0, .write, .read 0x27 0, .tick 1, .tick 1]) :=
  ⟨by simp [NoCall], by decide +kernel, true, by decide +kernel⟩

/-- C91.  If entering a mode is answered with success, the drive has displayed the mode, the mode is selected, and operation has been reported as enabled
in the course of the change, unless the mode had been entered before. -/
theorem C91_mode (s : Sys) (k : Nat) (hk : k ≠ 0) (es : List HEv) (hc : NoCall es) (hf : ((s.begin (.mode k)).run es).pc = .finished true) :
    k ≠ 6 ∧ Displayed (s.begin (.mode k)) es k ∧ ((s.begin (.mode k)).run es).m.selected = some k ∧
    ((s.m.modeId = k ∧ s.m.selected = some k) ∨ Reported (s.begin (.mode k)) es .enabled) := by
  have h := run_inv (.mode k) _ false _ (begin_inv (.mode k) false s (by simp [hk])) es hc (by simp)
  have h := h.2
  rw [hf] at h
  obtain ⟨h6, hd, hs, ha⟩ := h rfl hk
  refine ⟨h6, hd, hs, ?_⟩
  rcases ha with ⟨k', e, h1, h2⟩ | h
  · cases e
    exact Or.inl ⟨h1, h2⟩
  · exact Or.inr h

example : NoCall [HEv.tick 0, .tick 0, .tick 0, .tick 0, .read 0x27 3, .tick 1, .tick 1, .tick 1, .tick 1] ∧
    (((calm .enabled).begin (.mode 3)).run [.tick 0, .tick 0, .tick 0, .tick 0, .read 0x27 3, .tick 1, .tick 1, .tick 1, .tick 1]).pc = .finished true :=
  ⟨by simp [NoCall], by decide +kernel⟩

/-- C91.  If shutting down is not interrupted by a halt and ends without an error, the drive has reported in its course that it is switched off (switch
on disabled). -/
theorem C91_shutdown_partial (s : Sys) (es : List HEv) (hc : NoCall es) (hh : NoHalt es) (hf : Fine ((s.begin .shutdown).run es)) :
    Reported (s.begin .shutdown) es .disabled := by
  have h := run_inv .shutdown _ true _ (begin_inv .shutdown true s (by simp)) es hc (fun _ => hh)
  obtain ⟨hm, ok, hp⟩ := hf
  have h := h.2
  rw [hp] at h
  exact h rfl hm

example : NoCall [HEv.tick 0, .tick 0, .tick 0, .tick 0, .write, .read 0x40 0, .tick 1, .tick 1] ∧
    NoHalt [HEv.tick 0, .tick 0, .tick 0, .tick 0, .write, .read 0x40 0, .tick 1, .tick 1] ∧
    Fine (((calm .enabled).begin .shutdown).run [.tick 0, .tick 0, .tick 0, .tick 0, .write, .read 0x40 0, .tick 1, .tick 1]) :=
  ⟨by simp [NoCall], by simp [NoHalt], by decide +kernel, true, by decide +kernel⟩

/-- C91 is false when a halt comes in between: shutting down ends without an error although the drive never was switched off. -/
theorem C91_shutdown_false : ∃ (s : Sys) (es : List HEv), NoCall es ∧ Fine ((s.begin .shutdown).run es) ∧ ¬ Reported (s.begin .shutdown) es .disabled := by
  refine ⟨calm .enabled, [.tick 0, .tick 0, .haltLook, .haltAct, .tick 0, .tick 0, .write, .read 0x07 0, .tick 1, .tick 1], by simp [NoCall],
    ⟨by decide +kernel, true, by decide +kernel⟩, ?_⟩
  have h : ((visited ((calm .enabled).begin .shutdown)
      [.tick 0, .tick 0, .haltLook, .haltAct, .tick 0, .tick 0, .write, .read 0x07 0, .tick 1, .tick 1]).all (fun w => w.m.hs ≠ .disabled)) = true := by
    decide +kernel
  rintro ⟨w, hw, hx⟩
  have := List.all_eq_true.1 h w hw
  simp [hx] at this

/-- C91.  A drive in any state from which it can be switched off is commanded to switch off: the next word it gets makes it do so (a fault needs a fresh
edge of the reset bit). -/
theorem C91_shutdown_word (s : Sys) (a : S402) (ha : s.m.hs = a) (ht : (a, .disabled) ∈ transitions) (prev : BitVec 16)
    (hf : a = .fault → prev.getLsbD 7 = false ∧ s.m.sfr = false) (now : Int) :
    drive a prev ((s.begin .shutdown).run [.tick now, .tick now, .tick now, .tick now]).word = .disabled := by
  have key : ((s.begin .shutdown).run [.tick now, .tick now, .tick now, .tick now]).m.cw = (setTransition s.m.cw a .disabled true).1 ∧
      ((s.begin .shutdown).run [.tick now, .tick now, .tick now, .tick now]).m.sfr = s.m.sfr := by
    subst ha
    have hne : s.m.hs ≠ .disabled := by
      intro h
      rw [h] at ht
      revert ht
      decide
    have hok : (setTransition s.m.cw s.m.hs .disabled true).2.1 = true := by
      revert ht hne
      generalize s.m.hs = a
      cases a <;> simp [transitions, setTransition, transition]
    have hx : s.m.hs ≠ (setTransition s.m.cw s.m.hs .disabled true).2.2.getD .unknown := next_ne _ _ _ hne hok
    simp [Sys.run, Sys.step, Sys.begin, Sys.tick, hne, Sys.command, hok, hx]
  obtain ⟨k1, k2⟩ := key
  have hb : ∀ i, i = 1 ∨ i = 2 → ((s.begin .shutdown).run [.tick now, .tick now, .tick now, .tick now]).word.getLsbD i =
      (setTransition s.m.cw a .disabled true).1.getLsbD i := by
    intro i hi
    unfold Sys.word
    rw [handleWrite_word_bit _ i (by omega) (by omega) (by omega), k1]
  have h7 : ((s.begin .shutdown).run [.tick now, .tick now, .tick now, .tick now]).word.getLsbD 7 =
      (!s.m.sfr && (setTransition s.m.cw a .disabled true).1.getLsbD 7) := by
    unfold Sys.word
    rw [handleWrite_word_bit7, k1, k2]
  generalize ((s.begin .shutdown).run [.tick now, .tick now, .tick now, .tick now]).word = w at *
  have h1 := hb 1 (Or.inl rfl)
  have off : ∀ op : Op, op = opDisableVoltage → (op.apply s.m.cw).getLsbD 1 = false ∧ (op.apply s.m.cw).getLsbD 7 = false := by
    intro op ho
    subst ho
    constructor <;> rw [apply_bit _ _ _ (by omega)] <;> simp [opDisableVoltage]
  have go : w.getLsbD 1 = false → w.getLsbD 7 = false → a = .ready ∨ a = .switchedOn ∨ a = .enabled ∨ a = .quickStop → drive a prev w = .disabled := by
    intro h1 h7 ha
    have hcmd : Verif.Spec.M402.command w = .disableVoltage := by
      unfold Verif.Spec.M402.command
      rw [if_pos h1]
    rcases ha with ha | ha | ha | ha <;> rw [ha] <;> simp only [drive] <;> rw [if_neg (by rw [h7]; decide), hcmd] <;> rfl
  cases a
  case fault =>
    obtain ⟨hp, hs⟩ := hf rfl
    have : (opFaultReset.apply s.m.cw).getLsbD 7 = true := by rw [apply_bit _ _ _ (by omega)]; simp [opFaultReset]
    have e : (setTransition s.m.cw .fault .disabled true).1 = opFaultReset.apply s.m.cw := rfl
    rw [e, this, hs] at h7
    simp only [drive]
    rw [if_pos ⟨h7, hp⟩]
  case notReady => rfl
  case ready =>
    have e : (setTransition s.m.cw .ready .disabled true).1 = opDisableVoltage.apply s.m.cw := rfl
    rw [e, (off _ rfl).2, Bool.and_false] at h7
    rw [e, (off _ rfl).1] at h1
    exact go h1 h7 (by simp)
  case switchedOn =>
    have e : (setTransition s.m.cw .switchedOn .disabled true).1 = opDisableVoltage.apply s.m.cw := rfl
    rw [e, (off _ rfl).2, Bool.and_false] at h7
    rw [e, (off _ rfl).1] at h1
    exact go h1 h7 (by simp)
  case enabled =>
    have e : (setTransition s.m.cw .enabled .disabled true).1 = opDisableVoltage.apply s.m.cw := rfl
    rw [e, (off _ rfl).2, Bool.and_false] at h7
    rw [e, (off _ rfl).1] at h1
    exact go h1 h7 (by simp)
  case quickStop =>
    have e : (setTransition s.m.cw .quickStop .disabled true).1 = opDisableVoltage.apply s.m.cw := rfl
    rw [e, (off _ rfl).2, Bool.and_false] at h7
    rw [e, (off _ rfl).1] at h1
    exact go h1 h7 (by simp)
  all_goals (exfalso; revert ht; decide)

example : ((.enabled, .disabled) : S402 × S402) ∈ transitions := by decide

/-- C91.  Shutting down a drive in an unknown state or reacting to a fault is refused with an error, the control word is left alone. -/
theorem C91_shutdown_refused (s : Sys) (h : s.m.hs = .unknown ∨ s.m.hs = .faultReaction) (now : Int) :
    ((s.begin .shutdown).run [.tick now, .tick now, .tick now, .tick now]).msgs = [.noTransition] ∧
    ((s.begin .shutdown).run [.tick now, .tick now, .tick now, .tick now]).pc = .finished true ∧
    ((s.begin .shutdown).run [.tick now, .tick now, .tick now, .tick now]).m.cw = s.m.cw := by
  rcases h with h | h <;>
    simp [Sys.run, Sys.step, Sys.begin, Sys.tick, h, Sys.command, setTransition, transition, Sys.ret]

example : ∃ s : Sys, s.m.hs = .unknown ∨ s.m.hs = .faultReaction := ⟨calm .faultReaction, Or.inr rfl⟩

/-! ## commands -/

/-- C91.  While a handler is executed, in any schedule, its thread changes the control word only by the command for a transition from a state that the
drive has reported in its course. -/
theorem C91_commands (s : Sys) (c : Call) (hk : c ≠ .mode 0) (es : List HEv) (hc : NoCall es) (now : Int)
    (hn : (((s.begin c).run es).step (.tick now)).m.cw ≠ ((s.begin c).run es).m.cw) :
    ∃ a b, (a, b) ∈ transitions ∧ Reported (s.begin c) es a ∧
      (((s.begin c).run es).step (.tick now)).m.cw = (setTransition ((s.begin c).run es).m.cw a b false).1 := by
  have h := run_inv c _ false _ (begin_inv c false s hk) es hc (by simp)
  generalize (s.begin c).run es = w at *
  have h := h.2
  have ret_cw : ∀ (v : Sys) (j : Job) (ok : Bool), (v.ret j ok).m.cw = v.m.cw := by
    intro v j ok
    unfold Sys.ret Sys.toHoming Sys.switchMode Sys.modeRet
    repeat' split
    all_goals rfl
  simp only [Sys.step, Sys.tick] at hn ⊢
  cases hp : w.pc <;> rw [hp] at h hn <;> dsimp only at h hn ⊢
  case cmd j g d st =>
    unfold Sys.command at hn ⊢
    dsimp only at hn ⊢
    by_cases hok : (setTransition w.m.cw st w.m.target true).2.1 = true
    · have hst : st ≠ w.m.target := by
        intro hx
        rw [if_pos hok] at hn
        simp [setTransition, hx] at hn
        split at hn <;> exact hn rfl
      have hcw : ∀ x : Sys, x = (if st ≠ (setTransition w.m.cw st w.m.target true).2.2.getD .unknown then
          { w with m := { w.m with cw := (setTransition w.m.cw st w.m.target true).1 }, pc := .wait j g d st }
          else { w with m := { w.m with cw := (setTransition w.m.cw st w.m.target true).1 }, pc := .test j g d st }) →
          x.m.cw = (setTransition w.m.cw st w.m.target true).1 := by
        intro x hx
        rw [hx]
        split <;> rfl
      rw [if_pos hok]
      rw [hcw _ rfl]
      have fact : ∃ b, (st, b) ∈ transitions ∧ (setTransition w.m.cw st w.m.target true).1 = (setTransition w.m.cw st b false).1 := by
        revert hok hst
        generalize w.m.target = t
        generalize w.m.cw = cw
        intro hok hst
        cases st <;> cases t <;> simp [setTransition, transition, nextForEnabling, transitions] at hok hst ⊢
        all_goals first
          | exact ⟨_, Or.inl rfl, rfl⟩
          | exact ⟨.disabled, by decide, rfl⟩
          | exact ⟨.notReady, by decide, rfl⟩
          | exact ⟨.ready, by decide, rfl⟩
          | exact ⟨.switchedOn, by decide, rfl⟩
          | exact ⟨.enabled, by decide, rfl⟩
          | exact ⟨.quickStop, by decide, rfl⟩
          | exact ⟨.fault, by decide, rfl⟩
      obtain ⟨b, hb, he⟩ := fact
      exact ⟨st, b, hb, h.2.1, he⟩
    · rw [if_neg hok, ret_cw] at hn
      exact absurd rfl hn
  case test j g d st =>
    split at hn
    · rw [ret_cw] at hn
      exact absurd rfl hn
    · exact absurd rfl hn
  case wait j g d st =>
    split at hn
    · exact absurd rfl hn
    · split at hn
      · rw [ret_cw] at hn
        exact absurd rfl hn
      · exact absurd rfl hn
  case waitMode k hh d =>
    split at hn
    · exact absurd rfl hn
    · split at hn <;> exact absurd rfl hn
  all_goals exact absurd rfl hn

example : (((plain .disabled).begin .recover).run [.tick 0, .tick 0, .tick 0]).m.cw ≠
    ((((plain .disabled).begin .recover).run [.tick 0, .tick 0, .tick 0]).step (.tick 0)).m.cw := by decide +kernel

/-! ## halt -/

/-- C91.  When an enabled motor is halted, every word written from then on demands a quick stop, whatever the thread of a handler under way does, until
the next handler is called; and such a handler does not succeed.  (`Settled`: the handler is not about to give the motor a new goal.) -/
theorem C91_halt_partial (s : Sys) (hs : s.halting = some .enabled) (hp : Settled s.pc) (es : List HEv) (hc : NoCall es) (hh : NoHalt es) :
    Verif.Spec.M402.command ((s.step .haltAct).run es).word = .quickStop ∧ ((s.step .haltAct).run es).word.getLsbD 7 = false ∧
    (∀ j, job s.pc = some j → j ≠ .shutdown → ∀ ok, ((s.step .haltAct).run es).pc = .finished ok → ok = false) := by
  have h0 : HInv (job s.pc) (s.step .haltAct) := by
    have he : s.step .haltAct =
        { s with m := { s.m with target := .quickStop, cw := opQuickStop.apply s.m.cw }, halting := none } := by
      simp [Sys.step, hs, Sys.haltAct, setTransition, transition]
    rw [he]
    refine ⟨rfl, stops_quick _, ?_⟩
    dsimp only
    cases hq : s.pc <;> rw [hq] at hp <;> simp_all [Settled, job]
  have h := run_halt (job s.pc) es _ h0 hc hh
  refine ⟨(stops_word _ h.2.1).1, (stops_word _ h.2.1).2, ?_⟩
  intro j hj hne ok hok
  have h3 := h.2.2
  rw [hok] at h3
  exact h3 j hj hne

example : ∃ s : Sys, s.halting = some .enabled ∧ Settled s.pc ∧ job s.pc = some (.switching 3 false) :=
  ⟨(({ calm .enabled with switching := .ready } : Sys).begin (.mode 3)).run [.tick 0, .tick 0, .haltLook], by decide +kernel, by
    have : ((({ calm .enabled with switching := .ready } : Sys).begin (.mode 3)).run [.tick 0, .tick 0, .haltLook]).pc =
      .test (.switching 3 false) .ready 5000 .enabled := by decide +kernel
    rw [this]; simp [Settled], by decide +kernel⟩

/-- C91 is false when the motor is halted while it changes its mode: the motor is enabled again although nobody asked for it after the halt. -/
theorem C91_halt_mode_false : ∃ (s : Sys) (es : List HEv), s.halting = some .enabled ∧ s.m.hs = .enabled ∧ NoCall es ∧ NoHalt es ∧
    Verif.Spec.M402.command ((s.step .haltAct).run es).word = .enableOperation :=
  ⟨((calm .enabled).begin (.mode 3)).run [.tick 0, .tick 0, .tick 0, .tick 0, .haltLook],
    [.write, .read 0x07 3, .tick 1, .tick 1, .tick 1, .tick 1, .tick 1], by decide +kernel, by decide +kernel, by simp [NoCall], by simp [NoHalt],
    by decide +kernel⟩

/-- C91 is false when the halt comes just after a handler has looked at the state: it is forgotten and the motor is enabled. -/
theorem C91_halt_race_false : ∃ (s : Sys) (es : List HEv), s.halting = some .switchedOn ∧ NoCall es ∧ NoHalt es ∧
    Verif.Spec.M402.command (s.step .haltAct).word ≠ .enableOperation ∧ Verif.Spec.M402.command ((s.step .haltAct).run es).word = .enableOperation :=
  ⟨(({ calm .switchedOn with m := { motor .switchedOn with cw := 0x07 } } : Sys).begin .recover).run [.tick 0, .haltLook],
    [.tick 1, .tick 1, .tick 1], by decide +kernel, by simp [NoCall], by simp [NoHalt], by decide +kernel, by decide +kernel⟩

/-- C91 is false for a drive that takes longer than the time limit: recovery fails, the motor is halted, but the command to enable operation stays in the
control word; the drive follows it, and the halted motor accepts targets and moves (the halt bit is clear). -/
theorem C91_halt_late_false : ∃ (s : Sys) (w : Sys), s = (({ calm .switchedOn with m := { motor .switchedOn with selected := some 3 } } : Sys).begin .recover).run
      [.tick 0, .tick 0, .tick 0, .tick 0, .write, .tick 5000, .haltLook, .haltAct] ∧ s.pc = .finished false ∧ s.m.hs = .switchedOn ∧
    drive .switchedOn 0x07 s.word = .enabled ∧
    w = s.run [.write, .read 0x27 3, .setTarget (.fin 7)] ∧ w.m.handleWrite.2.2 = some 7 ∧ w.word.getLsbD 8 = false ∧
    Verif.Spec.M402.command w.word = .enableOperation :=
  ⟨_, _, rfl, by decide +kernel, by decide +kernel, by decide +kernel, rfl, by decide +kernel, by decide +kernel, by decide +kernel⟩

/-! ## time limits -/

/-- C91.  Once the time limit for a change of state has passed, the thread leaves it within seven steps if no new state is reported. -/
theorem C91_time_limit_partial (s : Sys) (j : Job) (d now : Int) (hd : d ≤ now) (hj : job s.pc = some j) (hl : limitOf s.pc = some d) :
    ∃ i, i ≤ 7 ∧ job (s.run (List.replicate i (.tick now))).pc ≠ some j := leaves_all s j d now hd hj hl

example : ∃ s : Sys, job s.pc = some .recover ∧ limitOf s.pc = some 5000 :=
  ⟨((calm .fault).begin .recover).run [.tick 0, .tick 0, .tick 0, .tick 0], by decide +kernel, by decide +kernel⟩

/-- a drive with a permanent fault: it can be reset, but the fault comes back -/
private def again (t : Int) : List HEv := [.read 0x08 0, .tick t, .tick t, .tick t, .read 0x40 0, .tick t, .tick t, .tick t]

/-- C91 is false for a drive that keeps changing its state: initialisation never ends.  For any number of resets and any time, there is a schedule in
which that many happen at that time and the thread still waits. -/
theorem C91_time_limit_false : ∃ s : Sys, job s.pc = some .init ∧ limitOf s.pc = some 5000 ∧ ∀ (n : Nat) (t : Int), 5000 ≤ t →
    job (s.run (List.replicate n (again t)).flatten).pc = some .init ∧
    ((List.replicate n (again t)).flatten.all fun e => match e with | .tick u => decide (u = t) | _ => true) = true ∧
    (List.replicate n (again t)).flatten.length = 8 * n := by
  refine ⟨((plain .disabled).begin (.init 0x40 0)).run [.tick 0, .tick 0, .tick 0, .tick 0], by decide +kernel, by decide +kernel, ?_⟩
  intro n t ht
  have d1 : decode 0x08#16 = .fault := by decide
  have d2 : decode 0x40#16 = .disabled := by decide
  have one : ∀ s : Sys, s.pc = .wait .init .enabled 5000 .disabled → s.m.target = .enabled →
      (s.run (again t)).pc = .wait .init .enabled 5000 .disabled ∧ (s.run (again t)).m.target = .enabled := by
    intro s h1 h2
    simp [again, Sys.run, Sys.step, Sys.tick, h1, h2, Motor.readState, d1, d2, Sys.command, setTransition, nextForEnabling, transition]
  have all : ∀ n, ∀ s : Sys, s.pc = .wait .init .enabled 5000 .disabled → s.m.target = .enabled →
      (s.run (List.replicate n (again t)).flatten).pc = .wait .init .enabled 5000 .disabled := by
    intro n
    induction n with
    | zero => intro s h1 _; exact h1
    | succ n ih =>
      intro s h1 h2
      rw [List.replicate_succ, List.flatten_cons]
      have : ∀ a b : List HEv, s.run (a ++ b) = (s.run a).run b := fun a b => by simp [Sys.run]
      rw [this]
      exact ih _ (one s h1 h2).1 (one s h1 h2).2
  rw [all n _ (by decide +kernel) (by decide +kernel)]
  refine ⟨rfl, ?_, ?_⟩
  · rw [List.all_eq_true]
    intro e he
    obtain ⟨l, hl, he⟩ := List.mem_flatten.1 he
    rw [List.eq_of_mem_replicate hl] at he
    simp only [again, List.mem_cons, List.not_mem_nil, or_false] at he
    rcases he with h | h | h | h | h | h | h | h <;> rw [h] <;> simp
  · simp [again]
    omega

/-- C91, the wait for a mode: as long as the display does not show the mode, the thread waits for five seconds, not less; after that it gives up with a
message and the request cannot succeed any more.  Whatever else happens meanwhile, except that an access to the objects of the drive fails. -/
theorem C91_mode_wait (s : Sys) (k : Nat) (h : Bool) (t : Int) (es : List HEv) (hp : s.pc = .setMode k h)
    (hx : ∀ e ∈ es, e ≠ .exception) (ht : ∀ u, HEv.tick u ∈ es → u < t + 5000) (hd : ¬ Displayed (s.step (.tick t)) es k) :
    ((s.step (.tick t)).run es).pc = .waitMode k h (t + 5000) ∧
    ∀ now, t + 5000 ≤ now →
      Msg.modeTimeout ∈ (((s.step (.tick t)).run es).step (.tick now)).msgs ∧
      job (((s.step (.tick t)).run es).step (.tick now)).pc = some (.enabling k false h) := by
  have h0 : (s.step (.tick t)).pc = .waitMode k h (t + 5000) := by simp [Sys.step, Sys.tick, hp]
  generalize s.step (.tick t) = w at h0 hd
  have key : ∀ (es : List HEv) (w : Sys), w.pc = .waitMode k h (t + 5000) → (∀ e ∈ es, e ≠ .exception) → (∀ u, HEv.tick u ∈ es → u < t + 5000) →
      ¬ Displayed w es k → (w.run es).pc = .waitMode k h (t + 5000) ∧ (w.run es).m.modeId ≠ k := by
    intro es
    induction es with
    | nil =>
      intro w hw _ _ hd
      exact ⟨hw, fun hm => hd ⟨w, by simp [visited], hm⟩⟩
    | cons e es ih =>
      intro w hw hx ht hd
      have hm : w.m.modeId ≠ k := fun hm => hd ⟨w, by simp [visited], hm⟩
      refine ih (w.step e) ?_ (fun e' h' => hx e' (by simp [h'])) (fun u h' => ht u (by simp [h'])) ?_
      · cases e with
        | tick u =>
          have := ht u (by simp)
          simp only [Sys.step, Sys.tick, hw, if_neg hm]
          rw [if_neg (by omega)]
          exact hw
        | exception => exact absurd rfl (hx _ (by simp))
        | haltAct =>
          simp only [Sys.step]
          split
          · simp only [Sys.haltAct]
            repeat' split
            all_goals exact hw
          · exact hw
        | _ => simp [Sys.step, Sys.free, hw]
      · rintro ⟨v, hv, hm'⟩
        exact hd ⟨v, by simp only [visited, List.mem_cons] at hv ⊢; simp [hv], hm'⟩
  obtain ⟨k1, k2⟩ := key es w h0 hx ht hd
  refine ⟨k1, fun now hn => ?_⟩
  simp only [Sys.step, Sys.tick, k1, if_neg k2, if_pos hn, job, and_true]
  simp

/-- a drive that stays in mode 0 while profiled velocity is requested -/
example : let s := ((calm .enabled).begin (.mode 3)).run [.tick 0, .tick 0, .tick 0]
    s.pc = .setMode 3 false ∧ ¬ Displayed (s.step (.tick 10)) [.read 0x27 0, .write, .tick 5009] 3 ∧
    job (((s.step (.tick 10)).run [.read 0x27 0, .write, .tick 5009]).step (.tick 5010)).pc = some (.enabling 3 false false) := by
  refine ⟨by decide +kernel, ?_, by decide +kernel⟩
  rintro ⟨w, hw, hx⟩
  have h : ((visited ((((calm .enabled).begin (.mode 3)).run [.tick 0, .tick 0, .tick 0]).step (.tick 10)) [.read 0x27 0, .write, .tick 5009]).all
      (fun w => w.m.modeId ≠ 3)) = true := by decide +kernel
  simpa [hx] using List.all_eq_true.mp h w hw

/-- C91, calls: when no call of a handler is under way, a call begins at once, in every history; while one is, no other begins. -/
theorem C91_calls (s : Sys) (c : Call) :
    (s.pc = .idle ∨ s.pc = .threw ∨ (∃ ok, s.pc = .finished ok) → s.step (.call c) = s.begin c) ∧
    (job s.pc ≠ none ∨ s.pc = .homing ∨ (∃ k h, s.pc = .setMode k h) ∨ (∃ k h d, s.pc = .waitMode k h d) → s.step (.call c) = s) := by
  constructor
  · rintro (h | h | ⟨ok, h⟩) <;> simp [Sys.step, Sys.free, h]
  · rintro (h | h | ⟨k, b, h⟩ | ⟨k, b, d, h⟩)
    · cases hp : s.pc <;> simp_all [Sys.step, Sys.free, job]
    all_goals simp [Sys.step, Sys.free, h]

example : (calm .enabled).pc = .idle ∧ job (((calm .enabled).begin .recover).run [.tick 0]).pc ≠ none := by decide +kernel

/-- C91, requests that are answered at once, without a word in the report: no mode is always entered and nothing is selected then; homing is never entered on
request. -/
theorem C91_mode_at_once (s : Sys) :
    ((s.begin (.mode 0)).pc = .finished true ∧ (s.begin (.mode 0)).m.selected = none ∧ (s.begin (.mode 0)).msgs = []) ∧
    ((s.begin (.mode 6)).pc = .finished false ∧ (s.begin (.mode 6)).m = s.m ∧ (s.begin (.mode 6)).msgs = []) := by
  simp [Sys.begin]

example : ((calm .enabled).begin (.mode 0)).pc = .finished true := rfl

/-- what has been reported while the thread is at `pc` -/
private def Told (c : Call) (s : Sys) : Prop :=
  match s.pc with
  | .finished true => s.msgs = []
  | .finished false => (∀ k, c ≠ .mode k) → s.msgs ≠ []
  | .threw => True
  | .idle => True
  | .setMode _ h | .waitMode _ h _ => s.msgs = [] ∧ (h = true ∨ ∃ k, c = .mode k)
  | .homing => s.msgs = []
  | .enter j _ | .assign j _ _ _ | .test j _ _ _ | .cmd j _ _ _ | .wait j _ _ _ =>
    match j with
    | .shutdown => False
    | .switching _ h => s.msgs = [] ∧ (h = true ∨ ∃ k, c = .mode k)
    | .enabling _ ok h => (ok = true → s.msgs = []) ∧ (h = true ∨ ∃ k, c = .mode k)
    | _ => s.msgs = []

private theorem told_modeRet (c : Call) (s : Sys) (h ok : Bool) (hh : h = true ∨ ∃ k, c = .mode k) (hm : ok = true → s.msgs = []) : Told c (s.modeRet h ok) := by
  unfold Sys.modeRet Told
  cases h
  · obtain ⟨k, rfl⟩ := hh.resolve_left (by simp)
    cases ok <;> simp_all
  · cases ok <;> simp_all

private theorem told_switchMode (c : Call) (s : Sys) (k : Nat) (h : Bool) (hh : h = true ∨ ∃ k, c = .mode k) (hm : s.msgs = []) : Told c (s.switchMode k h) := by
  unfold Sys.switchMode
  split
  · simp [Told]
  · exact told_modeRet _ _ _ _ hh (by simp)
  · split
    · exact told_modeRet _ _ _ _ hh (fun _ => hm)
    · simp [Told, hm, hh]

private theorem told_toHoming (c : Call) (s : Sys) (hm : s.msgs = []) : Told c s.toHoming := by
  unfold Sys.toHoming
  split
  · simp [Told]
  · simp [Told, hm]
  · split
    · exact told_switchMode _ _ _ _ (.inl rfl) hm
    · simp [Told]

/-- `switchState` returns: false after a report or not, true without -/
private theorem told_ret (c : Call) (s : Sys) (j : Job) (ok : Bool) (hj : j ≠ .shutdown)
    (hm : match j with | .enabling _ b h => (b = true → ok = true → s.msgs = []) ∧ (h = true ∨ ∃ k, c = .mode k) | .switching _ h => (ok = true → s.msgs = []) ∧ (h = true ∨ ∃ k, c = .mode k) | _ => ok = true → s.msgs = []) :
    Told c (s.ret j ok) := by
  unfold Sys.ret
  cases j with
  | init =>
    cases ok
    · simp [Told]
    · exact told_toHoming c s (hm rfl)
  | recover => cases ok <;> simp_all [Told]
  | shutdown => exact absurd rfl hj
  | switching k h =>
    cases ok
    · exact told_modeRet _ _ _ _ hm.2 (by simp)
    · simp_all [Told]
  | enabling k b h => exact told_modeRet _ _ _ _ hm.2 (by cases b <;> cases ok <;> simp_all)

private theorem told_step (c : Call) (s : Sys) (e : HEv) (he : ∀ c', e ≠ .call c') (h : Told c s) : Told c (s.step e) := by
  cases e with
  | call c' => exact absurd rfl (he c')
  | tick now =>
    simp only [Sys.step]
    unfold Sys.tick
    split
    · rename_i j g hp
      simp only [Told, hp] at h ⊢
      exact h
    · rename_i j g d st hp
      simp only [Told, hp] at h ⊢
      exact h
    · rename_i j g d st hp
      simp only [Told, hp] at h
      split
      · refine told_ret c s j _ ?_ ?_
        · rintro rfl; exact h
        · cases j <;> first | exact h.elim | simp_all
      · simp only [Told]
        exact h
    · rename_i j g d st hp
      simp only [Told, hp] at h
      unfold Sys.command
      dsimp only
      split
      · split <;> (simp only [Told]; exact h)
      · refine told_ret c _ j false ?_ ?_
        · rintro rfl; exact h
        · cases j <;> first | exact h.elim | simp_all
    · rename_i j g d st hp
      simp only [Told, hp] at h
      split
      · simp only [Told]; exact h
      · split
        · refine told_ret c _ j false ?_ ?_
          · rintro rfl; exact h
          · cases j <;> first | exact h.elim | simp_all
        · simp only [Told, hp]; exact h
    · rename_i k b hp
      simp only [Told, hp] at h ⊢
      exact h
    · rename_i k b d hp
      simp only [Told, hp] at h
      split
      · simp_all [Told]
      · split
        · simp_all [Told]
        · simp only [Told, hp]; exact h
    · exact h
  | homed ok =>
    simp only [Sys.step]
    split
    · rename_i hp
      simp only [Told, hp] at h
      split <;> simp_all [Told]
    · exact h
  | exception =>
    simp only [Sys.step]
    split <;> first | exact h | simp [Told]
  | execute b =>
    simp only [Sys.step]
    split
    · exact h
    · exact h
  | haltAct =>
    simp only [Sys.step]
    split
    · unfold Sys.haltAct
      repeat' split
      all_goals exact h
    · exact h
  | _ => exact h

/-- C91.  The errors reported are those of the running call, and success is never reported with an error nor a failure of initialisation or recovery without one. -/
theorem C91_report (s : Sys) (c : Call) (hs : c ≠ .shutdown) (es : List HEv) (hc : NoCall es) :
    (((s.begin c).run es).pc = .finished true → ((s.begin c).run es).msgs = []) ∧
    ((∀ k, c ≠ .mode k) → ((s.begin c).run es).pc = .finished false → ((s.begin c).run es).msgs ≠ []) := by
  have h0 : Told c (s.begin c) := by
    unfold Sys.begin
    cases c with
    | init sw disp => dsimp only; split <;> simp [Told]
    | recover => simp [Told]
    | shutdown => exact absurd rfl hs
    | mode k =>
      dsimp only
      repeat' split
      · simp [Told]
      · simp [Told]
      · exact told_switchMode _ _ _ _ (.inr ⟨k, rfl⟩) rfl
  have key : ∀ (es : List HEv) (w : Sys), NoCall es → Told c w → Told c (w.run es) := by
    intro es
    induction es with
    | nil => intro w _ h; exact h
    | cons e es ih =>
      intro w hc h
      exact ih _ (fun c' h' => hc c' (by simp [h'])) (told_step c w e (fun c' h' => hc c' (by simp [h'])) h)
  have h := key es _ hc h0
  generalize (s.begin c).run es = w at *
  constructor
  · intro hp; simp only [Told, hp] at h; exact h
  · intro hk hp; simp only [Told, hp] at h; exact h hk

/-- a recovery that fails, after another one that failed, and one that succeeds -/
example : NoCall [HEv.tick 0, .tick 0, .tick 0, .tick 0, .write, .tick 5000] ∧
    (let w := ((calm .switchedOn).begin .recover).run [.tick 0, .tick 0, .tick 0, .tick 0, .write, .tick 5000]
     w.pc = .finished false ∧ w.msgs = [.transitionTimeout, .notEnabled] ∧
     ((w.begin .recover).run [.tick 5000, .read 0x27 0, .tick 5000, .tick 5000, .tick 5000, .tick 5000, .tick 5000]).pc = .finished true) :=
  ⟨by simp [NoCall], by decide +kernel⟩

end Verif.Props
