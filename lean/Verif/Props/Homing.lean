import Verif.Lemmas.Homing

/-! # C90: homing -/

set_option linter.unusedSimpArgs false

namespace Verif.Props
open Verif Verif.M402 Verif.Hom Verif.Spec.Homing

/-! ## with a CiA 402 drive -/

/-- C90.  If homing of a drive that has not been homed before is reported as successful, in any schedule of the read and write cycles, the bus, the
drive and the thread, then the drive has completed its homing procedure, after having been told to start it. -/
theorem C90_success (v : BitVec 8) (hv : v ≠ 0) (now : Int) (inb : BitVec 16) (hi : inb = 0 ∨ inb = 0x400) (w : World)
    (hr : World.Reach (World.initial v now inb) w) (hs : w.sys.stage = .succeeded) : w.drive = .done := by
  have h := reach_inv _ w (initial_inv v hv now inb hi) hr
  unfold WInv at h
  rw [hs] at h
  exact h.2

/-- C90.  If it is reported as failed, the drive reported an error or a wait timed out. -/
theorem C90_failure (v : BitVec 8) (hv : v ≠ 0) (now : Int) (inb : BitVec 16) (hi : inb = 0 ∨ inb = 0x400) (w : World)
    (hr : World.Reach (World.initial v now inb) w) (y : Why) (hs : w.sys.stage = .failed y) :
    isTimeout y = true ∨ w.drive = .failed ∨ w.drive = .failedStopped := by
  have h := reach_inv _ w (initial_inv v hv now inb hi) hr
  unfold WInv at h
  rw [hs] at h
  rcases h with h | h
  · exact Or.inl h
  · exact Or.inr h.2

/-- C90.  The result comes: as soon as the drive is done and its status has been published and read, the thread ends with success when it is woken up;
if the drive has failed, with failure. -/
theorem C90_result (v : BitVec 8) (hv : v ≠ 0) (now : Int) (inb : BitVec 16) (hi : inb = 0 ∨ inb = 0x400) (w : World)
    (hr : World.Reach (World.initial v now inb) w) (hn : ∃ d, w.sys.stage.deadline = some d) (sw : BitVec 16) (hsw : sw &&& 0x3400 = w.drive.bits) (t : Int) :
    (w.drive = .done → ((w.sys.step (.read sw)).step (.wake t)).stage = .succeeded) ∧
    (w.drive = .failed ∨ w.drive = .failedStopped → ∃ y, ((w.sys.step (.read sw)).step (.wake t)).stage = .failed y) := by
  have h := reach_inv _ w (initial_inv v hv now inb hi) hr
  unfold WInv at h
  have hst : (w.sys.step (.read sw)).h.status = ob (some w.drive) := hsw
  obtain ⟨he, ha, hre⟩ := flags _ _ hst
  have hsg : (w.sys.step (.read sw)).stage = w.sys.stage := rfl
  generalize w.sys.step (.read sw) = s at *
  cases hs : w.sys.stage with
  | prepare d =>
    rw [hs] at h
    constructor
    · intro hd; rw [h.2.2.2.1] at hd; cases hd
    · intro hd; rw [h.2.2.2.1] at hd; rcases hd with hd | hd <;> cases hd
  | starting d =>
    constructor
    · intro hd
      rw [hd] at he ha hre
      simp [Sys.step, Sys.look, hsg, hs, Sys.atStart, Sys.atAttain, Sys.atStop, Sys.finish, he, ha, hre, errOf, attOf, reaOf]
    · intro hd
      rcases hd with hd | hd <;> rw [hd] at he ha hre <;>
        simp [Sys.step, Sys.look, hsg, hs, Sys.atStart, Sys.atAttain, Sys.atStop, Sys.fail, he, ha, hre, errOf, attOf, reaOf]
  | attaining d =>
    constructor
    · intro hd
      rw [hd] at he ha hre
      simp [Sys.step, Sys.look, hsg, hs, Sys.atAttain, Sys.atStop, Sys.finish, he, ha, hre, errOf, attOf, reaOf]
    · intro hd
      rcases hd with hd | hd <;> rw [hd] at he ha hre <;>
        simp [Sys.step, Sys.look, hsg, hs, Sys.atAttain, Sys.atStop, Sys.fail, he, ha, hre, errOf, attOf, reaOf]
  | stopping d =>
    constructor
    · intro hd
      rw [hd] at he ha hre
      simp [Sys.step, Sys.look, hsg, hs, Sys.atStop, Sys.finish, he, ha, hre, errOf, attOf, reaOf]
    · intro hd
      rcases hd with hd | hd <;> rw [hd] at he ha hre <;>
        simp [Sys.step, Sys.look, hsg, hs, Sys.atStop, Sys.fail, he, ha, hre, errOf, attOf, reaOf]
  | succeeded =>
    obtain ⟨d, hd⟩ := hn
    rw [hs] at hd
    cases hd
  | failed y =>
    obtain ⟨d, hd⟩ := hn
    rw [hs] at hd
    cases hd
  | threw =>
    obtain ⟨d, hd⟩ := hn
    rw [hs] at hd
    cases hd

/-- a homing that succeeds: the drive shows that it stands still, the start bit is written and received, the drive runs and is done -/
private def homed : World :=
  { sys := { h := { execute := true, status := 0 }, stage := .attaining 10005 }, drive := .done, out := true, last := true, inb := 0x1400 }

private theorem go {a b c d : World} (h : World.Reach a b) (s : World.Step b c) (e : c = d) : World.Reach a d := e ▸ .step _ _ _ h s

private theorem homed_reach : World.Reach (World.initial 35 0 0x400) homed := by
  let s1 : Sys := { h := { execute := true, status := 0x400 }, stage := .starting 1000 }
  let s2 : Sys := { h := { execute := true, status := 0 }, stage := .starting 1000 }
  let s3 : Sys := { h := { execute := true, status := 0 }, stage := .attaining 10005 }
  have h0 : World.Reach (World.initial 35 0 0x400) { World.initial 35 0 0x400 with sys := ((World.initial 35 0 0x400).sys.step (.read 0x427)) } :=
    .step _ _ _ (.refl _) (.read (World.initial 35 0 0x400) 0x427 rfl)
  have h1 : World.Reach (World.initial 35 0 0x400) { sys := s1, drive := .idle, out := false, last := false, inb := 0x400 } := go h0 (.wake _ 3) rfl
  have h2 : World.Reach (World.initial 35 0 0x400) { sys := s1, drive := .idle, out := true, last := false, inb := 0x400 } := go h1 (.write _ 0xF) (by rw [startBit_execute])
  have h3 : World.Reach (World.initial 35 0 0x400) { sys := s1, drive := .running, out := true, last := true, inb := 0x400 } := go h2 (.deliver _) rfl
  have h4 : World.Reach (World.initial 35 0 0x400) { sys := s1, drive := .running, out := true, last := true, inb := 0 } := go h3 (.publish _) rfl
  have h5 : World.Reach (World.initial 35 0 0x400) { sys := s2, drive := .running, out := true, last := true, inb := 0 } := go h4 (.read _ 0x27 rfl) rfl
  have h6 : World.Reach (World.initial 35 0 0x400) { sys := s3, drive := .running, out := true, last := true, inb := 0 } := go h5 (.wake _ 5) (by
      simp [s2, s3, Sys.step, Sys.look, Sys.atStart, Sys.atAttain, Sys.attained, Sys.reached, Sys.error])
  have h7 : World.Reach (World.initial 35 0 0x400) { sys := s3, drive := .attained, out := true, last := true, inb := 0 } := go h6 (.move _ .attained .attain) rfl
  have h8 : World.Reach (World.initial 35 0 0x400) { sys := s3, drive := .done, out := true, last := true, inb := 0 } := go h7 (.move _ .done .reach) rfl
  exact go h8 (.publish _) rfl

/-- the hypotheses of `C90_result` are met -/
example : ∃ w : World, World.Reach (World.initial 35 0 0x400) w ∧ (∃ d, w.sys.stage.deadline = some d) ∧ w.drive = .done :=
  ⟨homed, homed_reach, ⟨10005, rfl⟩, rfl⟩

/-- the hypotheses of `C90_success` are met -/
example : ∃ w : World, World.Reach (World.initial 35 0 0x400) w ∧ w.sys.stage = .succeeded :=
  ⟨_, .step _ _ _ (.step _ _ _ homed_reach (.read homed 0x1427 rfl)) (.wake _ 6), by decide +kernel⟩

/-- the hypotheses of `C90_failure` are met -/
example : ∃ (w : World) (y : Why), World.Reach (World.initial 35 0 0x400) w ∧ w.sys.stage = .failed y :=
  ⟨_, .notAttained, .step _ _ _ homed_reach (.timeout homed 10005), by decide +kernel⟩

/-- C90 is false for a drive that has been homed before and still says so: homing is reported as successful although no start bit was ever written, so
the drive was not told to do anything. -/
theorem C90_homed_before_false : ∃ w : World,
    World.Reach { World.initial 35 0 0x400 with drive := .left, inb := 0x1400 } w ∧ w.sys.stage = .succeeded ∧ w.out = false ∧ w.last = false ∧
    w.drive = .left :=
  ⟨_, .step _ _ _ (.step _ _ _ (.refl _) (.read { World.initial 35 0 0x400 with drive := .left, inb := 0x1400 } 0x1427 rfl)) (.wake _ 1),
    by decide +kernel, rfl, rfl, rfl⟩

/-! ## with any device -/

/-- C90.  The start bit is in the control word exactly while the thread waits for homing to start, to attain the home position and to stop; it is never
left set afterwards, whatever the device does. -/
theorem C90_start_bit (st : BitVec 16) (m : Hom.Method) (now : Int) (es : List Hom.Ev) (cw : BitVec 16) :
    ((begin { execute := false, status := st } m now).run es).startBit cw = true ↔
      ((∃ d, ((begin { execute := false, status := st } m now).run es).stage = .starting d) ∨
       (∃ d, ((begin { execute := false, status := st } m now).run es).stage = .attaining d) ∨
       (∃ d, ((begin { execute := false, status := st } m now).run es).stage = .stopping d)) := by
  rw [startBit_execute]
  have key : ∀ s : Sys, ((s.h.execute = true ↔ ((∃ d, s.stage = .starting d) ∨ (∃ d, s.stage = .attaining d) ∨ (∃ d, s.stage = .stopping d)))) →
      ∀ es, ((s.run es).h.execute = true ↔ ((∃ d, (s.run es).stage = .starting d) ∨ (∃ d, (s.run es).stage = .attaining d) ∨ (∃ d, (s.run es).stage = .stopping d))) := by
    intro s hs es
    induction es generalizing s with
    | nil => exact hs
    | cons e es ih =>
      refine ih _ ?_
      cases e with
      | read sw => exact hs
      | wake t => exact flag_look s t false hs
      | timeout t =>
        simp only [Sys.step]
        split
        · split
          · exact flag_look s t true hs
          · exact hs
        · exact hs
  refine key _ ?_ es
  cases m with
  | absent => simp [begin, Sys.fail]
  | unreadable => simp [begin]
  | value v =>
    simp only [begin]
    split
    · simp
    · exact flag_look { h := { execute := false, status := st }, stage := .prepare (now + 1000) } now false (by simp)

example : ((begin { execute := false, status := 0x400 } (.value 35) 0).run []).startBit 0xF = true := by decide +kernel

/-- C90.  Whatever the device does: a step of the thread ends with success only if the status last read says target reached, home position attained and
no error. -/
theorem C90_bits (s : Sys) (hn : ∃ d, s.stage.deadline = some d) (e : Hom.Ev) (hs : (s.step e).stage = .succeeded) :
    (s.step e).h.status &&& 0x3400 ≠ 0x400 ∧ (s.step e).h.status &&& 0x400 ≠ 0 ∧ (s.step e).h.status &&& 0x1000 ≠ 0 ∧ (s.step e).h.status &&& 0x2000 = 0 := by
  obtain ⟨d, hd⟩ := hn
  have key : ∀ t x, (s.look t x).stage = .succeeded → s.reached = true ∧ s.attained = true ∧ s.error = false ∧ (s.look t x).h.status = s.h.status := by
    intro t x hl
    obtain ⟨⟨ex, st⟩, sg⟩ := s
    cases sg with
    | prepare d => exact look_succeeds _ t x (Or.inl ⟨d, rfl⟩) hl
    | starting d => exact look_succeeds _ t x (Or.inr (Or.inl ⟨d, rfl⟩)) hl
    | attaining d => exact look_succeeds _ t x (Or.inr (Or.inr (Or.inl ⟨d, rfl⟩))) hl
    | stopping d => exact look_succeeds _ t x (Or.inr (Or.inr (Or.inr ⟨d, rfl⟩))) hl
    | succeeded => cases hd
    | failed y => cases hd
    | threw => cases hd
  have fin : ∀ t x, (s.look t x).stage = .succeeded → (s.look t x).h.status &&& 0x3400 ≠ 0x400 ∧ (s.look t x).h.status &&& 0x400 ≠ 0 ∧
      (s.look t x).h.status &&& 0x1000 ≠ 0 ∧ (s.look t x).h.status &&& 0x2000 = 0 := by
    intro t x hl
    obtain ⟨h1, h2, h3, h4⟩ := key t x hl
    rw [h4]
    simp only [Sys.reached, Sys.attained, Sys.error, decide_eq_true_eq, decide_eq_false_iff_not, Decidable.not_not] at h1 h2 h3
    refine ⟨?_, h1, h2, h3⟩
    intro hq
    apply h2
    have : s.h.status &&& 0x1000 = (s.h.status &&& 0x3400) &&& 0x1000 := by
      rw [BitVec.and_assoc]
      rfl
    rw [this, hq]
    rfl
  cases e with
  | read sw =>
    have hs : s.stage = .succeeded := hs
    rw [hs] at hd
    cases hd
  | wake t => exact fin t false hs
  | timeout t =>
    simp only [Sys.step, hd] at hs ⊢
    split at hs
    · rename_i hdt
      rw [if_pos hdt]
      exact fin t true hs
    · rw [hs] at hd
      cases hd

example : ∃ s : Sys, (∃ d, s.stage.deadline = some d) ∧ (s.step (.wake 6)).stage = .succeeded :=
  ⟨{ h := { execute := true, status := 0x1400 }, stage := .attaining 10005 }, ⟨_, rfl⟩, by decide +kernel⟩

/-- how many waits may still follow -/
private def left : Stage → Nat
  | .prepare _ => 4 | .starting _ => 3 | .attaining _ => 2 | .stopping _ => 1 | _ => 0

/-- C90.  Homing never waits for ever: it must be prepared and started within one second of the call and finished within ten seconds of the time it was
seen to have started; a wait whose time is over ends, whatever the device does. -/
theorem C90_times (st : BitVec 16) (m : Hom.Method) (now : Int) (es : List Hom.Ev) (d t : Int)
    (hd : ((begin { execute := false, status := st } m now).run es).stage.deadline = some d) :
    (d = now + 1000 ∨ d = now + 10000 ∨ ∃ u, d = u + 10000 ∧ (Hom.Ev.wake u ∈ es ∨ Hom.Ev.timeout u ∈ es)) ∧
    (d ≤ t → left (((begin { execute := false, status := st } m now).run es).step (.timeout t)).stage <
      left ((begin { execute := false, status := st } m now).run es).stage) := by
  constructor
  · refine times_run now es _ ?_ d hd
    intro d hd
    cases m with
    | absent => simp [begin, Sys.fail, Stage.deadline] at hd
    | unreadable => simp [begin, Stage.deadline] at hd
    | value v =>
      simp only [begin] at hd
      split at hd
      · cases hd
      · rcases look_deadline { h := { execute := false, status := st }, stage := .prepare (now + 1000) } now false d hd with h | h
        · left
          exact (Option.some.inj h).symm
        · exact Or.inr (Or.inl h)
  · intro ht
    generalize (begin { execute := false, status := st } m now).run es = s at hd ⊢
    have : s.step (.timeout t) = s.look t true := by simp [Sys.step, hd, ht]
    rw [this]
    cases hs : s.stage <;> rw [hs] at hd <;> first | (cases hd; done) | skip
    all_goals
      simp only [Sys.look, hs, Sys.atPrepare, Sys.atStart, Sys.atAttain, Sys.atStop, Sys.finish, Sys.fail]
      repeat' split
      all_goals first | (simp [left]; done) | (rename_i h; simp at h)

example : ((begin { execute := false, status := 0x400 } (.value 35) 0).run [.read 0, .wake 7]).stage.deadline = some 10007 := by decide +kernel

/-- C90.  Without a homing method there is nothing to do; without the object homing fails, without touching the device. -/
theorem C90_method (h : Homing) (now : Int) : (begin h (.value 0) now).stage = .succeeded ∧ (begin h (.value 0) now).h = h ∧
    (begin h .absent now).stage = .failed .invalid ∧ (begin h .absent now).h.execute = false := ⟨rfl, rfl, rfl, rfl⟩

/-- C90 is false for an error that the device does not keep reporting: if it is gone before the thread looks, homing goes on and succeeds. -/
theorem C90_short_error_false : ((begin { execute := false, status := 0 } (.value 35) 0).run
    [.read 0x427, .wake 1, .read 0x2027, .read 0x27, .wake 2, .read 0x1427, .wake 3]).stage = .succeeded := by decide +kernel

end Verif.Props
