import Verif.Spec.Homing

/-! Lemmas about homing. -/

set_option linter.unusedSimpArgs false

namespace Verif.Hom
open Verif Verif.M402 Verif.Spec.Homing

/-- the status bits shown: nothing yet, or those of a drive -/
def ob : Option Drive → BitVec 16
  | none => 0
  | some d => d.bits

/-- what was shown may be followed by what is shown now -/
def le : Option Drive → Option Drive → Bool
  | none, none => true
  | none, some .idle => true
  | none, some .running => true
  | none, some .attained => true
  | none, some .done => true
  | none, some .failed => true
  | none, some .failedStopped => true
  | some .idle, some .idle => true
  | some .idle, some .running => true
  | some .idle, some .attained => true
  | some .idle, some .done => true
  | some .idle, some .failed => true
  | some .idle, some .failedStopped => true
  | some .running, some .running => true
  | some .running, some .attained => true
  | some .running, some .done => true
  | some .running, some .failed => true
  | some .running, some .failedStopped => true
  | some .attained, some .attained => true
  | some .attained, some .done => true
  | some .attained, some .failed => true
  | some .attained, some .failedStopped => true
  | some .done, some .done => true
  | some .failed, some .failed => true
  | some .failed, some .failedStopped => true
  | some .failedStopped, some .failedStopped => true
  | _, _ => false

/-- the start bit and the drive while the start bit is set -/
def started (d : Drive) (out last : Bool) : Bool :=
  match d with
  | .idle => !last
  | .running | .attained | .done | .failed | .failedStopped => out && last
  | _ => false

/-- while the thread is at work -/
def Working (w : World) (ok : Option Drive → Bool) : Prop :=
  w.sys.h.execute = true ∧ ∃ a b, w.sys.h.status = ob a ∧ w.inb = ob b ∧ ok a = true ∧ le a b = true ∧ le b (some w.drive) = true ∧
    started w.drive w.out w.last = true

def isIdle : Option Drive → Bool
  | some .idle => true
  | _ => false

def notIdle : Option Drive → Bool
  | some .idle => false
  | none => false
  | _ => true

def afterAttained : Option Drive → Bool
  | some .attained => true
  | some .done => true
  | some .failed => true
  | some .failedStopped => true
  | _ => false

def quiet (w : World) : Prop := w.sys.h.execute = false ∧ (w.out = true → w.last = true)

def WInv (w : World) : Prop :=
  match w.sys.stage with
  | .prepare _ => w.sys.h.execute = false ∧ w.out = false ∧ w.last = false ∧ w.drive = .idle ∧
      ((w.sys.h.status = 0 ∧ (w.inb = 0 ∨ w.inb = 0x400)) ∨ (w.sys.h.status = 0x400 ∧ w.inb = 0x400))
  | .starting _ => Working w (fun a => isIdle a || notIdle a)
  | .attaining _ => Working w notIdle
  | .stopping _ => Working w afterAttained
  | .succeeded => quiet w ∧ w.drive = .done
  | .failed y => isTimeout y = true ∨ (quiet w ∧ (w.drive = .failed ∨ w.drive = .failedStopped))
  | .threw => False

theorem startBit_execute (s : Sys) (cw : BitVec 16) : s.startBit cw = s.h.execute := by
  unfold Sys.startBit Homing.write
  cases s.h.execute with
  | false =>
    simp [AccOp.apply, opMask]
  | true =>
    simp [AccOp.apply, opMask]

theorem le_trans (a b c : Option Drive) (h : le a b = true) (h' : le b c = true) : le a c = true := by
  revert a b c
  have : ∀ (a b c : Option Drive), (le a b && le b c) = true → le a c = true := by
    intro a b c
    rcases a with _ | a <;> rcases b with _ | b <;> rcases c with _ | c <;> (try cases a) <;> (try cases b) <;> (try cases c) <;> simp [le]
  intro a b c h h'
  exact this a b c (by simp [h, h'])

/-- the bits that are shown -/
def errOf : Option Drive → Bool
  | some .failed => true
  | some .failedStopped => true
  | _ => false

def attOf : Option Drive → Bool
  | some .attained => true
  | some .done => true
  | some .left => true
  | _ => false

def reaOf : Option Drive → Bool
  | some .idle => true
  | some .done => true
  | some .left => true
  | some .failedStopped => true
  | some .interrupted => true
  | _ => false

theorem flags (s : Sys) (a : Option Drive) (h : s.h.status = ob a) : s.error = errOf a ∧ s.attained = attOf a ∧ s.reached = reaOf a := by
  unfold Sys.error Sys.attained Sys.reached
  rw [h]
  rcases a with _ | a
  · decide
  · cases a <;> decide

theorem failing (w : World) (y : Why) (hw : started w.drive w.out w.last = true) (a : Option Drive) (hl : le a (some w.drive) = true)
    (ha : errOf a = true) : WInv { w with sys := w.sys.fail y } := by
  right
  refine ⟨⟨rfl, ?_⟩, ?_⟩
  · intro ho
    show w.last = true
    revert hw hl ha
    rcases a with _ | a
    · simp [errOf]
    · cases a <;> simp [errOf] <;> cases w.drive <;> simp [le, started]
  · revert hl ha
    show _ → _ → (w.drive = .failed ∨ w.drive = .failedStopped)
    rcases a with _ | a
    · simp [errOf]
    · cases a <;> simp [errOf] <;> cases w.drive <;> simp [le]

theorem working_look_stop (w : World) (d : Int) (e : Bool) (h : Working w afterAttained) : WInv { w with sys := w.sys.atStop d e } := by
  obtain ⟨h1, a, b, h2, h3, h4, h5, h6, h7⟩ := h
  have hl := le_trans _ _ _ h5 h6
  obtain ⟨he, ha, hr⟩ := flags w.sys a h2
  unfold Sys.atStop
  rw [he, hr]
  by_cases hx : errOf a = true
  · simp only [hx, Bool.true_or, if_true]
    exact failing w _ h7 a hl hx
  · have hx : errOf a = false := by simpa using hx
    by_cases hy : reaOf a = true
    · have hat : attOf a = true := by
        rcases a with _ | a
        · cases h4
        · cases a <;> simp_all [afterAttained, reaOf, attOf, errOf]
      simp only [hx, hy, Bool.or_true, if_true, Bool.false_eq_true, if_false, Sys.finish, hr, ha, hat, Bool.and_self]
      have hd : w.drive = .done := by
        rcases a with _ | a
        · cases h4
        · cases a <;> simp_all [afterAttained, reaOf, errOf] <;> cases hd : w.drive <;> simp_all [le]
      refine ⟨⟨rfl, fun _ => ?_⟩, hd⟩
      rw [hd] at h7
      simp only [started, Bool.and_eq_true] at h7
      exact h7.2
    · have hy : reaOf a = false := by simpa using hy
      simp only [hx, hy, Bool.or_false, Bool.false_eq_true, if_false]
      cases e
      · exact ⟨h1, a, b, h2, h3, h4, h5, h6, h7⟩
      · exact Or.inl rfl

theorem working_look_attain (w : World) (d : Int) (e : Bool) (h : Working w notIdle) : WInv { w with sys := w.sys.atAttain d e } := by
  obtain ⟨h1, a, b, h2, h3, h4, h5, h6, h7⟩ := h
  have hl := le_trans _ _ _ h5 h6
  obtain ⟨he, ha, hr⟩ := flags w.sys a h2
  unfold Sys.atAttain
  rw [he, ha]
  by_cases hx : errOf a = true
  · simp only [hx, Bool.true_or, if_true]
    exact failing w _ h7 a hl hx
  · have hx : errOf a = false := by simpa using hx
    by_cases hy : attOf a = true
    · simp only [hx, hy, Bool.or_true, if_true, Bool.false_eq_true, if_false]
      refine working_look_stop w d false ⟨h1, a, b, h2, h3, ?_, h5, h6, h7⟩
      rcases a with _ | a
      · cases h4
      · cases a <;> simp_all [attOf, afterAttained] <;> cases hd : w.drive <;> simp_all [le]
    · have hy : attOf a = false := by simpa using hy
      simp only [hx, hy, Bool.or_false, Bool.false_eq_true, if_false]
      cases e
      · exact ⟨h1, a, b, h2, h3, h4, h5, h6, h7⟩
      · exact Or.inl rfl

theorem working_look_start (w : World) (d now : Int) (e : Bool) (h : Working w (fun a => isIdle a || notIdle a)) :
    WInv { w with sys := w.sys.atStart d now e } := by
  obtain ⟨h1, a, b, h2, h3, h4, h5, h6, h7⟩ := h
  have hl := le_trans _ _ _ h5 h6
  obtain ⟨he, ha, hr⟩ := flags w.sys a h2
  unfold Sys.atStart
  rw [he, ha, hr]
  by_cases hx : errOf a = true
  · simp only [hx, Bool.true_or, if_true]
    exact failing w _ h7 a hl hx
  · have hx : errOf a = false := by simpa using hx
    by_cases hy : (attOf a || !reaOf a) = true
    · have : (errOf a || attOf a || !reaOf a) = true := by rw [Bool.or_assoc, hy]; simp
      rw [if_pos this, hx, if_neg (by simp)]
      refine working_look_attain w _ false ⟨h1, a, b, h2, h3, ?_, h5, h6, h7⟩
      rcases a with _ | a
      · cases h4
      · cases a <;> simp_all [attOf, reaOf, notIdle]
    · have hy : (attOf a || !reaOf a) = false := by simpa using hy
      have : (errOf a || attOf a || !reaOf a) = false := by rw [Bool.or_assoc, hy, hx]; rfl
      simp only [this, Bool.false_eq_true, if_false]
      cases e
      · exact ⟨h1, a, b, h2, h3, h4, h5, h6, h7⟩
      · exact Or.inl rfl

theorem prepare_look (w : World) (d now : Int) (e : Bool) (h1 : w.sys.h.execute = false) (h2 : w.out = false) (h3 : w.last = false) (h4 : w.drive = .idle)
    (h5 : (w.sys.h.status = 0 ∧ (w.inb = 0 ∨ w.inb = 0x400)) ∨ (w.sys.h.status = 0x400 ∧ w.inb = 0x400)) :
    WInv { w with sys := w.sys.atPrepare d now e } := by
  unfold Sys.atPrepare
  rcases h5 with ⟨h5, h6⟩ | ⟨h5, h6⟩
  · obtain ⟨he, ha, hr⟩ := flags w.sys none h5
    simp only [he, hr, errOf, reaOf, Bool.or_false, Bool.false_eq_true, if_false]
    cases e
    · exact ⟨h1, h2, h3, h4, Or.inl ⟨h5, h6⟩⟩
    · exact Or.inl rfl
  · obtain ⟨he, ha, hr⟩ := flags w.sys (some .idle) h5
    simp only [he, hr, errOf, reaOf, Bool.or_true, Bool.false_eq_true, if_false, if_true]
    exact working_look_start { w with sys := { w.sys with h := { w.sys.h with execute := true } } } d now false
      ⟨rfl, some .idle, some .idle, h5, h6, rfl, rfl, by rw [h4]; rfl, by rw [h4]; show (!w.last) = true; rw [h3]; rfl⟩

theorem look_inv (w : World) (now : Int) (e : Bool) (h : WInv w) : WInv { w with sys := w.sys.look now e } := by
  have hh := h
  unfold WInv at h
  unfold Sys.look
  cases hs : w.sys.stage <;> rw [hs] at h <;> dsimp only at h ⊢
  · exact prepare_look w _ now e h.1 h.2.1 h.2.2.1 h.2.2.2.1 h.2.2.2.2
  · exact working_look_start w _ now e h
  · exact working_look_attain w _ e h
  · exact working_look_stop w _ e h
  all_goals exact hh

theorem working_world (w w' : World) (ok : Option Drive → Bool) (hok : ∀ a b, ok a = true → le a b = true → ok b = true) (h : Working w ok)
    (hst : World.Step w w') (hl : ¬ ∃ now e, w' = { w with sys := w.sys.look now e }) : w'.sys.stage = w.sys.stage ∧ Working w' ok := by
  obtain ⟨h1, a, b, h2, h3, h4, h5, h6, h7⟩ := h
  cases hst with
  | read sw hsw =>
    refine ⟨rfl, h1, b, b, ?_, h3, hok a b h4 h5, ?_, h6, h7⟩
    · show sw &&& 0x3400 = ob b
      rw [hsw, h3]
    · revert h5 h6 h3
      rcases b with _ | b
      · simp [le]
      · cases b <;> simp [le] <;> rcases a with _ | a <;> (try cases a) <;> simp [le]
  | write cw =>
    refine ⟨rfl, h1, a, b, h2, h3, h4, h5, h6, ?_⟩
    show started w.drive (w.sys.startBit cw) w.last = true
    rw [startBit_execute, h1]
    cases hd : w.drive <;> simp_all [started]
  | deliver =>
    refine ⟨rfl, h1, a, b, h2, h3, h4, h5, ?_, ?_⟩
    · show le b (some (w.drive.receive w.last w.out)) = true
      cases hd : w.drive <;> rw [hd] at h6 h7 <;> cases ho : w.out <;> cases hla : w.last <;> simp_all [started, Drive.receive]
      all_goals (rcases b with _ | b <;> (try cases b) <;> simp_all [le])
      all_goals (rcases a with _ | a <;> (try cases a) <;> simp_all [le])
    · show started (w.drive.receive w.last w.out) w.out w.out = true
      cases hd : w.drive <;> rw [hd] at h6 h7 <;> cases ho : w.out <;> cases hla : w.last <;> simp_all [started, Drive.receive]
  | publish =>
    refine ⟨rfl, h1, a, some w.drive, h2, rfl, h4, le_trans _ _ _ h5 h6, ?_, h7⟩
    cases hd : w.drive <;> rw [hd] at h7 <;> simp_all [started, le]
  | move d hm =>
    refine ⟨rfl, h1, a, b, h2, h3, h4, h5, ?_, ?_⟩
    · show le b (some d) = true
      refine le_trans _ _ _ h6 ?_
      generalize w.drive = d0 at hm
      cases hm <;> rfl
    · show started d w.out w.last = true
      generalize w.drive = d0 at hm h7
      cases hm <;> exact h7
  | wake now => exact absurd ⟨now, false, rfl⟩ hl
  | timeout now =>
    cases hd : w.sys.stage.deadline with
    | none =>
      have : w.sys.step (.timeout now) = w.sys := by simp [Sys.step, hd]
      rw [this]
      exact ⟨rfl, h1, a, b, h2, h3, h4, h5, h6, h7⟩
    | some d =>
      by_cases hdd : d ≤ now
      · exact absurd ⟨now, true, by simp [Sys.step, hd, hdd]⟩ hl
      · have : w.sys.step (.timeout now) = w.sys := by simp [Sys.step, hd, hdd]
        rw [this]
        exact ⟨rfl, h1, a, b, h2, h3, h4, h5, h6, h7⟩

theorem ok_notIdle (a b : Option Drive) (h : notIdle a = true) (hl : le a b = true) : notIdle b = true := by
  rcases a with _ | a <;> rcases b with _ | b <;> (try cases a) <;> (try cases b) <;> first | rfl | (cases h; done) | (cases hl; done)

theorem ok_any (a b : Option Drive) (h : (isIdle a || notIdle a) = true) (hl : le a b = true) : (isIdle b || notIdle b) = true := by
  rcases a with _ | a <;> rcases b with _ | b <;> (try cases a) <;> (try cases b) <;> first | rfl | (cases h; done) | (cases hl; done)

theorem ok_after (a b : Option Drive) (h : afterAttained a = true) (hl : le a b = true) : afterAttained b = true := by
  rcases a with _ | a <;> rcases b with _ | b <;> (try cases a) <;> (try cases b) <;> first | rfl | (cases h; done) | (cases hl; done)

theorem world_inv (w w' : World) (h : WInv w) (hst : World.Step w w') : WInv w' := by
  have hh := h
  by_cases hlook : ∃ now e, w' = { w with sys := w.sys.look now e }
  · obtain ⟨now, e, rfl⟩ := hlook
    exact look_inv w now e h
  have hwork : ∀ ok, (∀ a b, ok a = true → le a b = true → ok b = true) → Working w ok → w'.sys.stage = w.sys.stage ∧ Working w' ok := by
    intro ok hok hw
    exact working_world w w' ok hok hw hst hlook
  unfold WInv at h
  cases hs : w.sys.stage with
  | prepare d =>
    rw [hs] at h
    obtain ⟨h1, h2, h3, h4, h5⟩ := h
    cases hst with
    | read sw hsw =>
      simp only [WInv, Sys.step, hs]
      refine ⟨h1, h2, h3, h4, ?_⟩
      show (sw &&& 0x3400 = 0 ∧ _) ∨ (sw &&& 0x3400 = 0x400 ∧ _)
      rw [hsw]
      rcases h5 with ⟨_, h5 | h5⟩ | ⟨_, h5⟩
      · exact Or.inl ⟨h5, Or.inl h5⟩
      · exact Or.inr ⟨h5, h5⟩
      · exact Or.inr ⟨h5, h5⟩
    | write cw =>
      simp only [WInv, hs]
      exact ⟨h1, by rw [startBit_execute, h1], h3, h4, h5⟩
    | deliver =>
      simp only [WInv, hs]
      refine ⟨h1, h2, h2, ?_, h5⟩
      rw [h4, h2, h3]
      rfl
    | publish =>
      simp only [WInv, hs]
      refine ⟨h1, h2, h3, h4, ?_⟩
      rw [h4]
      rcases h5 with ⟨h5, _⟩ | ⟨h5, _⟩
      · exact Or.inl ⟨h5, Or.inr rfl⟩
      · exact Or.inr ⟨h5, rfl⟩
    | move d' hm =>
      rw [h4] at hm
      cases hm
    | wake now => exact absurd ⟨now, false, rfl⟩ hlook
    | timeout now =>
      by_cases hd : d ≤ now
      · exact absurd ⟨now, true, by simp [Sys.step, hs, Stage.deadline, hd]⟩ hlook
      · have : w.sys.step (.timeout now) = w.sys := by simp [Sys.step, hs, Stage.deadline, hd]
        rw [this]
        exact hh
  | starting d =>
    rw [hs] at h
    obtain ⟨h1, h2⟩ := hwork _ ok_any h
    unfold WInv
    rw [h1, hs]
    exact h2
  | attaining d =>
    rw [hs] at h
    obtain ⟨h1, h2⟩ := hwork _ ok_notIdle h
    unfold WInv
    rw [h1, hs]
    exact h2
  | stopping d =>
    rw [hs] at h
    obtain ⟨h1, h2⟩ := hwork _ ok_after h
    unfold WInv
    rw [h1, hs]
    exact h2
  | succeeded =>
    rw [hs] at h
    obtain ⟨⟨h1, h2⟩, h3⟩ := h
    cases hst with
    | read sw hsw =>
      simp only [WInv, Sys.step, hs]
      exact ⟨⟨h1, h2⟩, h3⟩
    | write cw =>
      simp only [WInv, hs]
      refine ⟨⟨h1, fun ho => ?_⟩, h3⟩
      have ho : w.sys.startBit cw = true := ho
      rw [startBit_execute, h1] at ho
      cases ho
    | deliver =>
      simp only [WInv, hs]
      refine ⟨⟨h1, fun h => h⟩, ?_⟩
      rw [h3]
      cases ho : w.out with
      | false => rfl
      | true => rw [h2 ho]; rfl
    | publish =>
      simp only [WInv, hs]
      exact ⟨⟨h1, h2⟩, h3⟩
    | move d' hm =>
      rw [h3] at hm
      cases hm
    | wake now => exact absurd ⟨now, false, rfl⟩ hlook
    | timeout now =>
      have : w.sys.step (.timeout now) = w.sys := by simp [Sys.step, hs, Stage.deadline]
      rw [this]
      exact hh
  | failed y =>
    rw [hs] at h
    have hstage : w'.sys.stage = .failed y := by
      cases hst with
      | wake now => exact absurd ⟨now, false, rfl⟩ hlook
      | timeout now => simp [Sys.step, hs, Stage.deadline]
      | read sw hsw => exact hs
      | _ => exact hs
    unfold WInv
    rw [hstage]
    rcases h with h | ⟨⟨h1, h2⟩, h3⟩
    · exact Or.inl h
    right
    cases hst with
    | read sw hsw => exact ⟨⟨h1, h2⟩, h3⟩
    | write cw =>
      refine ⟨⟨h1, fun ho => ?_⟩, h3⟩
      have ho : w.sys.startBit cw = true := ho
      rw [startBit_execute, h1] at ho
      cases ho
    | deliver =>
      refine ⟨⟨h1, fun h => h⟩, ?_⟩
      show w.drive.receive w.last w.out = _ ∨ _
      cases ho : w.out with
      | false => rcases h3 with h3 | h3 <;> rw [h3] <;> simp [Drive.receive]
      | true => rw [h2 ho]; rcases h3 with h3 | h3 <;> rw [h3] <;> simp [Drive.receive]
    | publish => exact ⟨⟨h1, h2⟩, h3⟩
    | move d' hm =>
      refine ⟨⟨h1, h2⟩, ?_⟩
      show d' = _ ∨ d' = _
      rcases h3 with h3 | h3 <;> rw [h3] at hm <;> cases hm
      exact Or.inr rfl
    | wake now => exact absurd ⟨now, false, rfl⟩ hlook
    | timeout now =>
      have : w.sys.step (.timeout now) = w.sys := by simp [Sys.step, hs, Stage.deadline]
      rw [this]
      exact ⟨⟨h1, h2⟩, h3⟩
  | threw =>
    rw [hs] at h
    exact h.elim

theorem initial_inv (v : BitVec 8) (hv : v ≠ 0) (now : Int) (inb : BitVec 16) (hi : inb = 0 ∨ inb = 0x400) : WInv (World.initial v now inb) := by
  have : (World.initial v now inb).sys = Sys.atPrepare { h := { execute := false, status := 0 }, stage := .prepare (now + 1000) } (now + 1000) now false := by
    simp only [World.initial, begin]
    rw [if_neg hv]
  have h := prepare_look { World.initial v now inb with sys := { h := { execute := false, status := 0 }, stage := .prepare (now + 1000) } } (now + 1000) now false
    rfl rfl rfl rfl (Or.inl ⟨rfl, hi⟩)
  have e : World.initial v now inb = { World.initial v now inb with sys := (World.initial v now inb).sys } := rfl
  rw [e, this]
  exact h

theorem reach_inv (w w' : World) (h : WInv w) (hr : World.Reach w w') : WInv w' := by
  induction hr with
  | refl => exact h
  | step b c _ hbc ih => exact world_inv b c ih hbc

theorem flag_look (s : Sys) (t : Int) (x : Bool)
    (hs : s.h.execute = true ↔ ((∃ d, s.stage = .starting d) ∨ (∃ d, s.stage = .attaining d) ∨ (∃ d, s.stage = .stopping d))) :
    (s.look t x).h.execute = true ↔
      ((∃ d, (s.look t x).stage = .starting d) ∨ (∃ d, (s.look t x).stage = .attaining d) ∨ (∃ d, (s.look t x).stage = .stopping d)) := by
  have stop : ∀ (s : Sys) (d : Int) (x : Bool), s.h.execute = true → ((s.atStop d x).h.execute = true ↔
      ((∃ e, (s.atStop d x).stage = .starting e) ∨ (∃ e, (s.atStop d x).stage = .attaining e) ∨ (∃ e, (s.atStop d x).stage = .stopping e))) := by
    intro s d x h
    unfold Sys.atStop Sys.finish
    cases s.error <;> cases s.reached <;> cases s.attained <;> cases x <;> simp [Sys.fail, h]
  have attain : ∀ (s : Sys) (d : Int) (x : Bool), s.h.execute = true → ((s.atAttain d x).h.execute = true ↔
      ((∃ e, (s.atAttain d x).stage = .starting e) ∨ (∃ e, (s.atAttain d x).stage = .attaining e) ∨ (∃ e, (s.atAttain d x).stage = .stopping e))) := by
    intro s d x h
    have := stop s d false h
    unfold Sys.atAttain
    cases s.error <;> cases s.attained <;> cases x <;> first | simpa using this | simp [Sys.fail, h]
  have start : ∀ (s : Sys) (d : Int) (x : Bool), s.h.execute = true → ((s.atStart d t x).h.execute = true ↔
      ((∃ e, (s.atStart d t x).stage = .starting e) ∨ (∃ e, (s.atStart d t x).stage = .attaining e) ∨ (∃ e, (s.atStart d t x).stage = .stopping e))) := by
    intro s d x h
    have := attain s (t + 10000) false h
    unfold Sys.atStart
    cases s.error <;> cases s.attained <;> cases s.reached <;> cases x <;> first | simpa using this | simp [Sys.fail, h]
  unfold Sys.look
  cases hg : s.stage with
  | prepare d =>
    have hx : s.h.execute = false := by
      rw [hg] at hs
      cases h : s.h.execute with
      | false => rfl
      | true => simp [h] at hs
    have := start { s with h := { s.h with execute := true } } d false rfl
    dsimp only
    unfold Sys.atPrepare
    cases s.error <;> cases s.reached <;> cases x <;> first | simpa using this | simp [Sys.fail, hx, hg]
  | starting d =>
    have hx : s.h.execute = true := hs.2 (Or.inl ⟨d, hg⟩)
    exact start s d x hx
  | attaining d =>
    have hx : s.h.execute = true := hs.2 (Or.inr (Or.inl ⟨d, hg⟩))
    exact attain s d x hx
  | stopping d =>
    have hx : s.h.execute = true := hs.2 (Or.inr (Or.inr ⟨d, hg⟩))
    exact stop s d x hx
  | succeeded => rw [hg] at hs; simpa [hg] using hs
  | failed y => rw [hg] at hs; simpa [hg] using hs
  | threw => rw [hg] at hs; simpa [hg] using hs

theorem stop_succeeds (s : Sys) (d : Int) (x : Bool) (h : (s.atStop d x).stage = .succeeded) :
    s.reached = true ∧ s.attained = true ∧ s.error = false ∧ (s.atStop d x).h.status = s.h.status := by
  unfold Sys.atStop at h ⊢
  cases he : s.error <;> cases hr : s.reached <;> cases ha : s.attained <;> cases x <;>
    simp [he, hr, ha, Sys.fail, Sys.finish] at h ⊢

theorem attain_succeeds (s : Sys) (d : Int) (x : Bool) (h : (s.atAttain d x).stage = .succeeded) :
    s.reached = true ∧ s.attained = true ∧ s.error = false ∧ (s.atAttain d x).h.status = s.h.status := by
  unfold Sys.atAttain at h ⊢
  cases he : s.error with
  | true => simp [he, Sys.fail] at h
  | false =>
    cases ha : s.attained with
    | false => cases x <;> simp [he, ha, Sys.fail] at h
    | true =>
      have h : (s.atStop d false).stage = .succeeded := by simpa [he, ha] using h
      have := stop_succeeds s d false h
      simpa [he, ha] using this

theorem start_succeeds (s : Sys) (d t : Int) (x : Bool) (h : (s.atStart d t x).stage = .succeeded) :
    s.reached = true ∧ s.attained = true ∧ s.error = false ∧ (s.atStart d t x).h.status = s.h.status := by
  unfold Sys.atStart at h ⊢
  cases he : s.error with
  | true => simp [he, Sys.fail] at h
  | false =>
    by_cases hc : (s.attained || !s.reached) = true
    · have hc' : (false || s.attained || !s.reached) = true := by simpa using hc
      rw [he] at h
      rw [if_pos hc'] at h ⊢
      have := attain_succeeds s (t + 10000) false h
      simpa [he] using this
    · have hc' : ¬ (false || s.attained || !s.reached) = true := by simpa using hc
      rw [he, if_neg hc'] at h
      cases x <;> simp [Sys.fail] at h

theorem look_succeeds (s : Sys) (t : Int) (x : Bool)
    (hs : (∃ d, s.stage = .prepare d) ∨ (∃ d, s.stage = .starting d) ∨ (∃ d, s.stage = .attaining d) ∨ (∃ d, s.stage = .stopping d))
    (h : (s.look t x).stage = .succeeded) :
    s.reached = true ∧ s.attained = true ∧ s.error = false ∧ (s.look t x).h.status = s.h.status := by
  unfold Sys.look at h ⊢
  rcases hs with ⟨d, hs⟩ | ⟨d, hs⟩ | ⟨d, hs⟩ | ⟨d, hs⟩ <;> rw [hs] at h ⊢ <;> dsimp only at h ⊢
  · unfold Sys.atPrepare at h ⊢
    cases he : s.error with
    | true => simp [he, Sys.fail] at h
    | false =>
      cases hr : s.reached with
      | false => cases x <;> simp [he, hr, Sys.fail] at h
      | true =>
        have h : (Sys.atStart { s with h := { s.h with execute := true } } d t false).stage = .succeeded := by simpa [he, hr] using h
        have := start_succeeds _ d t false h
        simp only [he, hr, Bool.or_true, if_true, Bool.false_eq_true, if_false]
        exact ⟨trivial, this.2.1, trivial, this.2.2.2⟩
  · exact start_succeeds s d t x h
  · exact attain_succeeds s d x h
  · exact stop_succeeds s d x h

theorem look_deadline (s : Sys) (t : Int) (x : Bool) (d : Int) (h : (s.look t x).stage.deadline = some d) :
    s.stage.deadline = some d ∨ d = t + 10000 := by
  obtain ⟨⟨ex, st⟩, sg⟩ := s
  cases sg <;> simp only [Sys.look] at h
  case prepare d' =>
    simp only [Sys.atPrepare, Sys.atStart, Sys.atAttain, Sys.atStop, Sys.finish, Sys.fail] at h
    repeat' split at h
    all_goals simp_all [Stage.deadline]
    all_goals omega
  case starting d' =>
    simp only [Sys.atStart, Sys.atAttain, Sys.atStop, Sys.finish, Sys.fail] at h
    repeat' split at h
    all_goals simp_all [Stage.deadline]
    all_goals omega
  case attaining d' =>
    simp only [Sys.atAttain, Sys.atStop, Sys.finish, Sys.fail] at h
    repeat' split at h
    all_goals simp_all [Stage.deadline]
  case stopping d' =>
    simp only [Sys.atStop, Sys.finish, Sys.fail] at h
    repeat' split at h
    all_goals simp_all [Stage.deadline]
  all_goals exact Or.inl h

theorem times_run (now : Int) (es : List Ev) (s : Sys)
    (hs : ∀ d, s.stage.deadline = some d → d = now + 1000 ∨ d = now + 10000 ∨ ∃ u, d = u + 10000 ∧ (Ev.wake u ∈ ([] : List Ev) ∨ Ev.timeout u ∈ ([] : List Ev))) :
    ∀ d, (s.run es).stage.deadline = some d → d = now + 1000 ∨ d = now + 10000 ∨ ∃ u, d = u + 10000 ∧ (Ev.wake u ∈ es ∨ Ev.timeout u ∈ es) := by
  have : ∀ (es pre : List Ev) (s : Sys),
      (∀ d, s.stage.deadline = some d → d = now + 1000 ∨ d = now + 10000 ∨ ∃ u, d = u + 10000 ∧ (Ev.wake u ∈ pre ∨ Ev.timeout u ∈ pre)) →
      ∀ d, (s.run es).stage.deadline = some d → d = now + 1000 ∨ d = now + 10000 ∨ ∃ u, d = u + 10000 ∧ (Ev.wake u ∈ pre ++ es ∨ Ev.timeout u ∈ pre ++ es) := by
    intro es
    induction es with
    | nil =>
      intro pre s hs d hd
      simpa using hs d hd
    | cons e es ih =>
      intro pre s hs d hd
      have := ih (pre ++ [e]) (s.step e) ?_ d hd
      · simpa using this
      · intro d hd
        have old : s.stage.deadline = some d → d = now + 1000 ∨ d = now + 10000 ∨ ∃ u, d = u + 10000 ∧ (Ev.wake u ∈ pre ++ [e] ∨ Ev.timeout u ∈ pre ++ [e]) := by
          intro h
          rcases hs d h with h | h | ⟨u, h1, h2⟩
          · exact Or.inl h
          · exact Or.inr (Or.inl h)
          · exact Or.inr (Or.inr ⟨u, h1, h2.imp (List.mem_append_left _) (List.mem_append_left _)⟩)
        cases e with
        | read sw => exact old hd
        | wake t =>
          rcases look_deadline s t false d hd with h | h
          · exact old h
          · exact Or.inr (Or.inr ⟨t, h, Or.inl (by simp)⟩)
        | timeout t =>
          simp only [Sys.step] at hd
          split at hd
          · split at hd
            · rcases look_deadline s t true d hd with h | h
              · exact old h
              · exact Or.inr (Or.inr ⟨t, h, Or.inr (by simp)⟩)
            · exact old hd
          · exact old hd
  intro d hd
  simpa using this es [] s hs d hd

end Verif.Hom
