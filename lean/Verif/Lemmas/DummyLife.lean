import Verif.Spec.DummyLife

/-!
# Lemmas for C116 and C117
-/

namespace Verif.Spec.DumL
open Verif Verif.DumL
open Verif.Drv (DriverState)

theorem run_append (es fs : List Ev) : ∀ s : DL, s.run (es ++ fs) = (s.run es).run fs := by
  induction es with
  | nil => intro s; rfl
  | cons e es ih => intro s; exact ih _

/-! ### What listeners are told -/

structure Told (s : DL) : Prop where
  last : s.told.getLast?.getD .closed = s.state
  again : ∀ a x b, s.told = a ++ x :: x :: b → x = .ready

theorem told_add {s : DL} (h : Told s) (d : DriverState) (hd : d = .ready ∨ s.state ≠ d) (t : DL) (h1 : t.told = s.told ++ [d]) (h2 : t.state = d) : Told t := by
  refine ⟨by rw [h1, h2]; simp, ?_⟩
  intro a x b he
  rw [h1] at he
  rcases List.eq_nil_or_concat b with rfl | ⟨b', y, rfl⟩
  · have : s.told ++ [d] = (a ++ [x]) ++ [x] := by simpa using he
    obtain ⟨g1, g2⟩ := List.append_inj' this rfl
    simp at g2
    subst g2
    rcases hd with hd | hd
    · exact hd
    · have := h.last
      rw [g1] at this
      simp at this
      exact absurd this.symm hd
  · have : s.told ++ [d] = (a ++ x :: x :: b') ++ [y] := by simpa using he
    obtain ⟨g1, _⟩ := List.append_inj' this rfl
    exact h.again a x b' g1

theorem told_same {s t : DL} (h : Told s) (h1 : t.told = s.told) (h2 : t.state = s.state) : Told t :=
  ⟨by rw [h1, h2]; exact h.last, by rw [h1]; exact h.again⟩

theorem told_set {s : DL} (h : Told s) (d : DriverState) : Told (s.setDriverState d) := by
  unfold DL.setDriverState
  split
  · rename_i hd; exact told_add h d (.inr hd) _ rfl rfl
  · exact h

theorem told_top {s : DL} (h : Told s) : Told s.top := told_add h .ready (.inl rfl) _ rfl rfl

theorem told_wake {s : DL} (h : Told s) : Told s.wake := by
  unfold DL.wake
  dsimp only
  split
  · exact told_same h rfl rfl
  · exact told_top (told_same h rfl rfl)

theorem told_step {s : DL} (h : Told s) (e : Ev) : Told (s.step e) := by
  cases e with
  | init k l =>
    simp only [DL.step, DL.init]
    split
    · split
      · split
        · exact told_same (told_set (s := { s with loopback := l, bus := true }) (told_same h rfl rfl) .opened) rfl rfl
        · exact told_same h rfl rfl
      · exact told_same h rfl rfl
    · exact h
  | send f =>
    simp only [DL.step, DL.send, DL.enqueue]
    split
    · exact h
    · split <;> split <;> exact told_same h rfl rfl
  | close =>
    simp only [DL.step]
    split
    · exact told_same (told_set h .closed) rfl rfl
    · exact h
  | join =>
    simp only [DL.step]
    split
    · split
      · split
        · exact told_same (told_set (s := { s with thread := .none }) (told_same h rfl rfl) .closed) rfl rfl
        · exact told_same h rfl rfl
      · exact h
    · exact h
  | begin =>
    simp only [DL.step]
    split
    · exact told_top h
    · exact h
  | wake =>
    simp only [DL.step]
    split
    · exact told_wake h
    · exact h
  | interrupt =>
    simp only [DL.step]
    split
    · exact told_same h rfl rfl
    · exact h
  | _ =>
    simp only [DL.step, DL.enqueue]
    split
    · exact told_same h rfl rfl
    · exact h

theorem told_run (es : List Ev) : ∀ {s : DL}, Told s → Told (s.run es) := by
  induction es with
  | nil => intro s h; exact h
  | cons e es ih => intro s h; exact ih (told_step h e)

theorem told_fresh : Told DL.fresh := ⟨rfl, by intro a x b h; simp [DL.fresh] at h⟩

/-! ### Sessions -/

/-- what holds in every state -/
structure Ses (s : DL) : Prop where
  up : s.thread ≠ .none → s.user = .idle ∨ s.user = .waiting ∨ s.user = .flushing ∨ s.user = .closing ∨ s.user = .dropping → s.bus = true
  down : s.bus = true → s.user = .idle ∨ s.user = .waiting → s.thread ≠ .none
  wait : s.user = .waiting → s.thread ≠ .none
  created : s.thread = .created → s.user = .idle ∨ s.user = .waiting ∨ s.user = .flushing ∨ s.user = .closing → s.state = .opened
  waiting : s.thread = .waiting → s.state = .ready ∨ s.state = .closed ∧ (s.user = .dropping ∨ (∃ d, s.user = .interrupting d) ∨ ∃ d, s.user = .joining d)
  ended : s.thread = .ended → s.user = .dropping ∨ (∃ d, s.user = .interrupting d) ∨ ∃ d, s.user = .joining d
  int : s.interrupted = true → s.thread = .none ∨ ∃ d, s.user = .joining d
  join : (∃ d, s.user = .joining d) → s.thread = .none ∨ s.interrupted = true
  shut : s.user = .interrupting false ∨ s.user = .joining false → s.bus = false
  gone : s.user = .gone → s.thread = .none ∧ s.bus = false

theorem ses_fresh : Ses DL.fresh := by
  constructor <;> simp [DL.fresh]

set_option maxHeartbeats 4000000 in
theorem ses_step {s : DL} (h : Ses s) (e : Ev) : Ses (s.step e) := by
  obtain ⟨h1, h2, h3, h4, h5, h6, h7, h8, h9, h10⟩ := h
  cases e <;> simp only [DL.step, DL.init, DL.setDriverState, DL.send, DL.enqueue, DL.top, DL.wake] <;>
    (repeat' split) <;> constructor <;> simp_all <;> grind

theorem ses_run (es : List Ev) : ∀ {s : DL}, Ses s → Ses (s.run es) := by
  induction es with
  | nil => intro s h; exact h
  | cons e es ih => intro s h; exact ih (ses_step h e)

end Verif.Spec.DumL
