import Verif.Spec.Reader

set_option linter.unusedSimpArgs false
namespace Verif.Rd
open Verif.Spec

variable {α : Type}

theorem trimLoop_eq (n : Nat) (l : List α) : trimLoop n l = l.drop (l.length - n) := by
  induction l with
  | nil => simp [trimLoop]
  | cons x xs ih =>
    unfold trimLoop
    split
    · rename_i h
      rw [ih]
      simp only [List.length_cons] at h ⊢
      rw [show xs.length + 1 - n = (xs.length - n) + 1 by omega, List.drop_succ_cons]
    · rename_i h
      simp only [List.length_cons] at h ⊢
      rw [show xs.length + 1 - n = 0 by omega, List.drop_zero]

/-- the concrete reader represents the abstract one -/
def Rel (r : Reader α) (a : AbsReader α) : Prop :=
  r.buffer = a.log.drop a.gone ∧ r.enabled = a.enabled ∧ r.maxLen = a.cap ∧ a.gone ≤ a.log.length ∧
  (a.cap ≠ 0 → a.log.length - a.gone ≤ a.cap)

theorem trim_rel (r : Reader α) (a : AbsReader α) (h1 : r.buffer = a.log.drop a.gone) (h2 : r.enabled = a.enabled)
    (h3 : r.maxLen = a.cap) (h4 : a.gone ≤ a.log.length) : Rel r.trim a.limit := by
  unfold Reader.trim AbsReader.limit
  by_cases hc : a.cap = 0
  · rw [if_neg (by omega), if_pos hc]
    exact ⟨h1, h2, h3, h4, fun h => absurd hc h⟩
  · rw [if_pos (by omega), if_neg hc]
    refine ⟨?_, h2, h3, by simp only; omega, fun _ => by simp only; omega⟩
    simp only
    rw [trimLoop_eq, h1, List.length_drop, List.drop_drop, h3]
    congr 1
    omega

theorem step_rel (r : Reader α) (a : AbsReader α) (op : Op α) (h : Rel r a) :
    Rel (r.step op).1 (a.step op).1 ∧ (r.step op).2 = (a.step op).2 := by
  obtain ⟨h1, h2, h3, h4, h5⟩ := h
  cases op with
  | arrive f =>
    simp only [Reader.step, AbsReader.step, Reader.handleFrame, h2]
    cases he : a.enabled with
    | false =>
      simp only [Bool.false_eq_true, if_false]
      exact ⟨⟨h1, h2, h3, h4, h5⟩, trivial⟩
    | true =>
      refine ⟨?_, rfl⟩
      apply trim_rel
      · simp only; rw [h1, List.drop_append_of_le_length h4]
      · simp [h2, he]
      · exact h3
      · simp; omega
  | flush =>
    refine ⟨⟨?_, h2, h3, Nat.le_refl _, fun _ => by simp [AbsReader.step]⟩, rfl⟩
    simp [Reader.step, AbsReader.step, Reader.flush]
  | listen =>
    refine ⟨⟨?_, h2, h3, Nat.le_refl _, fun _ => by simp [AbsReader.step]⟩, rfl⟩
    simp [Reader.step, AbsReader.step, Reader.listen]
  | setMaxLen n =>
    refine ⟨trim_rel _ _ h1 h2 rfl h4, rfl⟩
  | setEnabled e => exact ⟨⟨h1, rfl, h3, h4, h5⟩, rfl⟩
  | read =>
    simp only [Reader.step, AbsReader.step, Reader.readUntil]
    cases hb : r.buffer with
    | nil =>
      rw [hb] at h1
      have hl : a.log.length ≤ a.gone := by
        have := congrArg List.length h1; simp at this; omega
      rw [List.getElem?_eq_none hl]
      exact ⟨⟨by simp only [hb]; exact h1, h2, h3, h4, h5⟩, rfl⟩
    | cons x xs =>
      rw [hb] at h1
      have hl : a.gone < a.log.length := by
        have := congrArg List.length h1; simp at this; omega
      have hd := List.drop_eq_getElem_cons hl
      rw [hd] at h1
      simp only [List.cons.injEq] at h1
      rw [List.getElem?_eq_getElem hl]
      refine ⟨⟨h1.2, h2, h3, hl, ?_⟩, by simp [h1.1]⟩
      intro hc; have := h5 hc; simp only; omega
  | peek =>
    simp only [Reader.step, AbsReader.step, Reader.readUntil]
    cases hb : r.buffer with
    | nil => exact ⟨⟨by rw [hb, ← h1, hb], h2, h3, h4, h5⟩, rfl⟩
    | cons x xs => exact ⟨⟨by simpa using h1, h2, h3, h4, h5⟩, rfl⟩

theorem run_rel (ops : List (Op α)) (r : Reader α) (a : AbsReader α) (h : Rel r a) :
    Rel (r.run ops).1 (a.run ops).1 ∧ (r.run ops).2 = (a.run ops).2 := by
  induction ops generalizing r a with
  | nil => exact ⟨h, rfl⟩
  | cons op ops ih =>
    obtain ⟨h1, h2⟩ := step_rel r a op h
    obtain ⟨h3, h4⟩ := ih _ _ h1
    exact ⟨h3, by simp only [Reader.run, AbsReader.run, h2, h4]⟩

/-- delivered frames are taken from the log in order, before the position -/
theorem abs_delivered (ops : List (Op α)) (a : AbsReader α) (ha : a.gone ≤ a.log.length) (d : List α)
    (hd : d.Sublist (a.log.take a.gone)) :
    (d ++ (a.run ops).2).Sublist ((a.run ops).1.log.take (a.run ops).1.gone) ∧
    (a.run ops).1.log = a.log ++ acceptedOf a.enabled ops ∧
    (a.run ops).1.gone ≤ (a.run ops).1.log.length := by
  induction ops generalizing a d with
  | nil => simp [AbsReader.run, acceptedOf, hd, ha]
  | cons op ops ih =>
    have lim : ∀ b : AbsReader α, b.limit.log = b.log ∧ b.limit.enabled = b.enabled ∧ b.gone ≤ b.limit.gone ∧
        (b.gone ≤ b.log.length → b.limit.gone ≤ b.log.length) := by
      intro b; unfold AbsReader.limit; split
      · exact ⟨rfl, rfl, Nat.le_refl _, id⟩
      · refine ⟨rfl, rfl, by simp only; omega, fun h => by simp only; omega⟩
    have tk : ∀ (l : List α) (m n : Nat), m ≤ n → (l.take m).Sublist (l.take n) := by
      intro l m n h
      exact (List.take_prefix_take_left h).sublist
    simp only [AbsReader.run]
    cases op with
    | arrive f =>
      simp only [AbsReader.step, acceptedOf]
      cases he : a.enabled with
      | false =>
        simp only [Bool.false_eq_true, if_false, Option.toList_none, List.nil_append]
        have := ih a ha d hd
        rw [he] at this; exact this
      | true =>
        simp only [if_true, Option.toList_none, List.nil_append]
        obtain ⟨l1, l2, l3, l4⟩ := lim { a with log := a.log ++ [f] }
        have := ih (AbsReader.limit { a with log := a.log ++ [f] })
          (by rw [l1]; exact l4 (by simp; omega)) d
          (by
            rw [l1]
            refine hd.trans ?_
            simp only at l3 ⊢
            refine List.Sublist.trans ?_ (tk _ _ _ l3)
            rw [List.take_append_of_le_length ha]
            exact List.Sublist.refl _)
        rw [l1, l2] at this
        rw [show a.log ++ f :: acceptedOf true ops = (a.log ++ [f]) ++ acceptedOf true ops by simp]
        rw [he] at this
        exact this
    | flush =>
      simp only [AbsReader.step, acceptedOf, Option.toList_none, List.nil_append]
      exact ih _ (Nat.le_refl _) d (hd.trans (tk _ _ _ ha))
    | listen =>
      simp only [AbsReader.step, acceptedOf, Option.toList_none, List.nil_append]
      exact ih _ (Nat.le_refl _) d (hd.trans (tk _ _ _ ha))
    | setMaxLen n =>
      simp only [AbsReader.step, acceptedOf, Option.toList_none, List.nil_append]
      obtain ⟨l1, l2, l3, l4⟩ := lim { a with cap := n }
      have := ih (AbsReader.limit { a with cap := n }) (by rw [l1]; exact l4 ha) d
        (by rw [l1]; exact hd.trans (tk _ _ _ l3))
      rw [l1, l2] at this
      exact this
    | setEnabled e =>
      simp only [AbsReader.step, acceptedOf, Option.toList_none, List.nil_append]
      exact ih { a with enabled := e } ha d hd
    | read =>
      simp only [AbsReader.step, acceptedOf]
      cases hg : a.log[a.gone]? with
      | none => simpa using ih a ha d hd
      | some f =>
        have hl : a.gone < a.log.length := (List.getElem?_eq_some_iff.1 hg).1
        have := ih { a with gone := a.gone + 1 } hl (d ++ [f]) (by
          simp only
          rw [List.take_add_one, hg]
          simpa using hd)
        simpa using this
    | peek =>
      simp only [AbsReader.step, acceptedOf, Option.toList_none, List.nil_append]
      exact ih a ha d hd

end Verif.Rd
