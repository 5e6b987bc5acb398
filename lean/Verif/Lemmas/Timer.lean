import Verif.Spec.Timer

set_option linter.unusedVariables false

namespace Verif.Tim
open Verif Verif.Spec

/-- what a steady schedule keeps -/
def Beat (t0 p : Int) (n0 : Nat) (t : Timer) : Prop :=
  t.delegate = true ∧ t.period = p ∧ n0 ≤ t.calls.length ∧ t.expiry = t0 + (t.calls.length - n0 + 1 : Nat) * p ∧
  ((t.waiting = true ∧ t.queued = 0) ∨ (t.waiting = false ∧ t.queued = 1 ∧ t.expiry ≤ t.now)) ∧
  ∀ k, (h : n0 + k < t.calls.length) → t0 + (k + 1 : Nat) * p ≤ (t.calls[n0 + k]).1 ∧ (t.calls[n0 + k]).1 ≤ t.now

theorem beat_step (t0 p : Int) (n0 : Nat) (t : Timer) (h : Beat t0 p n0 t) (e : Tim.Ev) (he : Steady e = true) : Beat t0 p n0 (t.step e) := by
  obtain ⟨h1, h2, h3, h4, h5, h6⟩ := h
  cases e with
  | pass d =>
    refine ⟨h1, h2, h3, h4, ?_, fun k hk => ?_⟩
    · rcases h5 with h5 | ⟨a, b, c⟩
      · exact Or.inl h5
      · refine Or.inr ⟨a, b, ?_⟩
        show t.expiry ≤ t.now + d
        omega
    · have := h6 k hk
      exact ⟨this.1, by have h2 := this.2; show (t.calls[n0 + k]).1 ≤ t.now + d; omega⟩
  | expire =>
    simp only [Timer.step, Timer.expire]
    split
    · rename_i hx
      rcases h5 with h5 | ⟨a, _⟩
      · exact ⟨h1, h2, h3, h4, Or.inr ⟨rfl, by show t.queued + 1 = 1; rw [h5.2], hx.2⟩, h6⟩
      · rw [a] at hx; simp at hx
    · exact ⟨h1, h2, h3, h4, h5, h6⟩
  | handle r =>
    cases r with
    | false => cases he
    | true =>
      simp only [Timer.step, Timer.handle]
      split
      · exact ⟨h1, h2, h3, h4, h5, h6⟩
      · rename_i hq
        rcases h5 with h5 | ⟨a, b, c⟩
        · exact absurd h5.2 hq
        · simp only [h1, if_true]
          refine ⟨rfl, h2, by simp; omega, ?_, Or.inl ⟨rfl, by show t.queued - 1 = 0; omega⟩, ?_⟩
          · show t.expiry + t.period = _
            rw [h4, h2]
            simp only [List.length_append, List.length_singleton]
            have e1 : t.calls.length + 1 - n0 + 1 = (t.calls.length - n0 + 1) + 1 := by omega
            rw [e1]
            push_cast
            rw [Int.add_mul, Int.add_mul, Int.add_mul, Int.one_mul]
            omega
          · intro k hk
            simp only [List.length_append, List.length_singleton] at hk
            by_cases hl : n0 + k < t.calls.length
            · rw [List.getElem_append_left hl]
              exact h6 k hl
            · have : n0 + k = t.calls.length := by omega
              rw [List.getElem_append_right (by omega)]
              simp only [List.getElem_singleton]
              refine ⟨?_, Int.le_refl _⟩
              have e2 : t.calls.length - n0 = k := by omega
              rw [e2] at h4
              show _ ≤ t.now
              omega
  | start _ _ => cases he
  | restart => cases he
  | stop => cases he

theorem beat_run (t0 p : Int) (n0 : Nat) (evs : List Tim.Ev) (he : ∀ e ∈ evs, Steady e = true) (t : Timer) (h : Beat t0 p n0 t) :
    Beat t0 p n0 (t.run evs) := by
  induction evs generalizing t with
  | nil => exact h
  | cons e es ih => exact ih (fun x hx => he x (by simp [hx])) _ (beat_step t0 p n0 t h e (he e (by simp)))

theorem beat_start (t : Timer) (hs : Silent t) (hd : t.delegate = true) : Beat t.now t.period t.calls.length t.restart := by
  refine ⟨hd, rfl, Nat.le_refl _, ?_, Or.inl ⟨rfl, hs.2⟩, ?_⟩
  · show t.now + t.period = _
    simp [Timer.restart, Timer.arm]
  · intro k hk
    simp only [Timer.restart, Timer.arm] at hk
    omega

theorem now_mono (t : Timer) (evs : List Ev) : t.now ≤ (t.run evs).now := by
  induction evs generalizing t with
  | nil => exact Int.le_refl _
  | cons e es ih =>
    refine Int.le_trans ?_ (ih (t.step e))
    cases e <;> simp only [Timer.step, Timer.start, Timer.restart, Timer.arm, Timer.stop, Timer.expire, Timer.handle]
    · omega
    · split <;> exact Int.le_refl _
    · exact Int.le_refl _
    · exact Int.le_refl _
    · split <;> exact Int.le_refl _
    · repeat' split
      all_goals exact Int.le_refl _

/-- a silent timer stays silent while left alone -/
theorem silent_run (t : Timer) (h : Silent t) (evs : List Ev) (he : ∀ e ∈ evs, LeftAlone e = true ∨ e = .stop) :
    Silent (t.run evs) ∧ (t.run evs).calls = t.calls := by
  induction evs generalizing t with
  | nil => exact ⟨h, rfl⟩
  | cons e es ih =>
    have hs : Silent (t.step e) ∧ (t.step e).calls = t.calls := by
      rcases he e (by simp) with h1 | rfl
      · cases e with
        | pass d => exact ⟨h, rfl⟩
        | expire => simp only [Timer.step, Timer.expire, h.1]; exact ⟨h, rfl⟩
        | handle r => simp only [Timer.step, Timer.handle, h.2]; exact ⟨h, rfl⟩
        | _ => cases h1
      · exact ⟨⟨rfl, h.2⟩, rfl⟩
    obtain ⟨a, b⟩ := ih (t.step e) hs.1 (fun x hx => he x (by simp [hx]))
    exact ⟨a, b.trans hs.2⟩

/-- the calls that may still come without a further start -/
def Timer.pot (t : Timer) : Nat := t.queued + (if t.waiting = true then 1 else 0)

theorem pot_step (t : Timer) (e : Ev) : ∃ new, (t.step e).calls = t.calls ++ new ∧
    new.length + (t.step e).pot ≤ t.pot + (if Starts e = true then 1 else 0) + new.countP (fun c => c.2) := by
  cases e with
  | pass d => exact ⟨[], by simp [Timer.step], by simp [Timer.step, Timer.pot, Starts]; exact Nat.le_refl _⟩
  | start p s => cases s <;> refine ⟨[], ?_, ?_⟩ <;> simp [Timer.step, Timer.start, Timer.arm, Timer.pot, Starts] <;> grind
  | restart => refine ⟨[], ?_, ?_⟩ <;> simp [Timer.step, Timer.restart, Timer.arm, Timer.pot, Starts] <;> grind
  | stop => refine ⟨[], ?_, ?_⟩ <;> simp [Timer.step, Timer.stop, Timer.pot, Starts]
  | expire =>
    refine ⟨[], ?_, ?_⟩ <;> simp only [Timer.step, Timer.expire, Timer.pot, Starts]
    · split <;> simp
    · split <;> simp_all <;> omega
  | handle r =>
    simp only [Timer.step, Timer.handle]
    by_cases hq : t.queued = 0
    · rw [if_pos hq]; exact ⟨[], by simp, by simp⟩
    · rw [if_neg hq]
      cases hd : t.delegate with
      | false => exact ⟨[], by simp, by simp [Timer.pot] <;> omega⟩
      | true =>
        cases r with
        | true => exact ⟨[(t.now, true)], by simp, by simp [Timer.pot] <;> grind⟩
        | false => exact ⟨[(t.now, false)], by simp, by simp [Timer.pot] <;> grind⟩

theorem pot_run (t : Timer) (evs : List Ev) : ∃ new, (t.run evs).calls = t.calls ++ new ∧
    new.length + (t.run evs).pot ≤ t.pot + evs.countP Starts + new.countP (fun c => c.2) := by
  induction evs generalizing t with
  | nil => exact ⟨[], by simp [Timer.run], by simp [Timer.run]⟩
  | cons e es ih =>
    obtain ⟨n1, a1, b1⟩ := pot_step t e
    obtain ⟨n2, a2, b2⟩ := ih (t.step e)
    refine ⟨n1 ++ n2, ?_, ?_⟩
    · show ((t.step e).run es).calls = _
      rw [a2, a1, List.append_assoc]
    · show _ + ((t.step e).run es).pot ≤ _
      rw [List.length_append, List.countP_append, List.countP_cons]
      omega

end Verif.Tim
