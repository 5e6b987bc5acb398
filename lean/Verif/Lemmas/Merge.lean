import Verif.Spec.Merge

set_option linter.unusedSimpArgs false

namespace Verif.Merge
open Verif.Spec.Merge

/-- what the merged struct holds for a name -/
def combine : Option XVal → Option XVal → Option XVal
  | none, y => y
  | some (.struct x), some (.struct y) => some (.struct (mergeFields x y))
  | some x, _ => some x

theorem get_append (a : Fields) (k n : String) (x : XVal) (h : a.get? k = none) :
    (a.append k x).get? n = if n = k then some x else a.get? n := by
  match a with
  | .nil => simp [Fields.append, Fields.get?]
  | .cons k' v rest =>
    simp only [Fields.get?] at h
    split at h
    · simp at h
    next hk =>
      have ih := get_append rest k n x h
      simp only [Fields.append, Fields.get?, ih]
      grind

theorem get_set (a : Fields) (k n : String) (x : XVal) (h : (a.get? k).isSome) :
    (a.set k x).get? n = if n = k then some x else a.get? n := by
  match a with
  | .nil => simp [Fields.get?] at h
  | .cons k' v rest =>
    by_cases hk : k = k'
    · subst hk
      simp only [Fields.set, if_true, Fields.get?]
      split <;> rfl
    · simp only [Fields.get?, if_neg hk] at h
      have ih := get_set rest k n x h
      simp only [Fields.set, if_neg hk, Fields.get?, ih]
      grind

theorem get_mergeEntry (a : Fields) (k n : String) (v : XVal) :
    (mergeEntry a k v).get? n = if n = k then combine (a.get? k) (some v) else a.get? n := by
  cases v with
  | leaf x =>
    simp only [mergeEntry]
    cases h : a.get? k with
    | none => dsimp only; rw [get_append _ _ _ _ h]; rfl
    | some y =>
      dsimp only
      by_cases e : n = k
      · subst e; rw [if_pos rfl, h]; cases y <;> rfl
      · rw [if_neg e]
  | struct bf =>
    simp only [mergeEntry]
    cases h : a.get? k with
    | none => dsimp only; rw [get_append _ _ _ _ h]; rfl
    | some y =>
      cases y with
      | leaf z =>
        dsimp only
        by_cases e : n = k
        · subst e; rw [if_pos rfl, h]; rfl
        · rw [if_neg e]
      | struct af =>
        dsimp only
        rw [get_set _ _ _ _ (by rw [h]; rfl)]
        rfl

theorem get_none_of_names (b : Fields) (n : String) (h : n ∉ names b) : b.get? n = none := by
  match b with
  | .nil => rfl
  | .cons k v rest =>
    simp only [names, List.mem_cons, not_or] at h
    simp only [Fields.get?, if_neg h.1]
    exact get_none_of_names rest n h.2

theorem combine_none (x : Option XVal) : combine x none = x := by
  cases x with
  | none => rfl
  | some x => cases x <;> rfl

theorem get_mergeFields (b : Fields) (hb : ProperFields b) (a : Fields) (n : String) :
    (mergeFields a b).get? n = combine (a.get? n) (b.get? n) := by
  match b, hb with
  | .nil, _ => simp only [mergeFields, Fields.get?, combine_none]
  | .cons k v rest, hb =>
    simp only [ProperFields] at hb
    simp only [mergeFields]
    rw [get_mergeFields rest hb.2.2 (mergeEntry a k v) n, get_mergeEntry]
    simp only [Fields.get?]
    by_cases e : n = k
    · subst e
      rw [if_pos rfl, if_pos rfl, get_none_of_names rest n hb.1, combine_none]
    · rw [if_neg e, if_neg e]

theorem proper_get {b : Fields} (hb : ProperFields b) {n : String} {v : XVal} (h : b.get? n = some v) : Proper v := by
  match b, hb with
  | .nil, _ => simp [Fields.get?] at h
  | .cons k w rest, hb =>
    simp only [ProperFields] at hb
    simp only [Fields.get?] at h
    split at h
    · simp at h; subst h; exact hb.2.1
    · exact proper_get hb.2.2 h

theorem at_leaf (p : List String) : ∀ a b, ProperFields b → ∀ x, at? (.struct a) p = some (.leaf x) →
    at? (.struct (mergeFields a b)) p = some (.leaf x) := by
  induction p with
  | nil => intro a b _ x h; simp [at?] at h
  | cons k p ih =>
    intro a b hb x h
    simp only [at?] at h ⊢
    rw [get_mergeFields b hb]
    cases ha : a.get? k with
    | none => rw [ha] at h; simp at h
    | some y =>
      rw [ha] at h
      dsimp only at h
      cases y with
      | leaf z => exact h
      | struct af =>
        cases hbk : b.get? k with
        | none => exact h
        | some w =>
          cases w with
          | leaf z => exact h
          | struct bf => exact ih af bf (by have := proper_get hb hbk; simpa only [Proper] using this) x h

theorem at_silent (p : List String) : ∀ a b, ProperFields b → Silent (.struct a) p →
    at? (.struct (mergeFields a b)) p = at? (.struct b) p := by
  induction p with
  | nil =>
    intro a b _ h
    obtain ⟨q, k, r, fs, e, _⟩ := h
    simp at e
  | cons k p ih =>
    intro a b hb h
    simp only [at?]
    rw [get_mergeFields b hb]
    obtain ⟨q, k', r, fs, e, h1, h2⟩ := h
    cases q with
    | nil =>
      simp only [List.nil_append, List.cons.injEq] at e
      simp only [at?, Option.some.injEq, XVal.struct.injEq] at h1
      rw [e.1, h1, h2]
      rfl
    | cons q0 q =>
      simp only [List.cons_append, List.cons.injEq] at e
      obtain ⟨e1, e2⟩ := e
      subst e1
      simp only [at?] at h1
      cases ha : a.get? k with
      | none => rw [ha] at h1; simp at h1
      | some y =>
        rw [ha] at h1
        dsimp only at h1
        cases y with
        | leaf z => cases q <;> simp [at?] at h1
        | struct af =>
          have hs : Silent (.struct af) p := ⟨q, k', r, fs, e2, h1, h2⟩
          cases hbk : b.get? k with
          | none =>
            -- the default says nothing below either
            have hn := ih af .nil (by simp only [ProperFields]) hs
            simp only [mergeFields] at hn
            show at? (.struct af) p = none
            rw [hn]
            cases p with
            | nil => simp at e2
            | cons _ _ => rfl
          | some w =>
            cases w with
            | leaf z =>
              have hn := ih af .nil (by simp only [ProperFields]) hs
              simp only [mergeFields] at hn
              show at? (.struct af) p = at? (.leaf z) p
              rw [hn]
              cases p with
              | nil => simp at e2
              | cons _ _ => rfl
            | struct bf => exact ih af bf (by have := proper_get hb hbk; simpa only [Proper] using this) hs

theorem at_blocked (p : List String) : ∀ a b, ProperFields b → Blocked (.struct a) p →
    at? (.struct (mergeFields a b)) p = none := by
  intro a b hb h
  obtain ⟨q, k, r, x, rfl, h1⟩ := h
  have h2 := at_leaf q a b hb x h1
  generalize mergeFields a b = m at h2
  have : ∀ (q : List String) (t : XVal), at? t q = some (.leaf x) → at? t (q ++ k :: r) = none := by
    intro q
    induction q with
    | nil => intro t ht; simp [at?] at ht; subst ht; rfl
    | cons q0 q ih =>
      intro t ht
      cases t with
      | leaf z => simp [at?] at ht
      | struct fs =>
        simp only [at?, List.cons_append] at ht ⊢
        cases hg : fs.get? q0 with
        | none => rfl
        | some y => rw [hg] at ht; exact ih y ht
  exact this q _ h2

theorem at_struct (p : List String) : ∀ a b, ProperFields b → ∀ v, at? (.struct a) p = some v →
    (∀ fs, at? (.struct b) p ≠ some (.struct fs)) → at? (.struct (mergeFields a b)) p = some v := by
  induction p with
  | nil => intro a b _ v _ h; exact absurd rfl (h b)
  | cons k p ih =>
    intro a b hb v h hns
    simp only [at?] at h hns ⊢
    rw [get_mergeFields b hb]
    cases ha : a.get? k with
    | none => rw [ha] at h; simp at h
    | some y =>
      rw [ha] at h
      dsimp only at h
      cases y with
      | leaf z => exact h
      | struct af =>
        cases hbk : b.get? k with
        | none => exact h
        | some w =>
          cases w with
          | leaf z => exact h
          | struct bf =>
            rw [hbk] at hns
            exact ih af bf (by have := proper_get hb hbk; simpa only [Proper] using this) v h hns

theorem at_both (p : List String) : ∀ a b, ProperFields b → ∀ af bf, at? (.struct a) p = some (.struct af) →
    at? (.struct b) p = some (.struct bf) → at? (.struct (mergeFields a b)) p = some (.struct (mergeFields af bf)) := by
  induction p with
  | nil => intro a b _ af bf h1 h2; simp [at?] at h1 h2 ⊢; rw [h1, h2]
  | cons k p ih =>
    intro a b hb af bf h1 h2
    simp only [at?] at h1 h2 ⊢
    rw [get_mergeFields b hb]
    cases ha : a.get? k with
    | none => rw [ha] at h1; simp at h1
    | some y =>
      rw [ha] at h1
      cases hbk : b.get? k with
      | none => rw [hbk] at h2; simp at h2
      | some w =>
        rw [hbk] at h2
        dsimp only at h1 h2
        cases y with
        | leaf z => cases p <;> simp [at?] at h1
        | struct af' =>
          cases w with
          | leaf z => cases p <;> simp [at?] at h2
          | struct bf' => exact ih af' bf' (by have := proper_get hb hbk; simpa only [Proper] using this) af bf h1 h2

end Verif.Merge
