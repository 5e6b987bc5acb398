import Verif.Spec.DummyLife

/-!
# Lemmas for C117: the table of virtual buses
-/

namespace Verif.Spec.DumL
open Verif Verif.DumL

theorem lookup_app {α β : Type} [BEq α] (k : α) (l m : List (α × β)) : (l ++ m).lookup k = (l.lookup k).or (m.lookup k) := by
  induction l with
  | nil => simp
  | cons x l ih =>
    obtain ⟨a, b⟩ := x
    simp only [List.cons_append, List.lookup_cons]
    split <;> simp [ih]

theorem lookup_del {α β : Type} [BEq α] [LawfulBEq α] [DecidableEq α] (k j : α) (l : List (α × β)) :
    (l.filter (fun x => x.1 ≠ k)).lookup j = if j = k then none else l.lookup j := by
  induction l with
  | nil => simp
  | cons x l ih =>
    obtain ⟨a, b⟩ := x
    by_cases ha : a = k
    · have hd : decide (a ≠ k) = false := by simp [ha]
      rw [List.filter_cons, hd, if_neg (by decide), ih, List.lookup_cons]
      by_cases hj : j = k
      · simp [hj]
      · have : (j == a) = false := by rw [ha]; exact beq_false_of_ne hj
        rw [if_neg hj, if_neg hj, this]
    · have hd : decide (a ≠ k) = true := by simp [ha]
      rw [List.filter_cons, hd, if_pos rfl, List.lookup_cons, List.lookup_cons, ih]
      by_cases hj : j = a
      · have : (j == a) = true := by rw [hj]; exact beq_self_eq_true a
        rw [this, if_neg (by rw [hj]; exact ha), if_neg (by rw [hj]; exact ha)]
      · have : (j == a) = false := beq_false_of_ne hj
        rw [this]

/-- the table and the names tell the same; `owner` is the name of a dispatcher and how often its bus had been taken down before -/
structure Rel (owner : Nat → Text × Nat) (t : Table) (s : Names) : Prop where
  known : ∀ n, (t.find n).isSome = s.known n
  objects : ∀ k, t.objects.lookup k = s.objects k
  find : ∀ n d, t.find n = some d → d < t.made ∧ owner d = (n, s.times n)
  inj : ∀ d d', d < t.made → d' < t.made → owner d = owner d' → d = d'
  old : ∀ d, d < t.made → (owner d).2 ≤ s.times (owner d).1 ∧ ((owner d).2 = s.times (owner d).1 → t.find (owner d).1 = some d)
  link : ∀ i, s.link i = (t.links.lookup i).map owner
  made : ∀ i d, t.links.lookup i = some d → d < t.made

theorem rel_empty (o : Nat → Text × Nat) : Rel o Table.empty Names.empty := by
  constructor <;> simp [Table.empty, Names.empty, Table.find]

theorem rel_create {owner : Nat → Text × Nat} {t : Table} {s : Names} (h : Rel owner t s) (k : Nat) (n : Text) :
    ∃ owner', Rel owner' (t.op (.create k n)) (s.op (.create k n)) := by
  simp only [Table.op, Names.op]
  cases hk : s.objects k with
  | some m => exact ⟨owner, by simpa [h.objects, hk] using h⟩
  | none =>
    simp only [h.objects, hk, if_true, Option.isSome_none, Bool.false_eq_true, if_false]
    have hobj : ∀ j, (t.objects ++ [(k, n)]).lookup j = if j = k then some n else s.objects j := by
      intro j
      rw [lookup_app, h.objects]
      by_cases hj : j = k
      · subst hj; simp [hk]
      · have : (j == k) = false := by simpa using hj
        simp [List.lookup_cons, this, hj]
    unfold Table.create
    cases hf : t.find n with
    | some d =>
      refine ⟨owner, ⟨?_, hobj, h.find, h.inj, h.old, h.link, h.made⟩⟩
      intro m
      by_cases hm : m = n
      · subst hm; simp only [if_true]; show (t.find m).isSome = true; rw [hf]; rfl
      · simp only [hm, if_false]; exact h.known m
    | none =>
      have hfind : ∀ m, List.lookup m (t.buses ++ [(n, t.made)]) = if m = n then some t.made else t.find m := by
        intro m
        rw [lookup_app]
        by_cases hm : m = n
        · subst hm; simp only [Table.find] at hf; simp [hf]
        · have : (m == n) = false := by simpa using hm
          simp [List.lookup_cons, this, hm, Table.find]
      refine ⟨fun d => if d = t.made then (n, s.times n) else owner d, ?_⟩
      refine ⟨?_, hobj, ?_, ?_, ?_, ?_, ?_⟩
      · intro m
        simp only [Table.find, hfind]
        by_cases hm : m = n
        · simp [hm]
        · simp only [hm, if_false]; exact h.known m
      · intro m d hd
        simp only [Table.find, hfind] at hd
        by_cases hm : m = n
        · subst hm
          simp only [if_true, Option.some.injEq] at hd
          subst hd
          exact ⟨Nat.lt_succ_self _, by simp⟩
        · simp only [hm, if_false] at hd
          obtain ⟨h1, h2⟩ := h.find m d hd
          exact ⟨Nat.lt_succ_of_lt h1, by rw [if_neg (by omega)]; exact h2⟩
      · intro d d' hd hd' he
        simp only at hd hd'
        have key : ∀ x, x < t.made → owner x ≠ (n, s.times n) := by
          intro x hx hxo
          have := (h.old x hx).2 (by rw [hxo])
          rw [hxo] at this
          rw [hf] at this; cases this
        by_cases h1 : d = t.made <;> by_cases h2 : d' = t.made
        · omega
        · simp only [h1, h2, if_true, if_false] at he
          exact absurd he.symm (key d' (by omega))
        · simp only [h1, h2, if_true, if_false] at he
          exact absurd he (key d (by omega))
        · simp only [h1, h2, if_false] at he
          exact h.inj d d' (by omega) (by omega) he
      · intro d hd
        simp only at hd
        by_cases h1 : d = t.made
        · simp [h1, Table.find, hfind]
        · simp only [h1, if_false]
          obtain ⟨g1, g2⟩ := h.old d (by omega)
          refine ⟨g1, fun he => ?_⟩
          have := g2 he
          simp only [Table.find, hfind]
          have hne : (owner d).1 ≠ n := by
            intro hn; rw [hn, hf] at this; cases this
          simp only [hne, if_false]; exact this
      · intro i
        rw [show s.link i = _ from h.link i]
        cases hl : t.links.lookup i with
        | none => simp
        | some d => simp only [hl, Option.map_some]; rw [if_neg (by have := h.made i d hl; omega)]
      · intro i d hl
        exact Nat.lt_succ_of_lt (h.made i d hl)

theorem rel_op {owner : Nat → Text × Nat} {t : Table} {s : Names} (h : Rel owner t s) (o : Op) : ∃ owner', Rel owner' (t.op o) (s.op o) := by
  cases o with
  | create k n => exact rel_create h k n
  | destroy k =>
    refine ⟨owner, ?_⟩
    simp only [Table.op, Table.destroy, Names.op, h.objects]
    cases hk : s.objects k with
    | none => exact h
    | some n =>
      have hfind : ∀ m, List.lookup m (t.buses.filter (fun b => b.1 ≠ n)) = if m = n then none else t.find m := fun m => lookup_del n m t.buses
      refine ⟨?_, ?_, ?_, h.inj, ?_, h.link, h.made⟩
      · intro m
        simp only [Table.find, hfind]
        by_cases hm : m = n
        · simp [hm]
        · simp only [hm, if_false]; exact h.known m
      · intro j
        simp only [lookup_del, h.objects]
      · intro m d hd
        simp only [Table.find, hfind] at hd
        by_cases hm : m = n
        · simp [hm] at hd
        · simp only [hm, if_false] at hd ⊢; exact h.find m d hd
      · intro d hd
        obtain ⟨g1, g2⟩ := h.old d hd
        simp only [Table.find, hfind]
        by_cases hm : (owner d).1 = n
        · rw [hm] at g1
          simp only [hm, if_true]
          exact ⟨by omega, fun he => by omega⟩
        · simp only [hm, if_false]; exact ⟨g1, g2⟩
  | connect i n =>
    refine ⟨owner, ?_⟩
    have hkn := h.known n
    simp only [Table.op, Table.connect, Names.op]
    cases hf : t.find n with
    | none =>
      rw [hf] at hkn
      simp only [← hkn, Option.isSome_none, Bool.false_eq_true, if_false]
      exact h
    | some d =>
      rw [hf] at hkn
      simp only [← hkn, Option.isSome_some, if_true]
      obtain ⟨h1, h2⟩ := h.find n d hf
      have hl : ∀ j, List.lookup j (t.links.filter (fun l => l.1 ≠ i) ++ [(i, d)]) = if j = i then some d else t.links.lookup j := by
        intro j
        rw [lookup_app, lookup_del]
        by_cases hj : j = i
        · simp [hj]
        · have : (j == i) = false := by simpa using hj
          simp [List.lookup_cons, this, hj]
      refine ⟨h.known, h.objects, h.find, h.inj, h.old, ?_, ?_⟩
      · intro j
        simp only [hl]
        by_cases hj : j = i
        · simp [hj, h2]
        · simp only [hj, if_false]; exact h.link j
      · intro j d' hd
        simp only [hl] at hd
        by_cases hj : j = i
        · simp only [hj, if_true, Option.some.injEq] at hd; subst hd; exact h1
        · simp only [hj, if_false] at hd; exact h.made j d' hd
  | disconnect i =>
    refine ⟨owner, ⟨h.known, h.objects, h.find, h.inj, h.old, ?_, ?_⟩⟩
    · intro j
      simp only [Table.op, Names.op, lookup_del]
      by_cases hj : j = i
      · simp [hj]
      · simp only [hj, if_false]; exact h.link j
    · intro j d hd
      simp only [Table.op, lookup_del] at hd
      by_cases hj : j = i
      · simp [hj] at hd
      · simp only [hj, if_false] at hd; exact h.made j d hd

theorem rel_ops (os : List Op) : ∀ {owner : Nat → Text × Nat} {t : Table} {s : Names}, Rel owner t s → ∃ owner', Rel owner' (t.ops os) (s.ops os) := by
  induction os with
  | nil => intro o t s h; exact ⟨o, h⟩
  | cons o os ih => intro ow t s h; obtain ⟨o', h'⟩ := rel_op h o; exact ih h'

/-- without twins a name is known exactly while a bus object of this name is there, and there is only one -/
structure Plain (s : Names) : Prop where
  known : ∀ n, s.known n = true ↔ ∃ k, s.objects k = some n
  one : ∀ j k n, s.objects j = some n → s.objects k = some n → j = k

theorem plain_ops (os : List Op) : ∀ {s : Names}, Plain s → NoTwins s os → Plain (s.ops os) := by
  induction os with
  | nil => intro s h _; exact h
  | cons o os ih =>
    intro s h hn
    refine ih ?_ hn.2
    cases o with
    | create k n =>
      have hn1 := hn.1
      simp only at hn1
      simp only [Names.op]
      split
      · rename_i hk
        refine ⟨?_, ?_⟩
        · intro m
          simp only
          by_cases hm : m = n
          · simp only [hm, if_true, true_iff]; exact ⟨k, by simp⟩
          · simp only [hm, if_false, h.known m]
            constructor
            · rintro ⟨j, hj⟩
              exact ⟨j, by rw [if_neg (by rintro rfl; rw [hk] at hj; cases hj)]; exact hj⟩
            · rintro ⟨j, hj⟩
              by_cases hjk : j = k
              · simp only [hjk, if_true, Option.some.injEq] at hj; exact absurd hj.symm hm
              · simp only [hjk, if_false] at hj; exact ⟨j, hj⟩
        · intro i j m hi hj
          simp only at hi hj
          have : ∀ x, s.objects x = some n → False := by
            intro x hx
            have := hn1 x hx
            subst this
            rw [hk] at hx; cases hx
          grind [h.one]
      · exact h
    | destroy k =>
      simp only [Names.op]
      split
      · rename_i n hk
        refine ⟨?_, ?_⟩
        · intro m
          simp only
          by_cases hm : m = n
          · subst hm
            simp only [if_true, Bool.false_eq_true, false_iff, not_exists]
            intro j hj
            by_cases hjk : j = k
            · simp [hjk] at hj
            · simp only [hjk, if_false] at hj; exact hjk (h.one j k m hj hk)
          · simp only [hm, if_false, h.known m]
            constructor
            · rintro ⟨j, hj⟩
              refine ⟨j, ?_⟩
              rw [if_neg (by rintro rfl; rw [hk] at hj; exact hm (Option.some.inj hj).symm)]; exact hj
            · rintro ⟨j, hj⟩
              by_cases hjk : j = k
              · simp [hjk] at hj
              · simp only [hjk, if_false] at hj; exact ⟨j, hj⟩
        · intro i j m hi hj
          simp only at hi hj
          grind [h.one]
      · exact h
    | connect i n =>
      simp only [Names.op]
      split
      · exact ⟨h.known, h.one⟩
      · exact h
    | disconnect i => exact ⟨h.known, h.one⟩

end Verif.Spec.DumL
