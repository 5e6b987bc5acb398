import Verif.Spec.Settings
import Verif.Lemmas.Driver

namespace Verif.Cfg
open Verif Verif.Drv Verif.Spec

theorem toString_toList (n : Nat) : (toString n).toList = Nat.toDigits 10 n := by
  show (Nat.repr n).toList = _
  simp [Nat.repr]

theorem digitChar_spec (d : Nat) (h : d < 10) : (Nat.digitChar d).isDigit = true ∧ (Nat.digitChar d).toNat - 48 = d := by
  have : ∀ d : Fin 10, (Nat.digitChar d).isDigit = true ∧ (Nat.digitChar d).toNat - 48 = d.val := by decide
  exact this ⟨d, h⟩

theorem digit_eq (c : Char) (h : c.isDigit = true) : c.toNat - 48 < 10 ∧ Nat.digitChar (c.toNat - 48) = c := by
  have h1 : 48 ≤ c.toNat ∧ c.toNat ≤ 57 := by
    simp only [Char.isDigit, Bool.and_eq_true, decide_eq_true_eq] at h
    exact ⟨h.1, h.2⟩
  refine ⟨by omega, ?_⟩
  obtain ⟨d, hd, hc⟩ : ∃ d, d < 10 ∧ c.toNat = 48 + d := ⟨c.toNat - 48, by omega, by omega⟩
  have : ∀ d : Fin 10, Nat.digitChar (48 + d.val - 48) = Char.ofNat (48 + d.val) := by decide
  rw [hc, this ⟨d, hd⟩, ← hc]
  exact Char.ofNat_toNat c

/-- the value of a text of digits, after `a` -/
def val (a : Nat) (s : Text) : Nat := s.foldl (fun a c => 10 * a + (c.toNat - 48)) a

theorem toDigits_snoc (v d : Nat) (hv : 0 < v) (hd : d < 10) :
    Nat.toDigits 10 (10 * v + d) = Nat.toDigits 10 v ++ [Nat.digitChar d] := by
  have h := Nat.toDigits_of_base_le (b := 10) (n := 10 * v + d) (by omega) (by omega)
  rw [h]
  have h1 : (10 * v + d) / 10 = v := by omega
  have h2 : (10 * v + d) % 10 = d := by omega
  rw [h1, h2]

theorem digits_form : ∀ (t pre : Text) (v z : Nat), pre = List.replicate z '0' ++ Nat.toDigits 10 v →
    (∀ c ∈ t, c.isDigit = true) → ∃ z', pre ++ t = List.replicate z' '0' ++ Nat.toDigits 10 (val v t)
  | [], pre, v, z, h, _ => ⟨z, by simpa [val] using h⟩
  | c :: t, pre, v, z, h, hc => by
    obtain ⟨h1, h2⟩ := digit_eq c (hc c (by simp))
    have hstep : ∃ z', pre ++ [c] = List.replicate z' '0' ++ Nat.toDigits 10 (10 * v + (c.toNat - 48)) := by
      by_cases hv : v = 0
      · subst hv
        refine ⟨z + 1, ?_⟩
        rw [Nat.mul_zero, Nat.zero_add, Nat.toDigits_of_lt_base h1, h2, h, List.replicate_succ',
          Nat.toDigits_of_lt_base (by omega)]
        rfl
      · refine ⟨z, ?_⟩
        rw [toDigits_snoc v _ (by omega) h1, h2, h, List.append_assoc]
    obtain ⟨z', hz⟩ := hstep
    obtain ⟨z2, h3⟩ := digits_form t (pre ++ [c]) _ z' hz (fun c' h' => hc c' (by simp [h']))
    exact ⟨z2, by simpa [val] using h3⟩

theorem digits_form' (s : Text) (hs : s ≠ []) (hc : ∀ c ∈ s, c.isDigit = true) :
    ∃ z, s = List.replicate z '0' ++ Nat.toDigits 10 (val 0 s) := by
  cases s with
  | nil => exact absurd rfl hs
  | cons c t =>
    obtain ⟨h1, h2⟩ := digit_eq c (hc c (by simp))
    obtain ⟨z, hz⟩ := digits_form t [c] (c.toNat - 48) 0 (by rw [Nat.toDigits_of_lt_base h1, h2]; rfl)
      (fun c' h' => hc c' (by simp [h']))
    exact ⟨z, by simpa [val] using hz⟩

theorem val_append (a : Nat) (s t : Text) : val a (s ++ t) = val (val a s) t := by simp [val, List.foldl_append]

theorem toDigits_val (n : Nat) : val 0 (Nat.toDigits 10 n) = n ∧ (∀ c ∈ Nat.toDigits 10 n, c.isDigit = true) ∧
    Nat.toDigits 10 n ≠ [] := by
  induction n using Nat.strongRecOn with
  | _ n ih =>
    by_cases h : n < 10
    · rw [Nat.toDigits_of_lt_base h]
      refine ⟨?_, ?_, by simp⟩
      · simp [val, (digitChar_spec n h).2]
      · intro c hc
        have : c = Nat.digitChar n := by simpa using hc
        rw [this]; exact (digitChar_spec n h).1
    · obtain ⟨i1, i2, i3⟩ := ih (n / 10) (by omega)
      have hm : n % 10 < 10 := Nat.mod_lt _ (by omega)
      rw [Nat.toDigits_of_base_le (by omega) (by omega)]
      refine ⟨?_, ?_, by simp⟩
      · rw [val_append, i1]
        simp [val, (digitChar_spec _ hm).2]
        omega
      · intro c hc
        rcases List.mem_append.mp hc with hc | hc
        · exact i2 c hc
        · have : c = Nat.digitChar (n % 10) := by simpa using hc
          rw [this]; exact (digitChar_spec _ hm).1

theorem val_zeros (z : Nat) : val 0 (List.replicate z '0') = 0 := by
  induction z with
  | zero => rfl
  | succ z ih => rw [List.replicate_succ', val_append, ih]; rfl

theorem digits32_iff (s : Text) (n : Nat) :
    digits32 s = some n ↔ ∃ z, s = List.replicate z '0' ++ (toString n).toList ∧ n < 2 ^ 32 := by
  rw [toString_toList]
  unfold digits32
  constructor
  · intro h
    split at h
    · simp at h
    · rename_i hs
      split at h
      · rename_i hd
        dsimp only at h
        split at h
        · rename_i hn
          simp only [Option.some.injEq] at h
          have hall : ∀ c ∈ s, c.isDigit = true := by simpa using hd
          obtain ⟨z, hz⟩ := digits_form' s hs hall
          have hv : val 0 s = n := h
          rw [hv] at hz
          exact ⟨z, hz, by rw [← h]; exact hn⟩
        · simp at h
      · simp at h
  · rintro ⟨z, rfl, hn⟩
    obtain ⟨t1, t2, t3⟩ := toDigits_val n
    have hne : List.replicate z '0' ++ Nat.toDigits 10 n ≠ [] := by simp [t3]
    have hall : (List.replicate z '0' ++ Nat.toDigits 10 n).all Char.isDigit = true := by
      rw [List.all_eq_true]
      intro c hc
      rcases List.mem_append.mp hc with hc | hc
      · rw [(List.mem_replicate.mp hc).2]; rfl
      · exact t2 c hc
    have hv : val 0 (List.replicate z '0' ++ Nat.toDigits 10 n) = n := by rw [val_append, val_zeros, t1]
    rw [if_neg hne, if_pos hall]
    show (if val 0 (List.replicate z '0' ++ Nat.toDigits 10 n) < 2 ^ 32 then some (val 0 (List.replicate z '0' ++ Nat.toDigits 10 n)) else none) = some n
    rw [hv, if_pos hn]

theorem head_digit (z n : Nat) : ∃ c r, List.replicate z '0' ++ (toString n).toList = c :: r ∧ c.isDigit = true := by
  rw [toString_toList]
  obtain ⟨_, t2, t3⟩ := toDigits_val n
  cases z with
  | zero =>
    cases h : Nat.toDigits 10 n with
    | nil => exact absurd h t3
    | cons c r => exact ⟨c, r, by simp, t2 c (by simp [h])⟩
  | succ z => exact ⟨'0', _, by rw [List.replicate_succ, List.cons_append], rfl⟩

theorem lexicalUnsigned_iff (s : Text) (n : Nat) :
    lexicalUnsigned s = some n ↔ DecimalText s n ∨ ∃ m, MinusText s m ∧ n = (2 ^ 32 - m) % 2 ^ 32 := by
  constructor
  · intro h
    unfold lexicalUnsigned at h
    split at h
    · obtain ⟨z, hz, hn⟩ := (digits32_iff _ _).1 h
      exact Or.inl ⟨true, z, by simp [hz], hn⟩
    · simp only [Option.map_eq_some_iff] at h
      obtain ⟨m, hm, hn⟩ := h
      obtain ⟨z, hz, hn'⟩ := (digits32_iff _ _).1 hm
      exact Or.inr ⟨m, ⟨z, by rw [hz], hn'⟩, hn.symm⟩
    · obtain ⟨z, hz, hn⟩ := (digits32_iff _ _).1 h
      exact Or.inl ⟨false, z, by simp [hz], hn⟩
  · rintro (⟨plus, z, hs, hn⟩ | ⟨m, ⟨z, hs, hm⟩, hn⟩)
    · cases plus with
      | true =>
        have : s = '+' :: (List.replicate z '0' ++ (toString n).toList) := by simpa using hs
        rw [this]
        exact (digits32_iff _ _).2 ⟨z, rfl, hn⟩
      | false =>
        have hs' : s = List.replicate z '0' ++ (toString n).toList := by simpa using hs
        obtain ⟨c, r, hc, hd⟩ := head_digit z n
        have hlex : lexicalUnsigned s = digits32 s := by
          rw [hs', hc]
          unfold lexicalUnsigned
          split
          · rename_i heq; simp at heq; rw [heq.1] at hd; exact absurd hd (by decide)
          · rename_i heq; simp at heq; rw [heq.1] at hd; exact absurd hd (by decide)
          · rfl
        rw [hlex]
        exact (digits32_iff _ _).2 ⟨z, hs', hn⟩
    · rw [hs]
      show (digits32 _).map _ = _
      rw [(digits32_iff _ _).2 ⟨z, rfl, hm⟩, hn]
      rfl

theorem joinPath_cons (s : Text) (q : Text) (p : List Text) : joinPath (s :: q :: p) = s ++ '/' :: joinPath (q :: p) := rfl

theorem walk_join : ∀ (p : List Text) (f : Nat) (v w : Tree), p ≠ [] → (∀ s ∈ p, '/' ∉ s) → p.length ≤ f →
    (walk f v (joinPath p) = some w ↔ ValueAt v p w)
  | [], _, _, _, h, _, _ => absurd rfl h
  | [s], f, v, w, _, hs, hf => by
    cases f with
    | zero => simp at hf
    | succ f =>
      have : '/' ∉ s := hs s (by simp)
      simp only [walk, joinPath, this, and_false, if_false]
      constructor
      · intro h
        cases v <;> simp [Tree.member] at h
        exact .last h
      · intro h
        cases h with
        | last h => exact h
        | step h h2 => cases h2
  | s :: q :: p, f, v, w, _, hs, hf => by
    cases f with
    | zero => simp at hf
    | succ f =>
      have hns : '/' ∉ s := hs s (by simp)
      have hmem : '/' ∈ joinPath (s :: q :: p) := by rw [joinPath_cons]; simp
      have hall : ∀ c ∈ s, decide (c ≠ '/') = true := by
        intro c hc; simp; rintro rfl; exact hns hc
      have htake : (joinPath (s :: q :: p)).takeWhile (· ≠ '/') = s := by
        rw [joinPath_cons, List.takeWhile_append_of_pos hall]; simp
      have hdrop : ((joinPath (s :: q :: p)).dropWhile (· ≠ '/')).drop 1 = joinPath (q :: p) := by
        rw [joinPath_cons, List.dropWhile_append_of_pos hall]; simp
      have ih := fun v' => walk_join (q :: p) f v' w (by simp) (fun t ht => hs t (by simp [ht])) (by simpa using hf)
      unfold walk
      cases v with
      | struct fs =>
        rw [if_pos ⟨rfl, hmem⟩, htake, hdrop]
        show (match fs.lookup s with | none => none | some w => walk f w (joinPath (q :: p))) = some w ↔ _
        cases hl : fs.lookup s with
        | none =>
          simp only [reduceCtorEq, false_iff]
          intro h
          cases h with
          | step h1 _ => rw [hl] at h1; cases h1
        | some x =>
          dsimp only
          rw [ih x]
          constructor
          · intro h; exact .step hl h
          · intro h
            cases h with
            | step h1 h2 => rw [hl] at h1; cases h1; exact h2
      | _ => 
        simp only [Tree.isStruct, Bool.false_eq_true, false_and, if_false, Tree.member, reduceCtorEq, false_iff]
        intro h; cases h

theorem joinPath_length : ∀ p : List Text, p.length ≤ (joinPath p).length + 1
  | [] => by simp
  | [s] => by simp
  | s :: q :: p => by
    have := joinPath_length (q :: p)
    rw [joinPath_cons]
    simp only [List.length_append, List.length_cons] at *
    omega

theorem lookup_filter_ne (m : SMap) (n k : Text) (h : k ≠ n) : (m.filter (fun e => e.1 ≠ n)).lookup k = m.lookup k := by
  induction m with
  | nil => rfl
  | cons e m ih =>
    obtain ⟨a, b⟩ := e
    by_cases ha : a = n
    · have hk : (k == a) = false := by rw [ha]; simpa using h
      rw [List.filter_cons_of_neg (by simp [ha]), ih, List.lookup_cons, hk]
    · rw [List.filter_cons_of_pos (by simpa using ha), List.lookup_cons, List.lookup_cons, ih]

theorem repr_set (m : SMap) (n k : Text) (v : Val) : (m.set n v).repr k = if k = n then some v.print else m.repr k := by
  unfold SMap.set SMap.repr
  by_cases h : k = n
  · subst h; simp
  · have hk : (k == n) = false := by simpa using h
    rw [if_neg h, List.lookup_cons, hk]
    exact lookup_filter_ne m n k h

theorem repr_history (n : Text) : ∀ (h : List (Text × Val)) (m : SMap),
    (h.foldl (fun m e => m.set e.1 e.2) m).repr n = match lastSet n h with | some v => some v.print | none => m.repr n
  | [], m => rfl
  | (k, v) :: h, m => by
    rw [List.foldl_cons, repr_history n h]
    simp only [lastSet]
    cases lastSet n h with
    | some w => rfl
    | none =>
      dsimp only
      rw [repr_set]
      by_cases hk : k = n
      · subst hk; simp
      · simp only [hk, if_false]
        rw [if_neg (fun h => hk (Eq.symm h))]

theorem at_valueAt (x : Tree) : ∀ (p : List Text) (root v : Tree) (q : List Text), root.at p = some v →
    q ≠ [] → (ValueAt v q x ↔ ValueAt root (p ++ q) x)
  | [], root, v, q, h, _ => by simp [Tree.at] at h; subst h; rfl
  | s :: p, root, v, q, h, hq => by
    unfold Tree.at at h
    cases root with
    | struct fs =>
      cases hl : fs.lookup s with
      | none => simp [Tree.member, hl] at h
      | some w =>
        simp only [Tree.member, hl] at h
        rw [at_valueAt x p w v q h hq]
        constructor
        · intro h'; exact .step hl h'
        · intro h'
          generalize hpq : p ++ q = pq at h' ⊢
          have hne : pq ≠ [] := by rw [← hpq]; simp [hq]
          rw [List.cons_append, hpq] at h'
          cases h' with
          | last h1 => exact absurd rfl hne
          | step h1 h2 => rw [hl] at h1; cases h1; exact h2
    | _ => simp [Tree.member] at h

theorem at_none (x : Tree) : ∀ (p : List Text) (root : Tree) (q : List Text), root.at p = none →
    ¬ ValueAt root (p ++ q) x
  | [], root, q, h => by simp [Tree.at] at h
  | s :: p, root, q, h => by
    unfold Tree.at at h
    intro hv
    cases root with
    | struct fs =>
      rw [List.cons_append] at hv
      generalize hpq : p ++ q = pq at hv
      cases hv with
      | last h1 =>
        simp only [Tree.member, h1] at h
        have hp : p = [] := by
          cases p with
          | nil => rfl
          | cons _ _ => simp at hpq
        subst hp
        simp [Tree.at] at h
      | step h1 h2 =>
        simp only [Tree.member, h1] at h
        rw [← hpq] at h2
        exact at_none x p _ q h h2
    | _ => cases hv

theorem print_bool (b : Bool) : lexicalBool (if b then ['1'] else ['0']) = some b := by cases b <;> decide

theorem lexicalUnsigned_toString (n : Nat) (h : n < 2 ^ 32) : lexicalUnsigned (toString n).toList = some n :=
  (lexicalUnsigned_iff _ _).2 (Or.inl ⟨false, 0, by simp, h⟩)

end Verif.Cfg
