import Verif.Model.ObjectText
import Verif.Spec.ObjectText
import Verif.Lemmas.Eds
import Verif.Lemmas.Dict

set_option linter.unusedSimpArgs false

namespace Verif.OD
open Verif Verif.Spec

theorem leBytes_length (n : Nat) (v : BitVec (8 * n)) : (leBytes n v).length = n := by simp [leBytes]

theorem leNat_leBytes : ∀ (n : Nat) (v : BitVec (8 * n)), leNat (leBytes n v) = v.toNat := by
  have key : ∀ (n i : Nat) (x : Nat), leNat ((List.range' i n).map fun j => BitVec.ofNat 8 (x >>> (8 * j))) = (x >>> (8 * i)) % 2 ^ (8 * n) := by
    intro n
    induction n with
    | zero => intro i x; simp [leNat, Nat.mod_one]
    | succ n ih =>
      intro i x
      rw [List.range'_succ, List.map_cons]
      show (BitVec.ofNat 8 (x >>> (8 * i))).toNat + 256 * leNat _ = _
      rw [ih (i + 1) x, BitVec.toNat_ofNat]
      simp only [Nat.shiftRight_eq_div_pow]
      have e1 : x / 2 ^ (8 * (i + 1)) = (x / 2 ^ (8 * i)) / 256 := by
        rw [Nat.div_div_eq_div_mul, show 8 * (i + 1) = 8 * i + 8 by omega, Nat.pow_add]
      have e2 : (2 : Nat) ^ (8 * (n + 1)) = 256 * 2 ^ (8 * n) := by
        rw [show 8 * (n + 1) = 8 + 8 * n by omega, Nat.pow_add]
      rw [e1, e2, Nat.mod_mul]
  intro n v
  have h := key n 0 v.toNat
  have e : leBytes n v = (List.range' 0 n).map fun j => BitVec.ofNat 8 (v.toNat >>> (8 * j)) := by
    unfold leBytes
    rw [List.range_eq_range']
    apply List.map_congr_left
    intro j _
    apply BitVec.eq_of_toNat_eq
    simp
  rw [e, h]
  simp [Nat.mod_eq_of_lt v.isLt]

theorem ofNat_leNat (t : IntTy) (v : BitVec t.width) : BitVec.ofNat t.width (leNat (leBytes t.size v)) = v := by
  rw [leNat_leBytes]; simp

theorem leNat_lt : ∀ bs : List Byte, leNat bs < 2 ^ (8 * bs.length)
  | [] => by simp [leNat]
  | b :: bs => by
    have h := leNat_lt bs
    show b.toNat + 256 * leNat bs < _
    have e2 : (2 : Nat) ^ (8 * (b :: bs).length) = 256 * 2 ^ (8 * bs.length) := by
      rw [List.length_cons, show 8 * (bs.length + 1) = 8 + 8 * bs.length by omega, Nat.pow_add]
    have := b.isLt
    omega

theorem leNat_inj : ∀ a b : List Byte, a.length = b.length → leNat a = leNat b → a = b
  | [], [], _, _ => rfl
  | x :: a, y :: b, hl, h => by
    have h' : x.toNat + 256 * leNat a = y.toNat + 256 * leNat b := h
    have := x.isLt; have := y.isLt
    have e1 : x.toNat = y.toNat := by omega
    rw [BitVec.eq_of_toNat_eq e1, leNat_inj a b (by simpa using hl) (by omega)]
  | [], _ :: _, hl, _ => by simp at hl
  | _ :: _, [], hl, _ => by simp at hl

/-- every byte sequence of the right length represents a number -/
theorem exists_leBytes (t : IntTy) (bs : List Byte) (h : bs.length = t.size) : ∃ v : BitVec t.width, bs = leBytes t.size v := by
  refine ⟨BitVec.ofNat t.width (leNat bs), leNat_inj _ _ (by rw [h, leBytes_length]) ?_⟩
  rw [leNat_leBytes, BitVec.toNat_ofNat, Nat.mod_eq_of_lt]
  have := leNat_lt bs
  rwa [h] at this

theorem intText_leBytes (t : IntTy) (v : BitVec t.width) : intText t (leBytes t.size v) = (toString (intValue t v)).toList := by
  unfold intText intValue
  rw [ofNat_leNat]

theorem fits_intValue (t : IntTy) (v : BitVec t.width) : FitsTy t (intValue t v) := by
  unfold FitsTy intValue
  cases hs : t.signed with
  | true =>
    simp only [if_true]
    have h1 := BitVec.le_toInt (x := v)
    have h2 := BitVec.toInt_lt (x := v)
    constructor
    · simpa using h1
    · simpa using h2
  | false =>
    simp only [Bool.false_eq_true, if_false]
    have := v.isLt
    refine ⟨by omega, ?_⟩
    exact_mod_cast this

theorem digit_toNat (d : Nat) (h : d < 10) : hexDigitVal (Nat.digitChar d) = some d ∧ (Nat.digitChar d = '0' → d = 0) := by
  have : ∀ d : Fin 10, hexDigitVal (Nat.digitChar d) = some d.val ∧ (Nat.digitChar d = '0' → d.val = 0) := by decide
  exact this ⟨d, h⟩

/-- decimal digits of a number -/
theorem toDigits_numeral (n : Nat) : Numeral 10 (Nat.toDigits 10 n) n ∧ (n ≠ 0 → (Nat.toDigits 10 n).head? ≠ some '0') := by
  induction n using Nat.strongRecOn with
  | _ n ih =>
    by_cases h : n < 10
    · rw [Nat.toDigits_of_lt_base h]
      refine ⟨⟨by simp, ?_, ?_⟩, ?_⟩
      · intro c hc
        have : c = Nat.digitChar n := by simpa using hc
        exact ⟨n, by rw [this]; exact (digit_toNat n h).1, h⟩
      · simp [(digit_toNat n h).1]
      · intro hn he
        exact hn ((digit_toNat n h).2 (by simpa using he))
    · have hlt : n / 10 < n := by omega
      obtain ⟨⟨a1, a2, a3⟩, a4⟩ := ih (n / 10) hlt
      have e : Nat.toDigits 10 n = Nat.toDigits 10 (n / 10) ++ [Nat.digitChar (n % 10)] := by
        have := Nat.toDigits_of_base_le (b := 10) (n := n) (by omega) (by omega)
        exact this
      have hm : n % 10 < 10 := Nat.mod_lt _ (by omega)
      rw [e]
      refine ⟨⟨by simp, ?_, ?_⟩, ?_⟩
      · intro c hc
        rcases List.mem_append.mp hc with hc | hc
        · exact a2 c hc
        · have : c = Nat.digitChar (n % 10) := by simpa using hc
          exact ⟨n % 10, by rw [this]; exact (digit_toNat _ hm).1, hm⟩
      · rw [List.foldl_append, a3]
        simp [(digit_toNat _ hm).1]
        omega
      · intro _ he
        have : (Nat.toDigits 10 (n / 10)).head? = some '0' := by
          cases hx : Nat.toDigits 10 (n / 10) with
          | nil => exact absurd hx a1
          | cons y ys => rw [hx] at he; simpa using he
        exact a4 (by omega) this

theorem unsignedLit_repr (n : Nat) : UnsignedLit (toString n).toList n := by
  have e : (toString n).toList = Nat.toDigits 10 n := by
    show (Nat.repr n).toList = _
    simp [Nat.repr]
  rw [e]
  by_cases h : n = 0
  · subst h; exact .zero
  · exact .dec (toDigits_numeral n).1 ((toDigits_numeral n).2 h)

/-- the decimal text of a number is a literal of it -/
theorem intLit_toString (v : Int) : IntLit (toString v).toList v := by
  cases v with
  | ofNat m => exact .plain (unsignedLit_repr m)
  | negSucc m =>
    have e : (toString (Int.negSucc m)).toList = '-' :: (toString (m + 1)).toList := by
      show (Int.repr (Int.negSucc m)).toList = _
      simp only [Int.repr]
      rw [String.toList_append]
      rfl
    rw [e]
    have : Int.negSucc m = -((m + 1 : Nat) : Int) := rfl
    rw [this]
    exact .minus (unsignedLit_repr (m + 1))

theorem intValue_inj (t : IntTy) (a b : BitVec t.width) (h : intValue t a = intValue t b) : a = b := by
  unfold intValue at h
  cases hs : t.signed <;> simp only [hs, if_true, Bool.false_eq_true, if_false] at h
  · exact BitVec.eq_of_toNat_eq (by omega)
  · exact BitVec.eq_of_toInt_eq h

/-- the record in the storage has the type asked for -/
theorem entry_ty (mem : Mem) (s s1 : Storage) (d : Data) (k : Key) (ty : Ty) (h : s.entry mem k ty = (s1, .ok d)) : d.ty = ty := by
  unfold Storage.entry at h
  split at h
  · split at h
    · rename_i hd; cases h; exact hd
    · cases h
  · split at h
    · cases h
    · rename_i e he
      cases hm : s.make mem e ty with
      | ok d1 =>
        rw [hm] at h
        cases h
        unfold Storage.make at hm
        split at hm
        · split at hm <;> cases hm
          rfl
        · split at hm <;> cases hm
          rfl
      | throws x => rw [hm] at h; cases h
      | ub => rw [hm] at h; cases h

theorem get_ty {W : Type} (bus : Bus W) (d : Data) (c : Ctx W) (cached : Bool) : (d.get bus cached c).1.ty = d.ty := by
  unfold Data.get
  split
  · rfl
  · split
    · have : d.allocate.ty = d.ty := by unfold Data.allocate; repeat' split
                                        all_goals rfl
      simp only [Data.callRead]
      split <;> exact this
    · rfl

theorem access_length (d : Data) (t : IntTy) (bs : List Byte) (hd : d.ty = .int t) (h : d.access = .ok bs) : bs.length = t.size := by
  unfold Data.access at h
  rw [hd] at h
  split at h
  · cases h
  · split at h
    · rename_i hx; cases hx
    · split at h
      · cases h
      · rename_i hl
        cases h
        simp [Ty.size] at hl ⊢
        omega

/-- a value that was read has the size of its type -/
theorem get_length {W : Type} (bus : Bus W) (d d' : Data) (c c' : Ctx W) (cached : Bool) (t : IntTy) (bs : List Byte) (hd : d.ty = .int t)
    (h : d.get bus cached c = (d', c', .ok bs)) : bs.length = t.size := by
  unfold Data.get at h
  split at h
  · cases h
  · split at h
    · have hall : d.allocate.ty = d.ty := by
        unfold Data.allocate; repeat' split
        all_goals rfl
      revert h
      dsimp only
      split
      · intro h; cases h
      · intro h
        injection h with h1 h2
        injection h2 with h2 h3
        refine access_length _ t bs ?_ h3
        show d.allocate.ty = _
        rw [hall, hd]
    · injection h with h1 h2
      injection h2 with h2 h3
      exact access_length d t bs hd h3

theorem readValue_int (rp : RealParser) (dt : BitVec 16) (t : IntTy) (v : Option Text) (h : (dt.toNat, Ty.int t) ∈ standardTypes) :
    readValue rp dt v = .ok (parseInt t v) := by
  unfold readValue
  generalize dt.toNat = n at h ⊢
  unfold standardTypes at h
  simp only [List.mem_cons, Prod.mk.injEq, List.not_mem_nil, or_false] at h
  rcases h with h | h | h | h | h | h | h | h | h | h | h | h | h | h <;> (obtain ⟨rfl, h2⟩ := h; cases h2) <;> rfl

theorem store_keeps (d d' : Data) (v : List Byte) (h : d.store v = some d') : d'.wr = d.wr ∧ d'.entry = d.entry := by
  have hal : d.allocate.wr = d.wr ∧ d.allocate.entry = d.entry := by
    unfold Data.allocate
    repeat' split
    all_goals exact ⟨rfl, rfl⟩
  unfold Data.store at h
  dsimp only at h
  split at h
  · cases h; exact hal
  · split at h
    · cases h
    · cases h; exact hal

theorem find_update_same : ∀ (ns : Nodes) (name : Text) (s : Storage), (ns.find name).isSome → (ns.update name s).find name = some s
  | [], _, _, h => by simp [Nodes.find] at h
  | (n, t) :: ns, name, s, h => by
    by_cases hn : n = name
    · simp [Nodes.update, Nodes.find, hn]
    · have ih := find_update_same ns name s (by simpa [Nodes.find, hn] using h)
      simpa [Nodes.update, Nodes.find, hn] using ih

theorem find_update_other : ∀ (ns : Nodes) (name n : Text) (s : Storage), n ≠ name → (ns.update name s).find n = ns.find n
  | [], _, _, _, _ => rfl
  | (m, t) :: ns, name, n, s, h => by
    have ih := find_update_other ns name n s h
    by_cases hm : m = name
    · have h' : ¬ name = n := fun e => h e.symm
      have hmn : ¬ m = n := by rw [hm]; exact h'
      simpa [Nodes.update, Nodes.find, hm, h', hmn] using ih
    · by_cases hmn : m = n
      · simp [Nodes.update, Nodes.find, hm, hmn, h]
      · simpa [Nodes.update, Nodes.find, hm, hmn] using ih

theorem find_update_self (ns : Nodes) (name : Text) (s : Storage) (h : ns.find name = some s) (n : Text) : (ns.update name s).find n = ns.find n := by
  by_cases hn : n = name
  · subst hn
    rw [find_update_same ns n s (by rw [h]; rfl), h]
  · exact find_update_other ns name n s hn

theorem put_other (s : Storage) (k k' : Key) (d : Data) (h : k' ≠ k) : (s.put k d).data k' = s.data k' := by
  simp [Storage.put, h]

theorem entry_others (mem : Mem) (s : Storage) (k k' : Key) (ty : Ty) (h : k' ≠ k) : (s.entry mem k ty).1.data k' = s.data k' := by
  unfold Storage.entry
  repeat' split
  all_goals first | rfl | exact put_other _ _ _ _ h

theorem readText_others {W : Type} (bus : Bus W) (rp : RealPrinter) (mem : Mem) (s : Storage) (c : Ctx W) (k : Key) (cached : Bool) (k' : Key)
    (h : k' ≠ k) : (s.readText bus rp mem c k cached).1.data k' = s.data k' := by
  have he := fun ty => entry_others mem s k k' ty h
  unfold Storage.readText
  split
  · rfl
  · split
    · rfl
    · dsimp only
      split
      · exact he _
      · exact he _
      · split
        all_goals exact (put_other _ _ _ _ h).trans (he _)

theorem writeText_others {W : Type} (bus : Bus W) (rp : RealParser) (mem : Mem) (s : Storage) (c : Ctx W) (k : Key) (cached : Bool) (x : Text) (k' : Key)
    (h : k' ≠ k) : (s.writeText bus rp mem c k cached x).1.data k' = s.data k' := by
  have he := fun ty => entry_others mem s k k' ty h
  unfold Storage.writeText
  split
  · rfl
  · split
    · rfl
    · dsimp only
      split
      · exact he _
      · exact he _
      · split
        · exact he _
        · exact he _
        · split
          · exact he _
          · exact he _
          · split
            all_goals exact (put_other _ _ _ _ h).trans (he _)

end Verif.OD
