import Verif.Lemmas.Eds
import Verif.Props.Storage

/-!
# C64 - C66: what of an EDS file ends up in the dictionary
-/

set_option linter.unusedSimpArgs false

namespace Verif.Props
open Verif Verif.OD Verif.Txt Verif.Spec

/-- the three lists of objects in a file -/
def objectLists : List Text := ["MandatoryObjects".toList, "OptionalObjects".toList, "ManufacturerObjects".toList]

theorem u16_lit {s : Text} {v : Int} (h : IntLit s v) (hf : FitsTy .u16 v) (r : Text) (hr : Stops r) :
    u16Of (s ++ r) = BitVec.ofInt 16 v := intFromString_lit .u16 s r v h hf hr

theorem u16_lit' {s : Text} {v : Int} (h : IntLit s v) (hf : FitsTy .u16 v) : u16Of s = BitVec.ofInt 16 v := by
  have := u16_lit h hf [] stops_nil
  rw [List.append_nil] at this
  exact this

theorem u8_lit' {s : Text} {v : Int} (h : IntLit s v) (hf : FitsTy .u8 v) : u8Of s = BitVec.ofInt 8 v := by
  have := intFromString_lit .u8 s [] v h hf stops_nil
  rw [List.append_nil] at this
  exact this

theorem fits_toNat16 {v : Int} (hf : FitsTy .u16 v) : ((BitVec.ofInt 16 v).toNat : Int) = v := by
  have := intValue_ofInt .u16 v hf
  unfold intValue at this
  exact this

theorem fits_toNat8 {v : Int} (hf : FitsTy .u8 v) : ((BitVec.ofInt 8 v).toNat : Int) = v := by
  have := intValue_ofInt .u8 v hf
  unfold intValue at this
  exact this

/-- C66.  If a file is accepted, then every variable listed in it is in the dictionary under its index: a list with `n` supported
objects has names for 1 to `n`, and a name with a section of object type VAR (7, also the default) or DOMAIN (2) has an entry. -/
theorem C66_variables_loaded (rp : RealParser) (junk : BitVec 16 → Nat → Bool) (ini ini' : Ini) (overlay : List (Text × Text)) (d : Dict)
    (h : fromFile rp junk ini overlay = .ok d) (ho : applyOverlay ini overlay = some ini')
    (key : Text) (hk : key ∈ objectLists) (list : List (Text × Text)) (hl : ini'.sect key = some list)
    (cnt : Text) (n : Int) (hc : lookup list "SupportedObjects".toList = some cnt) (hcn : IntLit cnt n) (hfn : FitsTy .u16 n)
    (j : Nat) (hj0 : 1 ≤ j) (hjn : (j : Int) ≤ n) :
    ∃ name, lookup list (decText j) = some name ∧
      ∀ (v : Int) (sec : List (Text × Text)), IntLit name v → FitsTy .u16 v → ini'.sect (name.drop 2) = some sec →
        (lookup sec "ObjectType".toList = none ∨
          ∃ s t, lookup sec "ObjectType".toList = some s ∧ IntLit s t ∧ (t = 7 ∨ t = 2)) →
        ∃ e, d.get (Key.ofIndex (BitVec.ofInt 16 v)) = some e ∧ e.index = BitVec.ofInt 16 v := by
  obtain ⟨ini2, h1, hw, h2⟩ := fromFile_ok h
  rw [ho] at h1
  cases h1
  have hcount : (j - 1 : Nat) < (u16Of ((lookup list "SupportedObjects".toList).getD [])).toNat := by
    rw [hc]
    simp only [Option.getD_some]
    rw [u16_lit' hcn hfn]
    have := fits_toNat16 hfn
    omega
  obtain ⟨name, hname, hcov⟩ := h2 key hk list hl (j - 1) hcount
  rw [show j - 1 + 1 = j by omega] at hname
  refine ⟨name, hname, ?_⟩
  intro v sec hv hf hs ht
  have h7 : u16Of ((lookup sec "ObjectType".toList).getD "7".toList) = 7 ∨ u16Of ((lookup sec "ObjectType".toList).getD "7".toList) = 2 := by
    rcases ht with ht | ⟨s, t, ht, hlit, hv⟩
    · left; rw [ht]; decide
    · rw [ht]
      simp only [Option.getD_some]
      rcases hv with rfl | rfl
      · left; rw [u16_lit' hlit (by simp [FitsTy, IntTy.signed, IntTy.width, IntTy.size])]; decide
      · right; rw [u16_lit' hlit (by simp [FitsTy, IntTy.signed, IntTy.width, IntTy.size])]; decide
  obtain ⟨e, he⟩ := (hcov sec hs).1 h7
  rw [u16_lit' hv hf] at he
  refine ⟨e, he, ?_⟩
  have hm := hw.keys _ (get_mem he)
  rcases hm with ⟨hm, _⟩ | hm
  · exact (((C24_keys_never_collide _ _ 0 0).1).1 hm).symm
  · exact absurd hm (C24_keys_never_collide _ _ 0 _).2.2

/-- C66.  Likewise for the sub-objects of arrays (8) and records (9): of `m` sub-objects every one that has its own section `..subN` with
`N < m` is in the dictionary. -/
theorem C66_sub_objects_loaded (rp : RealParser) (junk : BitVec 16 → Nat → Bool) (ini ini' : Ini) (overlay : List (Text × Text)) (d : Dict)
    (h : fromFile rp junk ini overlay = .ok d) (ho : applyOverlay ini overlay = some ini')
    (key : Text) (hk : key ∈ objectLists) (list : List (Text × Text)) (hl : ini'.sect key = some list)
    (cnt : Text) (n : Int) (hc : lookup list "SupportedObjects".toList = some cnt) (hcn : IntLit cnt n) (hfn : FitsTy .u16 n)
    (j : Nat) (hj0 : 1 ≤ j) (hjn : (j : Int) ≤ n) :
    ∃ name, lookup list (decText j) = some name ∧
      ∀ (v : Int) (sec : List (Text × Text)) (ts : Text) (t : Int), IntLit name v → FitsTy .u16 v → ini'.sect (name.drop 2) = some sec →
        lookup sec "ObjectType".toList = some ts → IntLit ts t → (t = 8 ∨ t = 9) → lookup sec "CompactSubObj".toList = none →
        ∃ sn, lookup sec "SubNumber".toList = some sn ∧ ∀ (m : Int), IntLit sn m → FitsTy .u8 m → ∀ (i : Nat) (ssec : List (Text × Text)),
          (i : Int) < m → ini'.sect ((name ++ "sub".toList ++ ostreamHex true i).drop 2) = some ssec →
          ∃ e, d.get (Key.ofSub (BitVec.ofInt 16 v) (BitVec.ofNat 8 i)) = some e ∧ e.index = BitVec.ofInt 16 v ∧ e.subIndex = BitVec.ofNat 8 i := by
  obtain ⟨ini2, h1, hw, h2⟩ := fromFile_ok h
  rw [ho] at h1
  cases h1
  have hcount : (j - 1 : Nat) < (u16Of ((lookup list "SupportedObjects".toList).getD [])).toNat := by
    rw [hc]
    simp only [Option.getD_some]
    rw [u16_lit' hcn hfn]
    have := fits_toNat16 hfn
    omega
  obtain ⟨name, hname, hcov⟩ := h2 key hk list hl (j - 1) hcount
  rw [show j - 1 + 1 = j by omega] at hname
  refine ⟨name, hname, ?_⟩
  intro v sec ts t hv hf hs hts hlit ht hcomp
  have h8 : u16Of ((lookup sec "ObjectType".toList).getD "7".toList) = 8 ∨ u16Of ((lookup sec "ObjectType".toList).getD "7".toList) = 9 := by
    rw [hts]
    simp only [Option.getD_some]
    rcases ht with rfl | rfl
    · left; rw [u16_lit' hlit (by simp [FitsTy, IntTy.signed, IntTy.width, IntTy.size])]; decide
    · right; rw [u16_lit' hlit (by simp [FitsTy, IntTy.signed, IntTy.width, IntTy.size])]; decide
  obtain ⟨sn, hsn, hsub⟩ := (hcov sec hs).2 h8 (by rw [hcomp]; decide)
  refine ⟨sn, hsn, ?_⟩
  intro m hm hfm i ssec him hss
  obtain ⟨e, he⟩ := hsub i ssec (by rw [u8_lit' hm hfm]; have := fits_toNat8 hfm; omega) hss
  have hst : Stops ("sub".toList ++ ostreamHex true i) := stops_sub _
  rw [List.append_assoc, u16_lit hv hf _ hst] at he
  refine ⟨e, he, ?_⟩
  have hm := hw.keys _ (get_mem he)
  rcases hm with ⟨hm, _⟩ | hm
  · exact absurd hm.symm (C24_keys_never_collide _ _ 0 _).2.2
  · have := ((C24_keys_never_collide _ _ _ _).2.1).1 hm
    exact ⟨this.1.symm, this.2.symm⟩

/-- C66.  Every key of the dictionary names its entry, and no key occurs twice. -/
theorem C66_keys_match (rp : RealParser) (junk : BitVec 16 → Nat → Bool) (ini : Ini) (overlay : List (Text × Text)) (d : Dict)
    (h : fromFile rp junk ini overlay = .ok d) :
    d.NodupKeys ∧ ∀ k e, d.get k = some e → k.index = e.index ∧ (k.hasSub = true → k.subIndex = e.subIndex) ∧ (k.hasSub = false → e.subIndex = 0) := by
  obtain ⟨ini2, _, hw, _⟩ := fromFile_ok h
  refine ⟨hw.nodup, ?_⟩
  intro k e he
  rcases hw.keys _ (get_mem he) with ⟨hm, hs⟩ | hm
  · dsimp only at hm hs
    rw [hm]
    refine ⟨Key.ofIndex_index _, fun h => ?_, fun _ => hs⟩
    rw [Key.ofIndex_hasSub] at h; cases h
  · dsimp only at hm
    rw [hm]
    refine ⟨Key.ofSub_index _ _, fun _ => Key.ofSub_sub _ _, fun h => ?_⟩
    rw [Key.ofSub_hasSub] at h; cases h

/-- a small file: one variable and one record with two sub-objects -/
def exampleIni : Ini := ⟨[("DeviceInfo".toList, []),
  ("MandatoryObjects".toList, [("SupportedObjects".toList, "2".toList), ("1".toList, "0x1000".toList), ("2".toList, "0x1018".toList)]),
  ("1000".toList, [("ParameterName".toList, "Device type".toList), ("DataType".toList, "0x0007".toList), ("AccessType".toList, "ro".toList)]),
  ("1018".toList, [("ParameterName".toList, "Identity".toList), ("ObjectType".toList, "0x9".toList), ("SubNumber".toList, "2".toList)]),
  ("1018sub0".toList, [("ParameterName".toList, "n".toList), ("DataType".toList, "0x0005".toList), ("AccessType".toList, "ro".toList), ("DefaultValue".toList, "1".toList)]),
  ("1018sub1".toList, [("ParameterName".toList, "vendor".toList), ("DataType".toList, "0x0007".toList), ("AccessType".toList, "ro".toList)])]⟩

/-- the keys of the result -/
def keysOf : Outcome Err Dict → Option (List Key)
  | .ok d => some (d.map (·.1))
  | _ => none

example : keysOf (fromFile ⟨fun _ => none, fun _ => none⟩ (fun _ _ => true) exampleIni []) =
    some [Key.ofIndex 0x1000#16, Key.ofSub 0x1018#16 0#8, Key.ofSub 0x1018#16 1#8] := by decide +kernel

/-- C66.  Every entry of the dictionary (other than those of compact arrays, see C65) says what its section of the file says: name, data
type, access rights, default value and configured value.  The section is the one named like the object, with `sub` and the sub-index
in hexadecimal for a sub-object. -/
theorem C66_contents (rp : RealParser) (junk : BitVec 16 → Nat → Bool) (ini ini' : Ini) (overlay : List (Text × Text)) (d : Dict)
    (h : fromFile rp junk ini overlay = .ok d) (ho : applyOverlay ini overlay = some ini') (k : Key) (e : Entry) (hk : d.get k = some e) :
    (∃ name sec, ini'.sect (name.drop 2) = some sec ∧ Describes (lookup sec) e ∧
      ((k.hasSub = false ∧ ∀ v, IntLit name v → FitsTy .u16 v → k = Key.ofIndex (BitVec.ofInt 16 v)) ∨
       (∃ obj i, name = obj ++ "sub".toList ++ ostreamHex true i ∧ ∀ v, IntLit obj v → FitsTy .u16 v → k = Key.ofSub (BitVec.ofInt 16 v) (BitVec.ofNat 8 i)))) ∨
    (∃ name sec, ini'.sect (name.drop 2) = some sec ∧ u8Of ((lookup sec "CompactSubObj".toList).getD []) ≠ 0 ∧ k.hasSub = true ∧ k.index = u16Of name) := by
  rcases fromFile_from h ho _ (get_mem hk) with ⟨name, sec, e0, hs, he0, hcode, he, hkey⟩ | ⟨name, i, sec, e0, hs, he0, he, hkey⟩ | ⟨name, sec, hs, h0, hi, hkey⟩
  · dsimp only at he hkey
    have hidx : e.index = u16Of name := by rw [(readVar_index he).1]; exact (newEntry_index he0).1
    refine .inl ⟨name, sec, hs, ?_, .inl ⟨by rw [hkey, Key.ofIndex_hasSub], ?_⟩⟩
    · refine readVar_of (rp := rp) 0 he0 ?_
      rw [← (newEntry_index he0).2.1]
      exact he
    · intro v hl hf
      rw [hkey, hidx, u16_lit' hl hf]
  · dsimp only at he hkey
    have hidx : e.index = u16Of (name ++ "sub".toList ++ ostreamHex true i) := by
      rw [(readVar_index he).1]; exact (newEntry_index he0).1
    refine .inl ⟨_, sec, hs, readVar_of (rp := rp) (BitVec.ofNat 8 i) he0 he, .inr ⟨name, i, rfl, ?_⟩⟩
    intro v hl hf
    rw [hkey, hidx, List.append_assoc, u16_lit hl hf _ (stops_sub _)]
  · refine .inr ⟨name, sec, hs, h0, ?_, ?_⟩
    · dsimp only at hkey
      rw [hkey, Key.ofSub_hasSub]
    · dsimp only at hkey hi
      rw [hkey, Key.ofSub_index, hi]

/-- rights, type and name of an entry of the result -/
def looksOf (k : Key) : Outcome Err Dict → Option (Bool × Bool × BitVec 16 × Text)
  | .ok d => (d.get k).map fun e => (e.readable, e.writable, e.dataType, e.desc)
  | _ => none

example : looksOf (Key.ofSub 0x1018#16 0#8) (fromFile ⟨fun _ => none, fun _ => none⟩ (fun _ _ => true) exampleIni []) =
    some (true, false, 5#16, "n".toList) := by decide +kernel

/-- C66.  The value of an object for the set-up of PDOs and the like is the configured one, or else the default one. -/
theorem C66_value (e : Entry) : (e.initVal.isEmpty = false → e.value = e.initVal) ∧ (e.initVal.isEmpty = true → e.value = e.defVal) := by
  unfold Entry.value
  constructor <;> intro h <;> simp [h]

example : (exampleEntry 0x1A00#16 true true (.val (.int .u8 1#8)) (.val (.int .u8 2#8))).value.isEmpty = false := rfl

theorem overlay_go {l l' : List (Text × List (Text × Text))} {n v : Text} (h : Ini.overlay.go n v l = some l') :
    ∀ m, ((l'.find? fun s => lower s.1 = lower m).map (·.2)) =
      if lower m = lower n then ((l.find? fun s => lower s.1 = lower m).map (·.2)).map (fun s => putKey s "ParameterValue".toList v)
      else ((l.find? fun s => lower s.1 = lower m).map (·.2)) := by
  induction l generalizing l' with
  | nil => cases h
  | cons a l ih =>
    obtain ⟨an, as⟩ := a
    intro m
    unfold Ini.overlay.go at h
    split at h
    · rename_i ha
      cases h
      by_cases hm : lower m = lower n
      · have h1 : lower an = lower m := by rw [ha, hm]
        simp [List.find?_cons, h1, hm]
      · have h1 : ¬ lower an = lower m := by rw [ha]; exact fun h => hm h.symm
        simp [List.find?_cons, h1, hm]
    · rename_i ha
      cases hg : Ini.overlay.go n v l with
      | none => rw [hg] at h; cases h
      | some r =>
        rw [hg] at h
        simp only [Option.map_some, Option.some.injEq] at h
        subst h
        have := ih hg m
        by_cases hmn : lower an = lower m
        · have h1 : ¬ lower m = lower n := by rw [← hmn]; exact ha
          simp [List.find?_cons, hmn, h1]
        · simp only [List.find?_cons, hmn, decide_false, cond_false]
          exact this

theorem lookup_put (l : List (Text × Text)) (k v k' : Text) :
    lookup (putKey l k v) k' = if lower k' = lower k then some v else lookup l k' := by
  induction l with
  | nil =>
    unfold putKey lookup
    by_cases h : lower k' = lower k
    · simp [List.find?_cons, h]
    · have : ¬ lower k = lower k' := fun h' => h h'.symm
      simp [List.find?_cons, h, this]
  | cons a l ih =>
    obtain ⟨ak, av⟩ := a
    unfold putKey
    unfold lookup at *
    split
    · rename_i ha
      by_cases h : lower k' = lower k
      · have : lower ak = lower k' := by rw [ha, h]
        simp [List.find?_cons, h, this]
      · have : ¬ lower ak = lower k' := by rw [ha]; exact fun h' => h h'.symm
        simp [List.find?_cons, h, this]
    · rename_i ha
      by_cases h' : lower ak = lower k'
      · have : ¬ lower k' = lower k := by rw [← h']; exact ha
        simp [List.find?_cons, h', this]
      · simp only [List.find?_cons, h', decide_false, cond_false]
        exact ih

/-- C66.  An overlay value replaces exactly the configured value (`ParameterValue`) of exactly the named object, and is refused when the
file has no such object. -/
theorem C66_overlay (ini : Ini) (n v : Text) :
    (ini.sect n = none → ini.overlay n v = none) ∧
    (∀ s, ini.sect n = some s → ∃ ini', ini.overlay n v = some ini' ∧
      (∃ s', ini'.sect n = some s' ∧ lookup s' "ParameterValue".toList = some v ∧
        ∀ k, lower k ≠ lower "ParameterValue".toList → lookup s' k = lookup s k) ∧
      ∀ m, lower m ≠ lower n → ini'.sect m = ini.sect m) := by
  have hsome : ∀ l : List (Text × List (Text × Text)), (Ini.overlay.go n v l).isSome = (l.find? fun s => lower s.1 = lower n).isSome := by
    intro l
    induction l with
    | nil => rfl
    | cons a l ih =>
      obtain ⟨an, as⟩ := a
      unfold Ini.overlay.go
      by_cases ha : lower an = lower n
      · simp [List.find?_cons, ha]
      · simp only [ha, if_false, Option.isSome_map, List.find?_cons, decide_false]
        exact ih
  constructor
  · intro h
    unfold Ini.sect at h
    simp only [Option.map_eq_none_iff] at h
    have := hsome ini.sections
    rw [h] at this
    unfold Ini.overlay
    cases hg : Ini.overlay.go n v ini.sections with
    | none => rfl
    | some r => rw [hg] at this; cases this
  · intro s hs
    have := hsome ini.sections
    unfold Ini.sect at hs
    cases hg : Ini.overlay.go n v ini.sections with
    | none =>
      rw [hg] at this
      cases hf : ini.sections.find? (fun s => lower s.1 = lower n) with
      | none => rw [hf] at hs; cases hs
      | some p => rw [hf] at this; cases this
    | some r =>
      refine ⟨⟨r⟩, by simp [Ini.overlay, hg], ?_, ?_⟩
      · refine ⟨putKey s "ParameterValue".toList v, ?_, ?_, ?_⟩
        · unfold Ini.sect
          rw [overlay_go hg n, if_pos rfl, hs]; rfl
        · rw [lookup_put, if_pos rfl]
        · intro k hk
          rw [lookup_put, if_neg hk]
      · intro m hm
        unfold Ini.sect
        rw [overlay_go hg m, if_neg hm]

example : exampleIni.sect "1018SUB1".toList ≠ none ∧ exampleIni.sect "6040".toList = none := by
  refine ⟨by decide, by decide⟩

theorem compactSubs_get (rp : RealParser) (ini : Ini) (junk : Nat → Bool) (name : Text) (e : Entry) (iv : HoldAny) :
    ∀ (n i : Nat) (d : Dict), i + n ≤ 256 → (∀ j, i ≤ j → j < i + n → compactValue rp ini name e.dataType j = .ok iv) →
    ∃ d', compactSubs rp ini junk name e i n d = .ok d' ∧
      ∀ k, d'.get k = if (d.get k).isSome then d.get k else
        if k.hasSub = true ∧ k = Key.ofSub e.index k.subIndex ∧ i ≤ k.subIndex.toNat ∧ k.subIndex.toNat < i + n then
          some (compactEntry junk name e iv k.subIndex.toNat) else none := by
  intro n
  induction n with
  | zero =>
    intro i d _ _
    refine ⟨d, rfl, fun k => ?_⟩
    rw [if_neg (c := k.hasSub = true ∧ _) (by omega)]
    cases h : d.get k <;> simp
  | succ n ih =>
    intro i d hb hv
    unfold compactSubs
    rw [hv i (by omega) (by omega)]
    dsimp only
    obtain ⟨d', h1, h2⟩ := ih (i + 1) (d.insert (Key.ofSub e.index (BitVec.ofNat 8 i)) (compactEntry junk name e iv i)) (by omega)
      (fun j hj1 hj2 => hv j (by omega) (by omega))
    refine ⟨d', h1, fun k => ?_⟩
    rw [h2 k, get_insert]
    have hi : (BitVec.ofNat 8 i).toNat = i := by simp; omega
    cases hk : d.get k with
    | some x => simp
    | none =>
      simp only [Option.isSome_none, Bool.false_eq_true, if_false]
      by_cases he : k = Key.ofSub e.index (BitVec.ofNat 8 i)
      · have hs : k.subIndex = BitVec.ofNat 8 i := by rw [he, Key.ofSub_sub]
        have hh : k.hasSub = true := by rw [he, Key.ofSub_hasSub]
        rw [if_pos he]
        simp only [Option.isSome_some, if_true]
        rw [if_pos ⟨hh, by rw [hs]; exact he, by rw [hs, hi]; omega, by rw [hs, hi]; omega⟩, hs, hi]
      · rw [if_neg he]
        simp only [Option.isSome_none, Bool.false_eq_true, if_false]
        have : (k.hasSub = true ∧ k = Key.ofSub e.index k.subIndex ∧ i + 1 ≤ k.subIndex.toNat ∧ k.subIndex.toNat < i + 1 + n) ↔
            (k.hasSub = true ∧ k = Key.ofSub e.index k.subIndex ∧ i ≤ k.subIndex.toNat ∧ k.subIndex.toNat < i + (n + 1)) := by
          constructor
          · rintro ⟨a, b, c, dd⟩; exact ⟨a, b, by omega, by omega⟩
          · rintro ⟨a, b, c, dd⟩
            refine ⟨a, b, ?_, by omega⟩
            by_cases hc : k.subIndex.toNat = i
            · exfalso
              apply he
              have : k.subIndex = BitVec.ofNat 8 i := BitVec.eq_of_toNat_eq (by rw [hc, hi])
              rw [← this]; exact b
            · omega
        by_cases hq : k.hasSub = true ∧ k = Key.ofSub e.index k.subIndex ∧ i + 1 ≤ k.subIndex.toNat ∧ k.subIndex.toNat < i + 1 + n
        · rw [if_pos hq, if_pos (this.1 hq)]
        · rw [if_neg hq, if_neg (fun h => hq (this.2 h))]

/-- C64, C65.  An array in compact form with `subs` (not 0) sub-objects, in a file whose section names contain no dot: the object gets
the number of sub-objects `subs` at sub-index 0 and entries for the sub-indices 1 to `subs - 1` only; each has the rights, type and
default of the array but no configured value, whatever the `Value` section says, and its "constant" flag is whatever was in memory
(`junk`). -/
theorem C65_compact_arrays (rp : RealParser) (ini : Ini) (junk : Nat → Bool) (d : Dict) (name : Text) (sec : List (Text × Text)) (e e' : Entry)
    (subs : BitVec 8) (hsubs : subs = u8Of ((lookup sec "CompactSubObj".toList).getD [])) (h0 : subs ≠ 0)
    (he : newEntry name sec = .ok e) (hc : e.objCode = 8 ∨ e.objCode = 9) (he' : readVar rp e sec = .ok e')
    (hdot : ∀ m, '.' ∈ m → ini.sect m = none) (hfresh : ∀ s, d.get (Key.ofSub e.index s) = none) :
    ∃ d' iv, parseBody rp ini junk d name sec = .ok d' ∧ readValue rp e'.dataType none = .ok iv ∧ iv.isEmpty = true ∧
      d'.get (Key.ofSub e.index 0#8) = some (nrOfObjects junk e.index subs) ∧
      (∀ i : BitVec 8, 1 ≤ i.toNat → i.toNat < subs.toNat → d'.get (Key.ofSub e.index i) = some (compactEntry junk name e' iv i.toNat)) ∧
      (∀ i : BitVec 8, subs.toNat ≤ i.toNat → d'.get (Key.ofSub e.index i) = none) := by
  obtain ⟨iv, hiv, hem⟩ : ∃ iv, readValue rp e'.dataType none = .ok iv ∧ iv.isEmpty = true := by
    unfold readVar at he'
    split at he'
    · cases he'
    · dsimp only at he'
      split at he'
      · cases he'
      · split at he'
        · rename_i dts _ _ _ _ _ dv hdv
          split at he'
          · rename_i iv2 hiv2
            cases he'
            dsimp only
            generalize hdt : u16Of dts = dt at hdv
            unfold readValue at hdv ⊢
            split at hdv <;> first | (exact ⟨_, rfl, rfl⟩) | cases hdv
          · cases he'
          · cases he'
        · cases he'
        · cases he'
  have hsub0 : subs.toNat ≠ 0 := fun h => h0 (BitVec.eq_of_toNat_eq (by simpa using h))
  have hei := readVar_index he'
  have hbody : parseBody rp ini junk d name sec =
      compactSubs rp ini junk name e' 1 (subs.toNat - 1) (d.insert (Key.ofSub e.index 0) (nrOfObjects junk e.index subs)) := by
    unfold parseBody
    rw [he]
    dsimp only
    rw [if_neg, if_pos hc]
    · rw [← hsubs, if_pos h0, he']
    · rintro (h | h) <;> rcases hc with h' | h' <;> rw [h] at h' <;> exact absurd h' (by decide)
  have hcv : ∀ j, 1 ≤ j → j < 1 + (subs.toNat - 1) → compactValue rp ini name e'.dataType j = .ok iv := by
    intro j _ _
    unfold compactValue
    rw [hdot _ (by simp)]
    exact hiv
  obtain ⟨d', h1, h2⟩ := compactSubs_get rp ini junk name e' iv (subs.toNat - 1) 1
    (d.insert (Key.ofSub e.index 0) (nrOfObjects junk e.index subs)) (by omega) hcv
  refine ⟨d', iv, by rw [hbody]; exact h1, hiv, hem, ?_, ?_, ?_⟩
  · rw [h2, get_insert, hfresh]
    simp
  · intro i hi1 hi2
    have hne : ¬ (Key.ofSub e.index i = Key.ofSub e.index 0) := by
      intro h
      have := (((C24_keys_never_collide _ _ _ _).2.1).1 h).2
      rw [this] at hi1
      simp at hi1
    rw [h2, get_insert, hfresh]
    simp only [Option.isSome_none, Bool.false_eq_true, if_false, hne, Key.ofSub_hasSub, Key.ofSub_sub, hei.1]
    rw [if_pos ⟨trivial, trivial, by omega, by omega⟩]
  · intro i hi
    have hne : ¬ (Key.ofSub e.index i = Key.ofSub e.index 0) := by
      intro h
      have := (((C24_keys_never_collide _ _ _ _).2.1).1 h).2
      rw [this] at hi
      simp at hi
      exact hsub0 hi
    rw [h2, get_insert, hfresh]
    simp only [Option.isSome_none, Bool.false_eq_true, if_false, hne, Key.ofSub_hasSub, Key.ofSub_sub, hei.1]
    rw [if_neg (by omega)]

/-- a compact array with three sub-objects -/
def exampleCompact : List (Text × Text) := [("ParameterName".toList, "Errors".toList), ("ObjectType".toList, "8".toList), ("CompactSubObj".toList, "3".toList),
  ("DataType".toList, "7".toList), ("AccessType".toList, "rw".toList), ("DefaultValue".toList, "0".toList)]

example : ∃ e e', newEntry "0x1003".toList exampleCompact = .ok e ∧ (e.objCode = 8 ∨ e.objCode = 9) ∧
    readVar ⟨fun _ => none, fun _ => none⟩ e exampleCompact = .ok e' ∧
    u8Of ((lookup exampleCompact "CompactSubObj".toList).getD []) = 3#8 := by
  refine ⟨_, _, rfl, .inl (by decide), rfl, by decide⟩

/-- C64.  The consequence: with the same file, a sub-object of a compact array is read from the device on every `get` or only once ever,
depending on what was in memory. -/
theorem C64_compact_constant {W : Type} (bus : Bus W) (name : Text) (e : Entry) (iv : HoldAny) (i : Nat) (junk : Nat → Bool) (ty : Ty) (v : List Byte) (c : Ctx W)
    (hr : e.readable = true) :
    (junk i = true → (Data.get bus false (Data.ofVal (compactEntry junk name e iv i) ty v) c).2.1 = c) ∧
    (junk i = false → (Data.get bus false (Data.ofVal (compactEntry junk name e iv i) ty v) c).2.1.log =
      c.log ++ [.read .dev e.index (BitVec.ofNat 8 i)]) := by
  constructor
  · intro h
    simp [Data.get, Data.ofVal, compactEntry, hr, h]
  · intro h
    simp only [Data.get, Data.ofVal, compactEntry, hr, h, Bool.not_true, Bool.false_eq_true, if_false, Bool.or_self, Bool.not_false, Bool.or_true, if_true]
    have hl : ∀ (d : Data), (d.callRead bus c).2.1.log = c.log ++ [.read d.rd d.entry.index d.entry.subIndex] := fun _ => rfl
    split <;> (rw [hl, allocate_entry, (allocate_facts _).2.1])

example : (exampleEntry 0x1003#16 true true .none .none).readable = true := rfl

end Verif.Props
