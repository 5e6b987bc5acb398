import Verif.Lemmas.Dict
import Verif.Lemmas.Storage
import Verif.Spec.Eds

/-!
# Lemmas about reading an EDS file
-/

set_option linter.unusedSimpArgs false

namespace Verif.OD
open Verif Verif.Txt Verif.Spec

theorem get_append_none {d : Dict} {k : Key} (h : d.get k = none) (e : List (Key × Entry)) : Dict.get (d ++ e) k = Dict.get e k := by
  unfold Dict.get at *
  rw [List.find?_append]
  cases hf : d.find? (fun p => p.1 = k) with
  | none => simp
  | some p => rw [hf] at h; cases h

theorem get_append_some {d : Dict} {k : Key} {x : Entry} (h : d.get k = some x) (e : List (Key × Entry)) : Dict.get (d ++ e) k = some x := by
  unfold Dict.get at *
  rw [List.find?_append]
  cases hf : d.find? (fun p => p.1 = k) with
  | none => rw [hf] at h; cases h
  | some p => rw [hf] at h; exact h

theorem get_insert (d : Dict) (k k' : Key) (e : Entry) :
    (d.insert k e).get k' = if (d.get k').isSome then d.get k' else if k' = k then some e else none := by
  unfold Dict.insert
  by_cases h : (d.get k).isSome
  · rw [if_pos h]
    by_cases h' : (d.get k').isSome
    · rw [if_pos h']
    · rw [if_neg h', if_neg (by intro hk; rw [hk] at h'; exact h' h)]
      simpa using h'
  · rw [if_neg h]
    cases hk' : d.get k' with
    | some x => rw [get_append_some hk']; simp
    | none =>
      rw [get_append_none hk']
      by_cases hk : k' = k
      · simp [hk, Dict.get]
      · have : k ≠ k' := fun h => hk h.symm
        simp [hk, this, Dict.get]

/-- nothing that is in the dictionary is lost or changed -/
def Grows (d d' : Dict) : Prop := ∀ k e, d.get k = some e → d'.get k = some e

theorem Grows.refl (d : Dict) : Grows d d := fun _ _ h => h
theorem Grows.trans {a b c : Dict} (h : Grows a b) (h' : Grows b c) : Grows a c := fun k e hk => h' k e (h k e hk)

theorem grows_insert (d : Dict) (k : Key) (e : Entry) : Grows d (d.insert k e) := by
  intro k' e' h
  rw [get_insert, h]; rfl

theorem insert_has (d : Dict) (k : Key) (e : Entry) : ∃ e', (d.insert k e).get k = some e' := by
  rw [get_insert]
  cases h : d.get k with
  | some x => exact ⟨x, rfl⟩
  | none => exact ⟨e, by simp⟩

/-- keys and entries agree on index and sub-index, and all keys differ -/
structure WellKeyed (d : Dict) : Prop where
  nodup : d.NodupKeys
  keys : ∀ p ∈ d, (p.1 = Key.ofIndex p.2.index ∧ p.2.subIndex = 0) ∨ p.1 = Key.ofSub p.2.index p.2.subIndex

theorem wellKeyed_nil : WellKeyed [] := ⟨by simp [Dict.NodupKeys], fun p h => by simp at h⟩

theorem get_none_notMem {d : Dict} {k : Key} (h : d.get k = none) : k ∉ d.map (·.1) := by
  intro hm
  obtain ⟨p, hp, rfl⟩ := List.mem_map.1 hm
  unfold Dict.get at h
  simp only [Option.map_eq_none_iff, List.find?_eq_none, decide_eq_true_eq] at h
  exact h p hp rfl

theorem wellKeyed_insert {d : Dict} (h : WellKeyed d) {k : Key} {e : Entry}
    (hk : (k = Key.ofIndex e.index ∧ e.subIndex = 0) ∨ k = Key.ofSub e.index e.subIndex) : WellKeyed (d.insert k e) := by
  unfold Dict.insert
  split
  · exact h
  · rename_i hn
    have hn : d.get k = none := by simpa using hn
    refine ⟨?_, ?_⟩
    · have := get_none_notMem hn
      unfold Dict.NodupKeys
      rw [List.map_append, List.nodup_append]
      refine ⟨h.nodup, by simp, ?_⟩
      intro a ha b hb
      simp only [List.map_cons, List.map_nil, List.mem_singleton] at hb
      intro he
      rw [← hb, ← he] at this
      exact this ha
    · intro p hp
      rw [List.mem_append] at hp
      rcases hp with hp | hp
      · exact h.keys p hp
      · simp only [List.mem_singleton] at hp
        rw [hp]; exact hk

theorem readVar_index {rp : RealParser} {e e' : Entry} {sec : List (Text × Text)} (h : readVar rp e sec = .ok e') :
    e'.index = e.index ∧ e'.subIndex = e.subIndex ∧ e'.objCode = e.objCode ∧ e'.desc = e.desc := by
  unfold readVar at h
  split at h
  · cases h
  · dsimp only at h
    split at h
    · cases h
    · split at h
      · split at h
        · cases h; exact ⟨rfl, rfl, rfl, rfl⟩
        · cases h
        · cases h
      · cases h
      · cases h

theorem newEntry_index {name : Text} {sec : List (Text × Text)} {e : Entry} (h : newEntry name sec = .ok e) :
    e.index = u16Of name ∧ e.subIndex = 0 ∧ e.objCode = u16Of ((lookup sec "ObjectType".toList).getD "7".toList) := by
  unfold newEntry at h
  dsimp only at h
  split at h
  · cases h
  · cases h; exact ⟨rfl, rfl, rfl⟩

theorem parseSub_ok {rp : RealParser} {ini : Ini} {d d' : Dict} {name : Text} {sub : BitVec 8} (h : parseSub rp ini d name sub = .ok d') :
    Grows d d' ∧ (WellKeyed d → WellKeyed d') ∧
    (∀ sec, ini.sect (name.drop 2) = some sec → ∃ e, d'.get (Key.ofSub (u16Of name) sub) = some e) := by
  unfold parseSub at h
  split at h
  · rename_i hs
    cases h
    exact ⟨.refl d, id, fun sec h => by rw [hs] at h; cases h⟩
  · split at h
    · rename_i e he
      split at h
      · rename_i e' he'
        cases h
        have h1 := readVar_index he'
        have h2 := newEntry_index he
        refine ⟨grows_insert _ _ _, fun hw => wellKeyed_insert hw (.inr rfl), fun _ _ => ?_⟩
        have : e'.index = u16Of name := by rw [h1.1]; exact h2.1
        rw [this, h1.2.1]
        exact insert_has _ _ _
      · cases h
      · cases h
    · cases h
    · cases h

theorem parseSubs_ok {rp : RealParser} {ini : Ini} {name : Text} : ∀ (n i : Nat) {d d' : Dict}, parseSubs rp ini name i n d = .ok d' →
    Grows d d' ∧ (WellKeyed d → WellKeyed d') ∧
    (∀ j sec, i ≤ j → j < i + n → ini.sect ((name ++ "sub".toList ++ ostreamHex true j).drop 2) = some sec →
      ∃ e, d'.get (Key.ofSub (u16Of (name ++ "sub".toList ++ ostreamHex true j)) (BitVec.ofNat 8 j)) = some e) := by
  intro n
  induction n with
  | zero => intro i d d' h; cases h; exact ⟨.refl d, id, fun j _ h1 h2 => by omega⟩
  | succ n ih =>
    intro i d d' h
    unfold parseSubs at h
    split at h
    · rename_i d1 h1
      have hp := parseSub_ok h1
      have hr := ih (i + 1) h
      refine ⟨hp.1.trans hr.1, fun hw => hr.2.1 (hp.2.1 hw), ?_⟩
      intro j sec hj1 hj2 hs
      by_cases hji : j = i
      · subst hji
        obtain ⟨e, he⟩ := hp.2.2 sec hs
        exact ⟨e, hr.1 _ _ he⟩
      · exact hr.2.2 j sec (by omega) (by omega) hs
    · rename_i hne
      exact absurd h (hne d')

/-- the entries made for compact sub-objects -/
def compactEntry (junk : Nat → Bool) (name : Text) (e : Entry) (iv : HoldAny) (i : Nat) : Entry :=
  { objCode := 7, index := e.index, subIndex := BitVec.ofNat 8 i, dataType := e.dataType, constant := junk i, readable := e.readable,
    writable := e.writable, desc := name, defVal := e.defVal, initVal := iv }

theorem compactSubs_ok {rp : RealParser} {ini : Ini} {junk : Nat → Bool} {name : Text} {e : Entry} : ∀ (n i : Nat) {d d' : Dict},
    compactSubs rp ini junk name e i n d = .ok d' → Grows d d' ∧ (WellKeyed d → WellKeyed d') := by
  intro n
  induction n with
  | zero => intro i d d' h; cases h; exact ⟨.refl d, id⟩
  | succ n ih =>
    intro i d d' h
    unfold compactSubs at h
    split at h
    · have := ih (i + 1) h
      exact ⟨(grows_insert _ _ _).trans this.1, fun hw => this.2 (wellKeyed_insert hw (.inr rfl))⟩
    · cases h
    · cases h

theorem parseBody_ok {rp : RealParser} {ini : Ini} {junk : Nat → Bool} {name : Text} {sec : List (Text × Text)} {d d' : Dict}
    (h : parseBody rp ini junk d name sec = .ok d') :
    Grows d d' ∧ (WellKeyed d → WellKeyed d') ∧
    ((u16Of ((lookup sec "ObjectType".toList).getD "7".toList) = 7 ∨ u16Of ((lookup sec "ObjectType".toList).getD "7".toList) = 2) →
      ∃ e, d'.get (Key.ofIndex (u16Of name)) = some e) ∧
    ((u16Of ((lookup sec "ObjectType".toList).getD "7".toList) = 8 ∨ u16Of ((lookup sec "ObjectType".toList).getD "7".toList) = 9) →
      u8Of ((lookup sec "CompactSubObj".toList).getD []) = 0 →
      ∃ sn, lookup sec "SubNumber".toList = some sn ∧ ∀ j ssec, j < (u8Of sn).toNat →
        ini.sect ((name ++ "sub".toList ++ ostreamHex true j).drop 2) = some ssec →
        ∃ e, d'.get (Key.ofSub (u16Of (name ++ "sub".toList ++ ostreamHex true j)) (BitVec.ofNat 8 j)) = some e) := by
  unfold parseBody at h
  split at h
  · rename_i e he
    have h2 := newEntry_index he
    split at h
    · rename_i hcode
      split at h
      · rename_i e' he'
        cases h
        have h1 := readVar_index he'
        have hi : e'.index = u16Of name := by rw [h1.1]; exact h2.1
        refine ⟨grows_insert _ _ _, fun hw => wellKeyed_insert hw (.inl ⟨rfl, ?_⟩), fun _ => ?_, fun h89 => ?_⟩
        · rw [h1.2.1]; exact h2.2.1
        · rw [hi]; exact insert_has _ _ _
        · rw [h2.2.2] at hcode
          exfalso
          rcases h89 with h | h <;> rcases hcode with h' | h' <;> rw [h] at h' <;> exact absurd h' (by decide)
      · cases h
      · cases h
    · rename_i hn7
      split at h
      · dsimp only at h
        split at h
        · rename_i hsubs
          split at h
          · rename_i e' he'
            have := compactSubs_ok _ _ h
            refine ⟨(grows_insert _ _ _).trans this.1, fun hw => this.2 (wellKeyed_insert hw (.inr rfl)), ?_, ?_⟩
            · intro h7
              rw [← h2.2.2] at h7
              exact absurd h7 hn7
            · intro _ h0
              exact absurd h0 hsubs
          · cases h
          · cases h
        · split at h
          · cases h
          · rename_i sn hsn
            have := parseSubs_ok _ _ h
            refine ⟨this.1, this.2.1, ?_, ?_⟩
            · intro h7
              rw [← h2.2.2] at h7
              exact absurd h7 hn7
            · intro _ _
              exact ⟨sn, hsn, fun j ssec hj hs => this.2.2 j ssec (Nat.zero_le j) (by simpa using hj) hs⟩
      · cases h
  · cases h
  · cases h

/-- what is guaranteed about an object whose section is found -/
def Covered (ini : Ini) (d : Dict) (name : Text) : Prop :=
  ∀ sec, ini.sect (name.drop 2) = some sec →
    ((u16Of ((lookup sec "ObjectType".toList).getD "7".toList) = 7 ∨ u16Of ((lookup sec "ObjectType".toList).getD "7".toList) = 2) →
      ∃ e, d.get (Key.ofIndex (u16Of name)) = some e) ∧
    ((u16Of ((lookup sec "ObjectType".toList).getD "7".toList) = 8 ∨ u16Of ((lookup sec "ObjectType".toList).getD "7".toList) = 9) →
      u8Of ((lookup sec "CompactSubObj".toList).getD []) = 0 →
      ∃ sn, lookup sec "SubNumber".toList = some sn ∧ ∀ j ssec, j < (u8Of sn).toNat →
        ini.sect ((name ++ "sub".toList ++ ostreamHex true j).drop 2) = some ssec →
        ∃ e, d.get (Key.ofSub (u16Of (name ++ "sub".toList ++ ostreamHex true j)) (BitVec.ofNat 8 j)) = some e)

theorem Covered.mono {ini : Ini} {d d' : Dict} {name : Text} (h : Covered ini d name) (hg : Grows d d') : Covered ini d' name := by
  intro sec hs
  obtain ⟨h1, h2⟩ := h sec hs
  refine ⟨fun h7 => ?_, fun h8 h0 => ?_⟩
  · obtain ⟨e, he⟩ := h1 h7
    exact ⟨e, hg _ _ he⟩
  · obtain ⟨sn, hsn, hh⟩ := h2 h8 h0
    refine ⟨sn, hsn, fun j ss hj hss => ?_⟩
    obtain ⟨e, he⟩ := hh j ss hj hss
    exact ⟨e, hg _ _ he⟩

theorem parseObject_ok {rp : RealParser} {ini : Ini} {junk : BitVec 16 → Nat → Bool} {name : Text} {d d' : Dict}
    (h : parseObject rp ini junk d name = .ok d') : Grows d d' ∧ (WellKeyed d → WellKeyed d') ∧ Covered ini d' name := by
  unfold parseObject at h
  split at h
  · cases h
  · split at h
    · rename_i hs
      cases h
      exact ⟨.refl d, id, fun sec h => by rw [hs] at h; cases h⟩
    · rename_i sec hs
      cases hb : parseBody rp ini (junk (u16Of name)) d name sec with
      | ok d1 =>
        rw [hb] at h
        cases h
        have := parseBody_ok hb
        refine ⟨this.1, this.2.1, ?_⟩
        intro sec' hs'
        rw [hs] at hs'
        cases hs'
        exact this.2.2
      | throws x => rw [hb] at h; cases h
      | ub => rw [hb] at h; cases h

theorem parseListed_ok {rp : RealParser} {ini : Ini} {junk : BitVec 16 → Nat → Bool} {list : List (Text × Text)} : ∀ (n i : Nat) {d d' : Dict},
    parseListed rp ini junk list i n d = .ok d' → Grows d d' ∧ (WellKeyed d → WellKeyed d') ∧
    ∀ j, i ≤ j → j < i + n → ∃ name, lookup list (decText (j + 1)) = some name ∧ Covered ini d' name := by
  intro n
  induction n with
  | zero => intro i d d' h; cases h; exact ⟨.refl d, id, fun j h1 h2 => by omega⟩
  | succ n ih =>
    intro i d d' h
    unfold parseListed at h
    split at h
    · cases h
    · rename_i name hname
      split at h
      · rename_i d1 h1
        have hp := parseObject_ok h1
        have hr := ih (i + 1) h
        refine ⟨hp.1.trans hr.1, fun hw => hr.2.1 (hp.2.1 hw), ?_⟩
        intro j hj1 hj2
        by_cases hji : j = i
        · subst hji
          exact ⟨name, hname, hp.2.2.mono hr.1⟩
        · exact hr.2.2 j (by omega) (by omega)
      · rename_i hne
        exact absurd h (hne d')

theorem parseObjects_ok {rp : RealParser} {ini : Ini} {junk : BitVec 16 → Nat → Bool} {key : Text} {d d' : Dict}
    (h : parseObjects rp ini junk key d = .ok d') : Grows d d' ∧ (WellKeyed d → WellKeyed d') ∧
    ∀ list, ini.sect key = some list → ∀ j, j < (u16Of ((lookup list "SupportedObjects".toList).getD [])).toNat →
      ∃ name, lookup list (decText (j + 1)) = some name ∧ Covered ini d' name := by
  unfold parseObjects at h
  split at h
  · rename_i hs
    cases h
    exact ⟨.refl d, id, fun l hl => by rw [hs] at hl; cases hl⟩
  · rename_i list hl
    have := parseListed_ok _ _ h
    refine ⟨this.1, this.2.1, ?_⟩
    intro l hl' j hj
    rw [hl] at hl'
    cases hl'
    exact this.2.2 j (Nat.zero_le j) (by simpa using hj)

theorem fromFile_ok {rp : RealParser} {junk : BitVec 16 → Nat → Bool} {ini : Ini} {overlay : List (Text × Text)} {d : Dict}
    (h : fromFile rp junk ini overlay = .ok d) :
    ∃ ini', applyOverlay ini overlay = some ini' ∧ WellKeyed d ∧
      ∀ key ∈ ["MandatoryObjects".toList, "OptionalObjects".toList, "ManufacturerObjects".toList], ∀ list, ini'.sect key = some list →
        ∀ j, j < (u16Of ((lookup list "SupportedObjects".toList).getD [])).toNat →
          ∃ name, lookup list (decText (j + 1)) = some name ∧ Covered ini' d name := by
  unfold fromFile at h
  split at h
  · cases h
  · split at h
    · cases h
    · rename_i ini' hov
      refine ⟨ini', hov, ?_⟩
      split at h
      · rename_i d1 h1
        split at h
        · rename_i d2 h2
          have p1 := parseObjects_ok h1
          have p2 := parseObjects_ok h2
          have p3 := parseObjects_ok h
          refine ⟨p3.2.1 (p2.2.1 (p1.2.1 wellKeyed_nil)), ?_⟩
          intro key hk list hl j hj
          simp only [List.mem_cons, List.not_mem_nil, or_false] at hk
          rcases hk with rfl | rfl | rfl
          · obtain ⟨name, hn, hc⟩ := p1.2.2 list hl j hj
            exact ⟨name, hn, hc.mono (p2.1.trans p3.1)⟩
          · obtain ⟨name, hn, hc⟩ := p2.2.2 list hl j hj
            exact ⟨name, hn, hc.mono p3.1⟩
          · exact p3.2.2 list hl j hj
        · rename_i hne
          exact absurd h (hne d)
      · rename_i hne
        exact absurd h (hne d)

/-- where an entry of the dictionary comes from -/
inductive Origin (rp : RealParser) (ini : Ini) (k : Key) (e : Entry) : Prop where
  | var (name : Text) (sec : List (Text × Text)) (e0 : Entry) : ini.sect (name.drop 2) = some sec → newEntry name sec = .ok e0 →
      (e0.objCode = 7 ∨ e0.objCode = 2) → readVar rp e0 sec = .ok e → k = Key.ofIndex e.index → Origin rp ini k e
  | sub (name : Text) (i : Nat) (sec : List (Text × Text)) (e0 : Entry) : ini.sect ((name ++ "sub".toList ++ ostreamHex true i).drop 2) = some sec →
      newEntry (name ++ "sub".toList ++ ostreamHex true i) sec = .ok e0 → readVar rp { e0 with subIndex := BitVec.ofNat 8 i } sec = .ok e →
      k = Key.ofSub e.index (BitVec.ofNat 8 i) → Origin rp ini k e
  | compact (name : Text) (sec : List (Text × Text)) : ini.sect (name.drop 2) = some sec → u8Of ((lookup sec "CompactSubObj".toList).getD []) ≠ 0 →
      e.index = u16Of name → k = Key.ofSub e.index e.subIndex → Origin rp ini k e

/-- every entry has an origin -/
def AllFrom (rp : RealParser) (ini : Ini) (d : Dict) : Prop := ∀ p ∈ d, Origin rp ini p.1 p.2

theorem allFrom_insert {rp : RealParser} {ini : Ini} {d : Dict} (h : AllFrom rp ini d) {k : Key} {e : Entry} (ho : Origin rp ini k e) :
    AllFrom rp ini (d.insert k e) := by
  unfold Dict.insert
  split
  · exact h
  · intro p hp
    rw [List.mem_append] at hp
    rcases hp with hp | hp
    · exact h p hp
    · simp only [List.mem_singleton] at hp
      rw [hp]; exact ho

theorem parseSubs_from {rp : RealParser} {ini : Ini} {name : Text} : ∀ (n i : Nat) {d d' : Dict}, parseSubs rp ini name i n d = .ok d' →
    AllFrom rp ini d → AllFrom rp ini d' := by
  intro n
  induction n with
  | zero => intro i d d' h hd; cases h; exact hd
  | succ n ih =>
    intro i d d' h hd
    unfold parseSubs at h
    split at h
    · rename_i d1 h1
      refine ih (i + 1) h ?_
      unfold parseSub at h1
      split at h1
      · cases h1; exact hd
      · rename_i sec hs
        split at h1
        · rename_i e he
          split at h1
          · rename_i e' he'
            cases h1
            refine allFrom_insert hd (.sub name i sec e hs he he' ?_)
            rw [(readVar_index he').2.1]
          · cases h1
          · cases h1
        · cases h1
        · cases h1
    · rename_i hne
      exact absurd h (hne d')

theorem compactSubs_from {rp : RealParser} {ini : Ini} {junk : Nat → Bool} {name : Text} {e : Entry} {sec : List (Text × Text)}
    (hs : ini.sect (name.drop 2) = some sec) (h0 : u8Of ((lookup sec "CompactSubObj".toList).getD []) ≠ 0) (hi : e.index = u16Of name) :
    ∀ (n i : Nat) {d d' : Dict}, compactSubs rp ini junk name e i n d = .ok d' → AllFrom rp ini d → AllFrom rp ini d' := by
  intro n
  induction n with
  | zero => intro i d d' h hd; cases h; exact hd
  | succ n ih =>
    intro i d d' h hd
    unfold compactSubs at h
    split at h
    · exact ih (i + 1) h (allFrom_insert hd (.compact name sec hs h0 hi rfl))
    · cases h
    · cases h

theorem parseObject_from {rp : RealParser} {ini : Ini} {junk : BitVec 16 → Nat → Bool} {name : Text} {d d' : Dict}
    (h : parseObject rp ini junk d name = .ok d') (hd : AllFrom rp ini d) : AllFrom rp ini d' := by
  unfold parseObject at h
  split at h
  · cases h
  · split at h
    · cases h; exact hd
    · rename_i sec hs
      cases hb : parseBody rp ini (junk (u16Of name)) d name sec with
      | throws x => rw [hb] at h; cases h
      | ub => rw [hb] at h; cases h
      | ok d1 =>
        rw [hb] at h
        cases h
        unfold parseBody at hb
        split at hb
        · rename_i e he
          split at hb
          · rename_i hcode
            split at hb
            · rename_i e' he'
              cases hb
              exact allFrom_insert hd (.var name sec e hs he hcode he' rfl)
            · cases hb
            · cases hb
          · split at hb
            · dsimp only at hb
              split at hb
              · rename_i hsubs
                split at hb
                · rename_i e' he'
                  have h1 := newEntry_index he
                  refine compactSubs_from hs hsubs ?_ _ _ hb (allFrom_insert hd (.compact name sec hs hsubs ?_ rfl))
                  · rw [(readVar_index he').1]; exact h1.1
                  · exact h1.1
                · cases hb
                · cases hb
              · split at hb
                · cases hb
                · exact parseSubs_from _ _ hb hd
            · cases hb
        · cases hb
        · cases hb

theorem parseObjects_from {rp : RealParser} {ini : Ini} {junk : BitVec 16 → Nat → Bool} {key : Text} {d d' : Dict}
    (h : parseObjects rp ini junk key d = .ok d') (hd : AllFrom rp ini d) : AllFrom rp ini d' := by
  have hl : ∀ (list : List (Text × Text)) (n i : Nat) {d d' : Dict}, parseListed rp ini junk list i n d = .ok d' → AllFrom rp ini d → AllFrom rp ini d' := by
    intro list n
    induction n with
    | zero => intro i d d' h hd; cases h; exact hd
    | succ n ih =>
      intro i d d' h hd
      unfold parseListed at h
      split at h
      · cases h
      · split at h
        · rename_i d1 h1
          exact ih (i + 1) h (parseObject_from h1 hd)
        · rename_i hne
          exact absurd h (hne d')
  unfold parseObjects at h
  split at h
  · cases h; exact hd
  · exact hl _ _ _ h hd

theorem fromFile_from {rp : RealParser} {junk : BitVec 16 → Nat → Bool} {ini ini' : Ini} {overlay : List (Text × Text)} {d : Dict}
    (h : fromFile rp junk ini overlay = .ok d) (ho : applyOverlay ini overlay = some ini') : AllFrom rp ini' d := by
  unfold fromFile at h
  split at h
  · cases h
  · rw [ho] at h
    dsimp only at h
    split at h
    · rename_i d1 h1
      split at h
      · rename_i d2 h2
        exact parseObjects_from h (parseObjects_from h2 (parseObjects_from h1 (by intro p hp; simp at hp)))
      · rename_i hne
        exact absurd h (hne d)
    · rename_i hne
      exact absurd h (hne d)

theorem readValue_of {rp : RealParser} {dt : BitVec 16} {v : Option Text} {h : HoldAny} (hr : readValue rp dt v = .ok h) : ValueOf dt v h := by
  have hint : ∀ t, readValue rp dt v = .ok (parseInt t v) →
      (v = none → h = .empty (.int t)) ∧
      (∀ a s b n, v = some (a ++ s ++ b) → Blank a → Blank b → IntLit s n → FitsTy t n → ∃ x, h = .val (.int t x) ∧ intValue t x = n) := by
    intro t ht
    rw [hr] at ht
    injection ht with ht
    subst ht
    refine ⟨fun h => by rw [h]; rfl, fun a s b n hv ha hb hl hf => ⟨BitVec.ofInt t.width n, ?_, intValue_ofInt t n hf⟩⟩
    rw [hv, parseInt_plain t a s b n ha hb hl hf]
  have hre32 : readValue rp dt v = parseReal32 rp v → h.type = some .real32 ∧ (v = none → h.isEmpty = true) := by
    intro ht
    rw [hr] at ht
    unfold parseReal32 at ht
    cases v with
    | none => injection ht with ht; subst ht; exact ⟨rfl, fun _ => rfl⟩
    | some raw =>
      dsimp only at ht
      split at ht
      · injection ht with ht; subst ht; exact ⟨rfl, fun h => by cases h⟩
      · cases ht
  have hre64 : readValue rp dt v = parseReal64 rp v → h.type = some .real64 ∧ (v = none → h.isEmpty = true) := by
    intro ht
    rw [hr] at ht
    unfold parseReal64 at ht
    cases v with
    | none => injection ht with ht; subst ht; exact ⟨rfl, fun _ => rfl⟩
    | some raw =>
      dsimp only at ht
      split at ht
      · injection ht with ht; subst ht; exact ⟨rfl, fun h => by cases h⟩
      · cases ht
  have hstr : readValue rp dt v = .ok (parseString v) → h.type = some .string ∧ (v = none → h.isEmpty = true) := by
    intro ht
    rw [hr] at ht
    injection ht with ht
    subst ht
    cases v with
    | none => exact ⟨rfl, fun _ => rfl⟩
    | some raw => exact ⟨rfl, fun h => by cases h⟩
  have hoct : readValue rp dt v = .ok (parseOctets v) → h.type = some .string ∧ (v = none → h.isEmpty = true) := by
    intro ht
    rw [hr] at ht
    injection ht with ht
    subst ht
    cases v with
    | none => exact ⟨rfl, fun _ => rfl⟩
    | some raw =>
      refine ⟨?_, fun h => by cases h⟩
      unfold parseOctets
      dsimp only
      split <;> rfl
  refine ⟨?_, ?_, ?_⟩
  · intro p hp he
    simp only [intTypes, List.mem_cons, List.not_mem_nil, or_false] at hp
    rcases hp with rfl | rfl | rfl | rfl | rfl | rfl | rfl | rfl <;> (subst he; exact hint _ rfl)
  · intro p hp he
    simp only [otherTypes, List.mem_cons, List.not_mem_nil, or_false] at hp
    rcases hp with rfl | rfl | rfl | rfl | rfl | rfl <;> subst he
    · exact hre32 rfl
    · exact hre64 rfl
    · exact hstr rfl
    · exact hoct rfl
    · exact hstr rfl
    · exact hoct rfl
  · have hd : ∀ n : Nat, dt.toNat = n → dt = BitVec.ofNat 16 n := by
      intro n hn; rw [← hn]; simp
    unfold readValue at hr
    simp only [intTypes, otherTypes, List.mem_cons, List.not_mem_nil, or_false, exists_eq_or_imp, exists_eq_left]
    split at hr
    all_goals first
      | (rename_i hn; rw [hd _ hn]; simp; done)
      | cases hr

theorem readVar_of {rp : RealParser} {name : Text} {e0 e : Entry} {sec : List (Text × Text)} (sub : BitVec 8)
    (h0 : newEntry name sec = .ok e0) (h : readVar rp { e0 with subIndex := sub } sec = .ok e) : Describes (lookup sec) e := by
  have hdesc := (readVar_index h).2.2.2
  unfold newEntry at h0
  dsimp only at h0
  split at h0
  · cases h0
  · rename_i pn hpn
    cases h0
    unfold readVar at h
    split at h
    · cases h
    · rename_i dts hdts
      dsimp only at h
      split at h
      · cases h
      · rename_i r hr
        split at h
        · rename_i dv hdv
          split at h
          · rename_i iv hiv
            cases h
            refine ⟨?_, ⟨dts, hdts, ?_⟩, ?_, readValue_of hdv, readValue_of hiv⟩
            · dsimp only
              cases hd : lookup sec "Denotation".toList with
              | none => exact .inr ⟨rfl, by rw [hpn]; rfl⟩
              | some x => exact .inl rfl
            · intro v hl hf
              have := intFromString_lit .u16 dts [] v hl hf stops_nil
              rw [List.append_nil] at this
              exact this
            · cases ha : lookup sec "AccessType".toList with
              | none => rw [ha] at hr; cases hr
              | some a =>
                rw [ha] at hr
                simp only [Option.bind_some] at hr
                refine ⟨a, rfl, ?_⟩
                unfold setAccess lower at hr
                dsimp only at hr ⊢
                simp only [accessTable, List.mem_cons, List.not_mem_nil, or_false, exists_eq_or_imp, exists_eq_left]
                repeat' split at hr
                all_goals first
                  | (rename_i h1; cases hr; simp [h1])
                  | cases hr
          · cases h
          · cases h
        · cases h
        · cases h

end Verif.OD
