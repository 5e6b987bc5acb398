import Verif.Lemmas.Objects

/-!
# Lemmas: which delegates the operations on an object call
-/

set_option linter.unusedSimpArgs false

namespace Verif.OD
open Verif Verif.Spec

variable {W : Type} (bus : Bus W)

/-- `c'` is reached from `c` by calls of the delegates `rd` and `wr` for the object `e` -/
inductive Calls (e : Entry) (rd wr : Dlg) : Ctx W → Ctx W → Prop
  | refl (c) : Calls e rd wr c c
  | read {c c1 : Ctx W} (b : List Byte) : Calls e rd wr c c1 →
      Calls e rd wr c { w := (bus.read rd e b c1.w).1, log := c1.log ++ [.read rd e.index e.subIndex] }
  | write {c c1 : Ctx W} (b : List Byte) : Calls e rd wr c c1 →
      Calls e rd wr c { w := (bus.write wr e b c1.w).1, log := c1.log ++ [.write wr e.index e.subIndex b] }

/-- what stays the same in an object -/
structure Same (d d' : Data) : Prop where
  rd : d'.rd = d.rd
  wr : d'.wr = d.wr
  entry : d'.entry = d.entry
  ty : d'.ty = d.ty

theorem Same.refl (d : Data) : Same d d := ⟨rfl, rfl, rfl, rfl⟩
theorem Same.trans {a b c : Data} (h : Same a b) (h' : Same b c) : Same a c :=
  ⟨h'.rd.trans h.rd, h'.wr.trans h.wr, h'.entry.trans h.entry, h'.ty.trans h.ty⟩

theorem allocate_same (d : Data) : Same d d.allocate := by
  unfold Data.allocate
  split
  · exact ⟨rfl, rfl, rfl, rfl⟩
  · split <;> exact ⟨rfl, rfl, rfl, rfl⟩

theorem store_same {d d' : Data} {v : List Byte} (h : d.store v = some d') : Same d d' ∧ ∃ rest, d'.buffer = v ++ rest := by
  unfold Data.store at h
  dsimp only at h
  have ha := allocate_same d
  split at h
  · cases h
    exact ⟨⟨ha.rd, ha.wr, ha.entry, ha.ty⟩, [], by simp⟩
  · split at h
    · cases h
    · cases h
      exact ⟨⟨ha.rd, ha.wr, ha.entry, ha.ty⟩, _, rfl⟩

theorem storeWrite_calls (d : Data) (c : Ctx W) (v : List Byte) :
    Same d (d.storeWrite bus c v).1 ∧
    ((d.storeWrite bus c v).2.1 = c ∧ (d.storeWrite bus c v).2.2 = .ub ∨
      ∃ rest, (d.storeWrite bus c v).2.1 =
        { w := (bus.write d.wr d.entry (v ++ rest) c.w).1, log := c.log ++ [.write d.wr d.entry.index d.entry.subIndex (v ++ rest)] }) := by
  unfold Data.storeWrite
  cases hs : d.store v with
  | none => exact ⟨.refl d, .inl ⟨rfl, rfl⟩⟩
  | some d' =>
    obtain ⟨hsame, rest, hb⟩ := store_same hs
    dsimp only
    have hc : (d'.callWrite bus c).1 =
        { w := (bus.write d.wr d.entry (v ++ rest) c.w).1, log := c.log ++ [.write d.wr d.entry.index d.entry.subIndex (v ++ rest)] } := by
      unfold Data.callWrite
      dsimp only
      rw [hsame.wr, hsame.entry, hb]
    split
    · exact ⟨hsame, .inr ⟨rest, hc⟩⟩
    · exact ⟨hsame, .inr ⟨rest, hc⟩⟩

theorem set_calls (d : Data) (c : Ctx W) (v : List Byte) :
    Same d (d.set bus v c).1 ∧
    ((d.set bus v c).2.1 = c ∧ (d.entry.writable = true → (d.set bus v c).2.2 = .ub) ∨
      ∃ rest, (d.set bus v c).2.1 =
        { w := (bus.write d.wr d.entry (v ++ rest) c.w).1, log := c.log ++ [.write d.wr d.entry.index d.entry.subIndex (v ++ rest)] }) := by
  unfold Data.set
  split
  · rename_i hw
    have hno : d.entry.writable = true → False := by intro h; simp [h] at hw
    split
    · split <;> exact ⟨.refl d, .inl ⟨rfl, fun h => (hno h).elim⟩⟩
    · exact ⟨.refl d, .inl ⟨rfl, fun h => (hno h).elim⟩⟩
    · exact ⟨.refl d, .inl ⟨rfl, fun h => (hno h).elim⟩⟩
  · obtain ⟨h1, h2⟩ := storeWrite_calls bus d c v
    exact ⟨h1, h2.imp (fun h => ⟨h.1, fun _ => h.2⟩) id⟩

theorem set_calls' (d : Data) (c : Ctx W) (v : List Byte) : Calls bus d.entry d.rd d.wr c (d.set bus v c).2.1 := by
  rcases (set_calls bus d c v).2 with ⟨h, _⟩ | ⟨rest, h⟩
  · rw [h]; exact .refl c
  · rw [h]; exact .write _ (.refl c)

theorem setCached_calls (d : Data) (c : Ctx W) (v : List Byte) :
    Same d (d.setCached bus v c).1 ∧ Calls bus d.entry d.rd d.wr c (d.setCached bus v c).2.1 := by
  unfold Data.setCached
  split
  · exact ⟨.refl d, .refl c⟩
  · exact ⟨.refl d, .refl c⟩
  · split
    · exact ⟨.refl d, .refl c⟩
    · obtain ⟨h1, h2⟩ := storeWrite_calls bus d c v
      refine ⟨h1, ?_⟩
      rcases h2 with ⟨h, _⟩ | ⟨rest, h⟩
      · rw [h]; exact .refl c
      · rw [h]; exact .write _ (.refl c)

/-- reading calls only the read delegate -/
theorem get_calls (d : Data) (c : Ctx W) (cached : Bool) (wr : Dlg) :
    Same d (d.get bus cached c).1 ∧ Calls bus d.entry d.rd wr c (d.get bus cached c).2.1 := by
  unfold Data.get
  split
  · exact ⟨.refl d, .refl c⟩
  · split
    · dsimp only
      have ha := allocate_same d
      have hsame : Same d (d.allocate.callRead bus c).1 := ⟨ha.rd, ha.wr, ha.entry, ha.ty⟩
      have hc : Calls bus d.entry d.rd wr c (d.allocate.callRead bus c).2.1 := by
        unfold Data.callRead
        dsimp only
        rw [ha.rd, ha.entry]
        exact .read _ (.refl c)
      split
      · exact ⟨hsame, hc⟩
      · exact ⟨hsame, hc⟩
    · exact ⟨.refl d, .refl c⟩

theorem init_calls (mem : Mem) (d : Data) (c : Ctx W) :
    Same d (d.init bus mem c).1 ∧ Calls bus d.entry d.rd d.wr c (d.init bus mem c).2.1 := by
  unfold Data.init
  split
  · split
    · exact ⟨.refl d, .refl c⟩
    · split
      · dsimp only
        split
        · rename_i p _ _ _ _
          have hc : Calls bus d.entry d.rd d.wr c (Data.callWrite bus { d with buffer := p.bytes mem, valid := true } c).1 := by
            unfold Data.callWrite
            exact .write _ (.refl c)
          split
          · exact ⟨⟨rfl, rfl, rfl, rfl⟩, hc⟩
          · exact ⟨⟨rfl, rfl, rfl, rfl⟩, hc⟩
        · exact ⟨⟨rfl, rfl, rfl, rfl⟩, .refl c⟩
      · exact ⟨.refl d, .refl c⟩
  · exact ⟨.refl d, .refl c⟩

theorem forceWrite_calls (d : Data) (c : Ctx W) :
    Same d (d.forceWrite bus c).1 ∧ Calls bus d.entry d.rd d.wr c (d.forceWrite bus c).2.1 := by
  unfold Data.forceWrite
  have hr : Calls bus d.entry d.rd d.wr c (d.callRead bus c).2.1 := by
    unfold Data.callRead; exact .read _ (.refl c)
  have hrs : Same d (d.callRead bus c).1 := ⟨rfl, rfl, rfl, rfl⟩
  have hw : ∀ (d' : Data) (c' : Ctx W), Same d d' → Calls bus d.entry d.rd d.wr c c' →
      Calls bus d.entry d.rd d.wr c (d'.callWrite bus c').1 := by
    intro d' c' h h'
    unfold Data.callWrite
    dsimp only
    rw [h.wr, h.entry]
    exact .write _ h'
  by_cases h : (!d.valid && d.entry.readable) = true
  · simp only [h, if_true]
    cases hq : (d.callRead bus c).2.2 with
    | some e => exact ⟨hrs, hr⟩
    | none =>
      dsimp only
      have hs2 : Same d { (d.callRead bus c).1 with valid := true } := ⟨rfl, rfl, rfl, rfl⟩
      split
      · split
        · exact ⟨hs2, hw _ _ hs2 hr⟩
        · exact ⟨hs2, hw _ _ hs2 hr⟩
      · exact ⟨hs2, hr⟩
  · simp only [h, Bool.false_eq_true, if_false]
    split
    · split
      · exact ⟨.refl d, hw _ _ (.refl d) (.refl c)⟩
      · exact ⟨.refl d, hw _ _ (.refl d) (.refl c)⟩
    · exact ⟨.refl d, .refl c⟩

theorem reset_same (mem : Mem) (d : Data) : Same d (d.reset mem) := by
  unfold Data.reset
  split
  · split <;> exact ⟨rfl, rfl, rfl, rfl⟩
  · exact ⟨rfl, rfl, rfl, rfl⟩

/-- `init_nolock`: nothing happens, or the object (old or new) is initialised -/
theorem initNolock_calls (mem : Mem) (s : Storage) (c : Ctx W) (k : Key) (e : Entry) :
    ((s.initNolock bus mem k e c).1 = s ∧ (s.initNolock bus mem k e c).2.1 = c) ∨
    ∃ d d', (s.data k = some d ∨ (s.data k = none ∧ d.entry = e ∧ d.rd = .dev ∧ d.wr = .dev)) ∧ Same d d' ∧
      (s.initNolock bus mem k e c).1 = s.put k d' ∧ Calls bus d.entry d.rd d.wr c (s.initNolock bus mem k e c).2.1 := by
  unfold Storage.initNolock
  split
  · rename_i p _
    right
    obtain ⟨h1, h2⟩ := init_calls bus mem ((s.data k).getD (Data.new e p.ty)) c
    refine ⟨_, _, ?_, h1, rfl, h2⟩
    cases hd : s.data k with
    | some d => exact .inl rfl
    | none => exact .inr ⟨rfl, rfl, rfl, rfl⟩
  · exact .inl ⟨rfl, rfl⟩

/-- mapping an object: nothing, or its delegates become those of the PDO and only its own delegates are called meanwhile, with the
PDO as the target of writes -/
theorem mapKey_calls (mem : Mem) (s : Storage) (c : Ctx W) (k : Key) (e : Entry) (r : Option Nat) (w : Nat) :
    ((s.mapKey bus mem k e r (some w) c).1 = s ∧ (s.mapKey bus mem k e r (some w) c).2.1 = c) ∨
    ∃ d d' : Data, (s.data k = some d ∨ (s.data k = none ∧ d.entry = e)) ∧ d'.entry = d.entry ∧ d'.ty = d.ty ∧
      (d'.rd = .dev ∨ ∃ n, r = some n ∧ d'.rd = .pdo n) ∧ (d'.wr = .dev ∨ d'.wr = .pdo w) ∧ ¬ (d'.rd = .dev ∧ d'.wr = .dev) ∧
      (s.mapKey bus mem k e r (some w) c).1 = s.put k d' ∧ Calls bus d.entry .dev (.pdo w) c (s.mapKey bus mem k e r (some w) c).2.1 := by
  unfold Storage.mapKey
  have hany : ∀ (od : Outcome Err Data) (d : Data), od = (match s.data k with
      | some d => .ok d
      | none => match e.defVal.type with
        | none => .throws .badCast
        | some ty => .ok ((Data.new e ty).reset mem)) → od = .ok d → (s.data k = some d ∨ (s.data k = none ∧ d.entry = e)) := by
    intro od d h h'
    cases hk : s.data k with
    | some d0 =>
      rw [hk] at h
      rw [h] at h'
      injection h' with h'
      exact .inl (by rw [h'])
    | none =>
      rw [hk] at h
      dsimp only at h
      cases ht : e.defVal.type with
      | none => rw [ht] at h; rw [h] at h'; cases h'
      | some ty =>
        rw [ht] at h
        rw [h] at h'
        injection h' with h'
        exact .inr ⟨rfl, by rw [← h']; exact (reset_same mem (Data.new e ty)).entry⟩
  dsimp only
  split
  · exact .inl ⟨rfl, rfl⟩
  · exact .inl ⟨rfl, rfl⟩
  · rename_i d hd
    have hd := hany _ d rfl hd
    right
    obtain ⟨f1, f2⟩ := forceWrite_calls bus (d.setDelegates .dev (.pdo w)) c
    cases r with
    | some r =>
      dsimp only
      cases hq : ((d.setDelegates .dev (.pdo w)).forceWrite bus c).2.2 with
      | ok _ => exact ⟨d, (((d.setDelegates .dev (.pdo w)).forceWrite bus c).1.setDelegates (.pdo r) .dev), hd, f1.entry, f1.ty, .inr ⟨r, rfl, rfl⟩, .inl rfl, (fun h => by cases h.1), rfl, f2⟩
      | throws _ => exact ⟨d, _, hd, f1.entry, f1.ty, .inl f1.rd, .inr f1.wr, (fun h => by rw [f1.wr] at h; cases h.2), rfl, f2⟩
      | ub => exact ⟨d, _, hd, f1.entry, f1.ty, .inl f1.rd, .inr f1.wr, (fun h => by rw [f1.wr] at h; cases h.2), rfl, f2⟩
    | none =>
      dsimp only
      cases hq : ((d.setDelegates .dev (.pdo w)).forceWrite bus c).2.2 with
      | ok _ => exact ⟨d, _, hd, f1.entry, f1.ty, .inl f1.rd, .inr f1.wr, (fun h => by rw [f1.wr] at h; cases h.2), rfl, f2⟩
      | throws _ => exact ⟨d, _, hd, f1.entry, f1.ty, .inl f1.rd, .inr f1.wr, (fun h => by rw [f1.wr] at h; cases h.2), rfl, f2⟩
      | ub => exact ⟨d, _, hd, f1.entry, f1.ty, .inl f1.rd, .inr f1.wr, (fun h => by rw [f1.wr] at h; cases h.2), rfl, f2⟩

/-- opening a handle: nothing, or a new object behind the device -/
theorem entry_new (mem : Mem) (s : Storage) (k : Key) (ty : Ty) :
    (s.entry mem k ty).1 = s ∨ ∃ d e, s.data k = none ∧ s.dict.get k = some e ∧ d.entry = e ∧ d.rd = .dev ∧ d.wr = .dev ∧ (s.entry mem k ty).1 = s.put k d := by
  unfold Storage.entry
  split
  · split <;> exact .inl rfl
  · rename_i hn
    split
    · exact .inl rfl
    · rename_i e he
      split
      · rename_i d hd
        right
        have : d.entry = e ∧ d.rd = .dev ∧ d.wr = .dev := by
          unfold Storage.make at hd
          split at hd
          · split at hd
            · cases hd; exact ⟨rfl, rfl, rfl⟩
            · cases hd
            · cases hd
          · split at hd
            · cases hd; exact ⟨rfl, rfl, rfl⟩
            · cases hd
        exact ⟨d, e, hn, he, this.1, this.2.1, this.2.2, rfl⟩
      · exact .inl rfl
      · exact .inl rfl

theorem put_dict (s : Storage) (k : Key) (d : Data) : (s.put k d).dict = s.dict := rfl
theorem put_node (s : Storage) (k : Key) (d : Data) : (s.put k d).nodeId = s.nodeId := rfl

end Verif.OD
