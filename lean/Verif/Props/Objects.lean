import Verif.Lemmas.Objects
import Verif.Props.Storage

/-!
# C74 - C76: types of handles, reset, mapping into PDOs
-/

set_option linter.unusedSimpArgs false

namespace Verif.Props
open Verif Verif.OD Verif.Spec

variable {W : Type}

/-- C74.  Once a handle of some type was obtained for an object, then after any further history exactly the handles of that type are
granted; a handle of another type is refused and the refusal changes nothing. -/
theorem C74_type_stays (bus : Bus W) (mem : Mem) (s s' s1 : Storage) (k : Key) (ty ty' : Ty) (d : Data) (c : Ctx W) (ops : List SOp)
    (h : s.entry mem k ty = (s1, .ok d)) (hs' : s' = (s1.run bus mem c ops).1) :
    (ty' = ty → ∃ d', s'.entry mem k ty' = (s', .ok d')) ∧ (ty' ≠ ty → s'.entry mem k ty' = (s', .throws .badCast)) := by
  have h1 : ∃ d1, s1.data k = some d1 ∧ d1.ty = ty := by
    unfold Storage.entry at h
    split at h
    · rename_i d0 hd0
      split at h
      · rename_i ht
        injection h with h1 h2
        rw [← h1]
        exact ⟨d0, hd0, ht⟩
      · injection h with h1 h2; cases h2
    · split at h
      · injection h with h1 h2; cases h2
      · split at h
        · rename_i e he d0 hd0
          injection h with h1 h2
          rw [← h1]
          refine ⟨d0, by simp [Storage.put], ?_⟩
          unfold Storage.make at hd0
          split at hd0
          · split at hd0
            · cases hd0; rfl
            · cases hd0
            · cases hd0
          · split at hd0
            · cases hd0; rfl
            · cases hd0
        · injection h with h1 h2; cases h2
        · injection h with h1 h2; cases h2
  obtain ⟨d1, hd1, ht1⟩ := h1
  obtain ⟨d2, hd2, ht2⟩ := run_types bus mem ops s1 c k d1 hd1
  rw [← hs'] at hd2
  unfold Storage.entry
  rw [hd2]
  dsimp only
  rw [ht2, ht1]
  constructor
  · intro he; exact ⟨d2, by rw [if_pos he.symm]⟩
  · intro he; rw [if_neg (fun h => he h.symm)]

example : (match ((Storage.fresh exampleDict 1#8).entry exampleMem (Key.ofIndex 0x1000#16) (.int .u32)).2 with | .ok _ => true | _ => false) = true := by
  rfl

/-- C74.  The first handle of an object: for an object whose default is an integer of type `t` (or absent but of that type) exactly the
handles of that type are granted; the handle knows the default, if there is one; nothing is sent.  An object that is not in the
dictionary cannot be opened. -/
theorem C74_first_handle (mem : Mem) (s : Storage) (k : Key) (ty : Ty) (t : IntTy) (hnew : s.data k = none) :
    (s.dict.get k = none → s.entry mem k ty = (s, .throws .outOfRange)) ∧
    (∀ e v, s.dict.get k = some e → e.defVal = .val (.int t v) →
      (ty = .int t → ∃ d, (s.entry mem k ty).2 = .ok d ∧ d.cache = some (leBytes t.size v) ∧ d.entry = e) ∧
      (ty ≠ .int t → ∃ x, s.entry mem k ty = (s, .throws x))) ∧
    (∀ e, s.dict.get k = some e → e.defVal = .empty (.int t) →
      (ty = .int t → ∃ d, (s.entry mem k ty).2 = .ok d ∧ d.cache = none ∧ d.entry = e) ∧
      (ty ≠ .int t → s.entry mem k ty = (s, .throws .badCast))) := by
  refine ⟨?_, ?_, ?_⟩
  · intro h; unfold Storage.entry; rw [hnew, h]
  · intro e v he hv
    constructor
    · intro ht
      subst ht
      refine ⟨Data.ofVal e (.int t) (leBytes t.size v), ?_, rfl, rfl⟩
      simp [Storage.entry, hnew, he, Storage.make, hv, HoldAny.isEmpty, applyAny, applyOffset, HoldAny.type, Payload.ty, HoldAny.getInt]
    · intro ht
      have hm : ∃ x, s.make mem e ty = .throws x := by
        unfold Storage.make
        rw [hv]
        simp only [HoldAny.isEmpty, Bool.not_false, if_true]
        cases ty with
        | int t' =>
          have hne : t ≠ t' := fun h => ht (by rw [h])
          refine ⟨.badCast, ?_⟩
          simp [applyAny, applyOffset, HoldAny.isEmpty, HoldAny.type, Payload.ty, hne, HoldAny.getOffset]
        | string => exact ⟨.badCast, rfl⟩
        | real32 => exact ⟨.badCast, by simp [applyAny, Payload.ty]⟩
        | real64 => exact ⟨.badCast, by simp [applyAny, Payload.ty]⟩
        | offset t' => exact ⟨.badCast, by simp [applyAny, Payload.ty]⟩
      obtain ⟨x, hx⟩ := hm
      exact ⟨x, by unfold Storage.entry; rw [hnew, he]; simp only [hx]⟩
  · intro e he hv
    constructor
    · intro ht
      subst ht
      refine ⟨Data.new e (.int t), ?_, rfl, rfl⟩
      simp [Storage.entry, hnew, he, Storage.make, hv, HoldAny.isEmpty, HoldAny.type]
    · intro ht
      have : ¬ (Ty.int t = ty) := fun h => ht h.symm
      simp [Storage.entry, hnew, he, Storage.make, hv, HoldAny.isEmpty, HoldAny.type, this]

example : (Storage.fresh exampleDict 1#8).data (Key.ofIndex 0x1000#16) = none ∧ ∃ e, exampleDict.get (Key.ofIndex 0x1000#16) = some e ∧
    e.defVal = .empty (.int .u32) := by
  refine ⟨rfl, exampleEntry 0x1000#16 true false (.empty (.int .u32)) (.empty (.int .u32)), ?_, rfl⟩
  simp [Dict.get, exampleDict]

example : ∃ s1 d, (Storage.fresh exampleDict 1#8).entry exampleMem (Key.ofIndex 0x1000#16) (.int .u32) = (s1, .ok d) := by
  obtain ⟨d, hd, _⟩ := ((C74_first_handle exampleMem (Storage.fresh exampleDict 1#8) (Key.ofIndex 0x1000#16) (.int .u32) .u32 rfl).2.2
    (exampleEntry 0x1000#16 true false (.empty (.int .u32)) (.empty (.int .u32))) (by simp [Dict.get, exampleDict, Storage.fresh]) rfl).1 rfl
  exact ⟨_, d, Prod.ext rfl hd⟩

/-- C75.  `reset` makes the storage forget what it learned: of every object in use it then knows the default of the file (if there is
one of the object's type) and else nothing; types and the places where reads and writes go stay.  Nothing is sent.  Objects not in
use stay so. -/
theorem C75_reset (mem : Mem) (s : Storage) (k : Key) :
    (s.data k = none → (s.reset mem).data k = none) ∧
    (∀ d, s.data k = some d → ∃ d', (s.reset mem).data k = some d' ∧ d'.ty = d.ty ∧ d'.rd = d.rd ∧ d'.wr = d.wr ∧ d'.entry = d.entry ∧
      (∀ p, d.entry.defVal = .val p → p.ty = d.ty → d'.cache = some (p.bytes mem)) ∧
      ((∀ p, d.entry.defVal = .val p → p.ty ≠ d.ty) → d'.cache = none)) := by
  constructor
  · intro h; simp [Storage.reset, h]
  · intro d hd
    refine ⟨d.reset mem, by simp [Storage.reset, hd], reset_ty mem d, ?_, ?_, reset_entry mem d, ?_, ?_⟩
    · unfold Data.reset
      split
      · split <;> rfl
      · rfl
    · unfold Data.reset
      split
      · split <;> rfl
      · rfl
    · intro p hp ht
      unfold Data.reset
      rw [hp]
      simp only [if_pos ht]
      rfl
    · intro h
      unfold Data.reset
      split
      · rename_i p hp
        rw [if_neg (h p hp)]; rfl
      · rfl

/-- C75.  After `reset` the first cached read of an object without default asks the place its reads go to. -/
theorem C75_fresh_read (bus : Bus W) (mem : Mem) (d : Data) (c : Ctx W) (hr : d.entry.readable = true) (hd : ∀ p, d.entry.defVal ≠ .val p) :
    ((d.reset mem).call bus c .getCached).2.1.log = c.log ++ [.read d.rd d.entry.index d.entry.subIndex] := by
  have he : (d.reset mem).entry = d.entry := reset_entry mem d
  have hv : d.reset mem = { d with valid := false } := by
    unfold Data.reset
    split
    · rename_i p hp; exact absurd hp (hd p)
    · rfl
  simp only [Data.call, Data.get, he, hr, Bool.not_true, Bool.false_eq_true, if_false]
  rw [hv]
  simp only [Bool.not_false, Bool.true_or, if_true]
  have hl : ∀ (d : Data), (d.callRead bus c).2.1.log = c.log ++ [.read d.rd d.entry.index d.entry.subIndex] := fun _ => rfl
  split <;> (rw [hl, allocate_entry, (allocate_facts _).2.1])

example : (exampleEntry 0x1003#16 true true (.empty (.int .u32)) .none).readable = true ∧
    ∀ p, (exampleEntry 0x1003#16 true true (.empty (.int .u32)) .none).defVal ≠ .val p := by
  refine ⟨rfl, ?_⟩
  intro p hp
  cases hp

/-- C76.  Mapping an object in use into a PDO.  As soon as mapping succeeds: an object received by PDO is read from the PDO and still
written by SDO; an object sent by PDO is written to the PDO and still read by SDO.  The size of the value in bytes is returned. -/
theorem C76_mapped (bus : Bus W) (mem : Mem) (s : Storage) (k : Key) (e : Entry) (r w : Option Nat) (c : Ctx W) (n : Nat)
    (h : (s.mapKey bus mem k e r w c).2.2 = .ok n) :
    ∃ d', (s.mapKey bus mem k e r w c).1.data k = some d' ∧ d'.buffer.length = n ∧
      (∀ b, r = some b → d'.rd = .pdo b ∧ d'.wr = .dev) ∧
      (∀ b, r = none → w = some b → d'.rd = .dev ∧ d'.wr = .pdo b) ∧
      (∀ k', k' ≠ k → (s.mapKey bus mem k e r w c).1.data k' = s.data k') := by
  unfold Storage.mapKey at h ⊢
  dsimp only at h ⊢
  split at h
  · cases h
  · cases h
  · rename_i d hd
    split at h
    · rename_i r w
      have hf := forceWrite_facts bus (d.setDelegates .dev (.pdo w)) c
      split at h
      · rename_i u hu
        cases h
        exact ⟨_, put_same _ _ _, rfl, by intro b hb; cases hb; exact ⟨rfl, rfl⟩, by intro b hb; (cases hb), fun k' hk' => put_other _ _ hk'⟩
      · cases h
      · cases h
    · rename_i w
      have hf := forceWrite_facts bus (d.setDelegates .dev (.pdo w)) c
      split at h
      · rename_i u hu
        cases h
        exact ⟨_, put_same _ _ _, rfl, by intro b hb; (cases hb), by intro b _ hb; cases hb; exact hf.2, fun k' hk' => put_other _ _ hk'⟩
      · cases h
      · cases h
    · cases h
      exact ⟨_, put_same _ _ _, rfl, by intro b hb; cases hb; exact ⟨rfl, rfl⟩, by intro b hb; (cases hb), fun k' hk' => put_other _ _ hk'⟩
    · cases h
      exact ⟨_, put_same _ _ _, rfl, by intro b hb; (cases hb), by intro b _ hb; (cases hb), fun k' hk' => put_other _ _ hk'⟩

/-- C76.  What mapping sends: the PDO is given the known value of the object; if none is known and the object is readable, the device is
asked first.  Nothing is ever written to the device. -/
theorem C76_traffic (bus : Bus W) (mem : Mem) (s : Storage) (k : Key) (e : Entry) (r : Option Nat) (w : Nat) (c : Ctx W) (d : Data)
    (hd : s.data k = some d) :
    (∀ v, d.cache = some v → (s.mapKey bus mem k e r (some w) c).2.1.log = c.log ++ [.write (.pdo w) d.entry.index d.entry.subIndex v]) ∧
    (d.cache = none → d.entry.readable = false → (s.mapKey bus mem k e r (some w) c).2.1.log = c.log) ∧
    (d.cache = none → d.entry.readable = true →
      ((bus.read .dev d.entry d.buffer c.w).2.2 = none → (s.mapKey bus mem k e r (some w) c).2.1.log =
        c.log ++ [.read .dev d.entry.index d.entry.subIndex, .write (.pdo w) d.entry.index d.entry.subIndex (bus.read .dev d.entry d.buffer c.w).2.1]) ∧
      (∀ code, (bus.read .dev d.entry d.buffer c.w).2.2 = some code →
        (s.mapKey bus mem k e r (some w) c).2.1.log = c.log ++ [.read .dev d.entry.index d.entry.subIndex] ∧
        (s.mapKey bus mem k e r (some w) c).2.2 = .throws (.device code))) := by
  have hlog : (s.mapKey bus mem k e r (some w) c).2.1 = ((d.setDelegates .dev (.pdo w)).forceWrite bus c).2.1 := by
    unfold Storage.mapKey
    rw [hd]
    dsimp only
    cases r <;> dsimp only <;> split <;> rfl
  have hres : ∀ x, ((d.setDelegates .dev (.pdo w)).forceWrite bus c).2.2 = .throws x → (s.mapKey bus mem k e r (some w) c).2.2 = .throws x := by
    intro x hx
    unfold Storage.mapKey
    rw [hd]
    dsimp only
    cases r <;> dsimp only <;> rw [hx]
  rw [hlog]
  refine ⟨?_, ?_, ?_⟩
  · intro v hv
    have hvalid : d.valid = true ∧ d.buffer = v := by
      unfold Data.cache at hv
      cases hb : d.valid with
      | false => rw [hb] at hv; simp at hv
      | true => rw [hb] at hv; simpa using hv
    unfold Data.forceWrite
    simp only [Data.setDelegates, hvalid.1, Bool.not_true, Bool.false_and, Bool.false_eq_true, if_false, if_true]
    split <;> simp [Data.callWrite, hvalid.2]
  · intro hv hr
    have hvalid : d.valid = false := by
      unfold Data.cache at hv
      cases hb : d.valid with
      | false => rfl
      | true => rw [hb] at hv; simp at hv
    unfold Data.forceWrite
    simp [Data.setDelegates, hvalid, hr]
  · intro hv hr
    have hvalid : d.valid = false := by
      unfold Data.cache at hv
      cases hb : d.valid with
      | false => rfl
      | true => rw [hb] at hv; simp at hv
    constructor
    · intro hok
      unfold Data.forceWrite
      simp only [Data.setDelegates, hvalid, hr, Bool.not_false, Bool.and_true, if_true, Data.callRead, hok]
      split <;> simp [Data.callWrite, List.append_assoc]
    · intro code hf
      have : ((d.setDelegates .dev (.pdo w)).forceWrite bus c).2.2 = .throws (.device code) ∧
          ((d.setDelegates .dev (.pdo w)).forceWrite bus c).2.1.log = c.log ++ [.read .dev d.entry.index d.entry.subIndex] := by
        unfold Data.forceWrite
        simp [Data.setDelegates, hvalid, hr, Data.callRead, hf]
      exact ⟨this.2, hres _ this.1⟩

/-- C76.  Which object is mapped: the sub-object of that number; for sub-index 0 also a plain variable; if there is none, mapping fails and
nothing changes. -/
theorem C76_which (bus : Bus W) (mem : Mem) (s : Storage) (i : BitVec 16) (sub : BitVec 8) (r w : Option Nat) (c : Ctx W) :
    (∀ e, s.dict.get (Key.ofSub i sub) = some e → s.map bus mem i sub r w c = s.mapKey bus mem (Key.ofSub i sub) e r w c) ∧
    (∀ e, s.dict.get (Key.ofSub i sub) = none → sub = 0 → s.dict.get (Key.ofIndex i) = some e →
      s.map bus mem i sub r w c = s.mapKey bus mem (Key.ofIndex i) e r w c) ∧
    (s.dict.get (Key.ofSub i sub) = none → (sub = 0 → s.dict.get (Key.ofIndex i) = none) → s.map bus mem i sub r w c = (s, c, .throws .outOfRange)) := by
  unfold Storage.map
  refine ⟨fun e he => by rw [he], fun e hn h0 he => ?_, fun hn h0 => ?_⟩
  · rw [hn]; subst h0; simp [he]
  · rw [hn]
    by_cases h : sub = 0
    · subst h; simp [h0 rfl]
    · dsimp only; rw [if_pos h]

/-- a storage with one object in use, mapped for sending -/
def exampleUsed : Storage := (Storage.fresh exampleDict 1#8).put (Key.ofIndex 0x6081#16)
  (Data.ofVal (exampleEntry 0x6081#16 true true (.empty (.int .u32)) (.val (.int .u32 100#32))) (.int .u32) [1#8, 2#8, 3#8, 4#8])

example : (exampleUsed.map goodBus exampleMem 0x6081#16 0#8 none (some 3) ⟨[], []⟩).2.1.log = [.write (.pdo 3) 0x6081#16 0#8 [1#8, 2#8, 3#8, 4#8]] := by
  decide

end Verif.Props
