import Verif.Spec.StorageUse
import Verif.Lemmas.Text

/-!
# Lemmas about the object storage
-/

set_option linter.unusedSimpArgs false

namespace Verif.OD
open Verif Verif.Spec

variable {W : Type}

theorem lawful_read {dict : Dict} {log : List Acc} (h : Lawful dict log) (d : Dlg) (e : Entry) (he : ∃ k, (k, e) ∈ dict)
    (hr : e.readable = true) : Lawful dict (log ++ [.read d e.index e.subIndex]) := by
  obtain ⟨k, hk⟩ := he
  constructor
  · intro i s hm
    rw [List.mem_append] at hm
    rcases hm with hm | hm
    · exact h.1 i s hm
    · simp only [List.mem_singleton, Acc.read.injEq] at hm
      exact ⟨_, hk, hm.2.1.symm, hm.2.2.symm, hr⟩
  · intro i s v hm
    rw [List.mem_append] at hm
    rcases hm with hm | hm
    · exact h.2 i s v hm
    · simp at hm

theorem lawful_write {dict : Dict} {log : List Acc} (h : Lawful dict log) (d : Dlg) (e : Entry) (v : List Byte) (he : ∃ k, (k, e) ∈ dict)
    (hw : d = .dev → e.writable = true) : Lawful dict (log ++ [.write d e.index e.subIndex v]) := by
  obtain ⟨k, hk⟩ := he
  constructor
  · intro i s hm
    rw [List.mem_append] at hm
    rcases hm with hm | hm
    · exact h.1 i s hm
    · simp at hm
  · intro i s v' hm
    rw [List.mem_append] at hm
    rcases hm with hm | hm
    · exact h.2 i s v' hm
    · simp only [List.mem_singleton, Acc.write.injEq] at hm
      exact ⟨_, hk, hm.2.1.symm, hm.2.2.1.symm, hw hm.1.symm⟩

/-- what a function on one object's data keeps: the entry, and lawfulness of the record -/
def Keeps (dict : Dict) (d : Data) (c : Ctx W) (d' : Data) (c' : Ctx W) : Prop :=
  d'.entry = d.entry ∧ (Lawful dict c.log → Lawful dict c'.log)

variable (bus : Bus W) (dict : Dict) (d : Data) (c : Ctx W) (hd : ∃ k, (k, d.entry) ∈ dict)

theorem allocate_entry (d : Data) : d.allocate.entry = d.entry := by
  unfold Data.allocate
  split
  · rfl
  · split <;> rfl

theorem store_entry {d d' : Data} {v : List Byte} (h : d.store v = some d') : d'.entry = d.entry := by
  unfold Data.store at h
  dsimp only at h
  split at h
  · cases h; exact allocate_entry d
  · split at h
    · cases h
    · cases h; exact allocate_entry d

include hd in
theorem storeWrite_keeps (v : List Byte) (hw : d.entry.writable = true) :
    Keeps dict d c (d.storeWrite bus c v).1 (d.storeWrite bus c v).2.1 := by
  unfold Data.storeWrite
  split
  · exact ⟨rfl, id⟩
  · rename_i d' hs
    have he := store_entry hs
    have : Lawful dict c.log → Lawful dict (d'.callWrite bus c).1.log := fun h => by
      refine lawful_write h _ _ _ ?_ (fun _ => ?_)
      · rw [he]; exact hd
      · rw [he]; exact hw
    dsimp only
    split <;> exact ⟨he, this⟩

include hd in
theorem get_keeps (cached : Bool) : Keeps dict d c (d.get bus cached c).1 (d.get bus cached c).2.1 := by
  unfold Data.get
  split
  · exact ⟨rfl, id⟩
  · rename_i hr
    have hr : d.entry.readable = true := by simpa using hr
    split
    · have he := allocate_entry d
      have : Lawful dict c.log → Lawful dict (d.allocate.callRead bus c).2.1.log := fun h => by
        refine lawful_read h _ _ ?_ ?_
        · rw [he]; exact hd
        · rw [he]; exact hr
      dsimp only
      split <;> exact ⟨he, this⟩
    · exact ⟨rfl, id⟩

include hd in
theorem set_keeps (v : List Byte) : Keeps dict d c (d.set bus v c).1 (d.set bus v c).2.1 := by
  unfold Data.set
  split
  · split
    · split <;> exact ⟨rfl, id⟩
    · exact ⟨rfl, id⟩
    · exact ⟨rfl, id⟩
  · rename_i h
    exact storeWrite_keeps bus dict d c hd v (by simpa using h)

include hd in
theorem setCached_keeps (v : List Byte) : Keeps dict d c (d.setCached bus v c).1 (d.setCached bus v c).2.1 := by
  unfold Data.setCached
  split
  · exact ⟨rfl, id⟩
  · exact ⟨rfl, id⟩
  · split
    · exact ⟨rfl, id⟩
    · rename_i h
      exact storeWrite_keeps bus dict d c hd v (by simpa using h)

include hd in
theorem init_keeps (mem : Mem) : Keeps dict d c (d.init bus mem c).1 (d.init bus mem c).2.1 := by
  unfold Data.init
  split
  · split
    · exact ⟨rfl, id⟩
    · split
      · dsimp only
        split
        · rename_i p _ _ _ hw
          have hw : d.entry.writable = true := by
            simp only [Bool.and_eq_true] at hw; exact hw.1
          have : Lawful dict c.log → Lawful dict (Data.callWrite bus { d with buffer := p.bytes mem, valid := true } c).1.log := fun h => by
            refine lawful_write h _ _ _ hd (fun _ => hw)
          split <;> exact ⟨rfl, this⟩
        · exact ⟨rfl, id⟩
      · exact ⟨rfl, id⟩
  · exact ⟨rfl, id⟩

theorem reset_entry (mem : Mem) (d : Data) : (d.reset mem).entry = d.entry := by
  unfold Data.reset
  split
  · split <;> rfl
  · rfl

include hd in
theorem forceWrite_keeps (hw : d.wr ≠ .dev) : Keeps dict d c (d.forceWrite bus c).1 (d.forceWrite bus c).2.1 := by
  have hcw : ∀ (d' : Data) (c' : Ctx W), d'.entry = d.entry → d'.wr = d.wr → Lawful dict c'.log → Lawful dict (d'.callWrite bus c').1.log := by
    intro d' c' he hwr h
    refine lawful_write h _ _ _ ?_ (fun h => ?_)
    · rw [he]; exact hd
    · rw [hwr] at h; exact absurd h hw
  have hcr : d.entry.readable = true → Lawful dict c.log → Lawful dict (d.callRead bus c).2.1.log := by
    intro hr h
    exact lawful_read h _ _ hd hr
  unfold Data.forceWrite
  by_cases hv : d.valid = true
  · simp only [hv, Bool.not_true, Bool.false_and, Bool.false_eq_true, if_false, if_true]
    split <;> exact ⟨rfl, hcw d c rfl rfl⟩
  · by_cases hr : d.entry.readable = true
    · have hv' : d.valid = false := by simpa using hv
      simp only [hv', hr, Bool.not_false, Bool.true_and, if_true]
      cases hx : (d.callRead bus c).2.2 with
      | some e => exact ⟨rfl, hcr hr⟩
      | none =>
        dsimp only
        rw [if_pos rfl]
        have := fun h => hcw { (d.callRead bus c).1 with valid := true } (d.callRead bus c).2.1 rfl rfl (hcr hr h)
        split <;> exact ⟨rfl, this⟩
    · have hv' : d.valid = false := by simpa using hv
      have hr' : d.entry.readable = false := by simpa using hr
      simp [hv', hr', Keeps]

theorem get_mem {d : Dict} {k : Key} {e : Entry} (h : d.get k = some e) : (k, e) ∈ d := by
  unfold Dict.get at h
  cases hf : d.find? (fun p => p.1 = k) with
  | none => rw [hf] at h; cases h
  | some p =>
    rw [hf] at h
    have h1 := List.mem_of_find?_eq_some hf
    have h2 := List.find?_some hf
    simp only [decide_eq_true_eq] at h2
    simp only [Option.map_some, Option.some.injEq] at h
    obtain ⟨k', e'⟩ := p
    simp only at h2 h
    subst h2 h
    exact h1

theorem get_nodup {d : Dict} (hn : (d.map (·.1)).Nodup) {k : Key} {e : Entry} (h : (k, e) ∈ d) : d.get k = some e := by
  unfold Dict.get
  induction d with
  | nil => simp at h
  | cons p d ih =>
    simp only [List.map_cons, List.nodup_cons] at hn
    simp only [List.mem_cons] at h
    rw [List.find?_cons]
    rcases h with h | h
    · subst h; simp
    · have : p.1 ≠ k := by
        intro hp
        apply hn.1
        rw [hp]
        exact List.mem_map.2 ⟨_, h, rfl⟩
      simp only [decide_eq_true_eq, this, decide_false, cond_false]
      exact ih hn.2 h

theorem put_consistent {s : Storage} (h : Consistent s) {k : Key} {d : Data} (hd : s.dict.get k = some d.entry) : Consistent (s.put k d) := by
  intro k' d' hk
  unfold Storage.put at hk
  dsimp only at hk
  show s.dict.get k' = some d'.entry
  split at hk
  · rename_i he
    cases hk
    rw [he]; exact hd
  · exact h k' d' hk

/-- invariant of a storage and the record of device accesses -/
structure Inv (s : Storage) (c : Ctx W) : Prop where
  cons : Consistent s
  law : Lawful s.dict c.log

/-- one data item is replaced by a function that keeps entry and lawfulness -/
theorem put_inv {s : Storage} {c : Ctx W} (h : Inv s c) {k : Key} {d d' : Data} {c' : Ctx W} (hd : s.dict.get k = some d.entry)
    (hk : Keeps s.dict d c d' c') : Inv (s.put k d') c' :=
  ⟨put_consistent h.cons (by rw [hk.1]; exact hd), hk.2 h.law⟩

theorem entry_inv (mem : Mem) {s : Storage} {c : Ctx W} (h : Inv s c) (k : Key) (ty : Ty) :
    Inv (s.entry mem k ty).1 c ∧ (s.entry mem k ty).1.dict = s.dict := by
  unfold Storage.entry
  split
  · split <;> exact ⟨h, rfl⟩
  · split
    · exact ⟨h, rfl⟩
    · rename_i e he
      split
      · rename_i d hm
        have hde : d.entry = e := by
          unfold Storage.make at hm
          split at hm
          · split at hm
            · cases hm; rfl
            · cases hm
            · cases hm
          · split at hm
            · cases hm; rfl
            · cases hm
        exact ⟨⟨put_consistent h.cons (by rw [hde]; exact he), h.law⟩, rfl⟩
      · exact ⟨h, rfl⟩
      · exact ⟨h, rfl⟩

theorem initNolock_inv (mem : Mem) {s : Storage} {c : Ctx W} (h : Inv s c) (k : Key) (e : Entry) (he : s.dict.get k = some e) :
    Inv (s.initNolock bus mem k e c).1 (s.initNolock bus mem k e c).2.1 ∧ (s.initNolock bus mem k e c).1.dict = s.dict := by
  unfold Storage.initNolock
  split
  · rename_i p hp
    have hde : ((s.data k).getD (Data.new e p.ty)).entry = e := by
      cases hs : s.data k with
      | none => rfl
      | some d =>
        have := h.cons k d hs
        rw [he] at this
        cases this; rfl
    refine ⟨?_, rfl⟩
    refine put_inv h (d := (s.data k).getD (Data.new e p.ty)) (by rw [hde]; exact he) ?_
    refine init_keeps bus s.dict _ c ?_ mem
    rw [hde]
    exact ⟨k, get_mem he⟩
  · exact ⟨h, rfl⟩

theorem initAllFrom_inv (mem : Mem) : ∀ (l : Dict) {s : Storage} {c : Ctx W}, Inv s c → (∀ p ∈ l, s.dict.get p.1 = some p.2) →
    Inv (Storage.initAllFrom bus mem l s c).1 (Storage.initAllFrom bus mem l s c).2.1 ∧ (Storage.initAllFrom bus mem l s c).1.dict = s.dict := by
  intro l
  induction l with
  | nil => intro s c h _; exact ⟨h, rfl⟩
  | cons p l ih =>
    intro s c h hl
    obtain ⟨k, e⟩ := p
    have h1 := initNolock_inv bus mem h k e (hl (k, e) (by simp))
    unfold Storage.initAllFrom
    dsimp only
    split
    · have := ih h1.1 (fun p hp => by rw [h1.2]; exact hl p (by simp [hp]))
      exact ⟨this.1, by rw [this.2, h1.2]⟩
    · exact h1

theorem mapKey_inv (mem : Mem) {s : Storage} {c : Ctx W} (h : Inv s c) (k : Key) (e : Entry) (he : s.dict.get k = some e) (r w : Option Nat) :
    Inv (s.mapKey bus mem k e r w c).1 (s.mapKey bus mem k e r w c).2.1 ∧ (s.mapKey bus mem k e r w c).1.dict = s.dict := by
  unfold Storage.mapKey
  dsimp only
  split
  · exact ⟨h, rfl⟩
  · exact ⟨h, rfl⟩
  · rename_i d hod
    have hde : d.entry = e := by
      cases hs : s.data k with
      | none =>
        rw [hs] at hod
        dsimp only at hod
        split at hod
        · cases hod
        · cases hod; rw [reset_entry]; rfl
      | some d' =>
        rw [hs] at hod
        cases hod
        have := h.cons k d hs
        rw [he] at this
        cases this; rfl
    have hget : s.dict.get k = some d.entry := by rw [hde]; exact he
    have hex : ∃ k, (k, d.entry) ∈ s.dict := ⟨k, get_mem hget⟩
    have hfw : ∀ w, Keeps s.dict d c ((d.setDelegates .dev (.pdo w)).forceWrite bus c).1 ((d.setDelegates .dev (.pdo w)).forceWrite bus c).2.1 :=
      fun w => forceWrite_keeps bus s.dict (d.setDelegates .dev (.pdo w)) c hex (by simp [Data.setDelegates])
    split
    · rename_i r w
      split
      · exact ⟨put_inv h hget ⟨(hfw w).1, (hfw w).2⟩, rfl⟩
      · exact ⟨put_inv h hget (hfw w), rfl⟩
      · exact ⟨put_inv h hget (hfw w), rfl⟩
    · rename_i w
      split <;> exact ⟨put_inv h hget (hfw w), rfl⟩
    · exact ⟨put_inv h hget ⟨rfl, id⟩, rfl⟩
    · exact ⟨put_inv h hget ⟨rfl, id⟩, rfl⟩

theorem reset_inv (mem : Mem) {s : Storage} {c : Ctx W} (h : Inv s c) : Inv (s.reset mem) c := by
  refine ⟨?_, h.law⟩
  intro k d hk
  unfold Storage.reset at hk
  simp only [Option.map_eq_some_iff] at hk
  obtain ⟨d0, h0, rfl⟩ := hk
  rw [reset_entry]
  exact h.cons k d0 h0

theorem step_inv (mem : Mem) {s : Storage} {c : Ctx W} (hn : s.dict.NodupKeys) (h : Inv s c) (o : SOp) :
    Inv (s.step bus mem c o).1 (s.step bus mem c o).2.1 ∧ (s.step bus mem c o).1.dict = s.dict := by
  cases o with
  | «open» k ty => exact entry_inv mem h k ty
  | get k cached =>
    unfold Storage.step
    dsimp only
    split
    · exact ⟨h, rfl⟩
    · rename_i d hd
      exact ⟨put_inv h (h.cons k d hd) (get_keeps bus s.dict d c ⟨k, get_mem (h.cons k d hd)⟩ cached), rfl⟩
  | set k v =>
    unfold Storage.step
    dsimp only
    split
    · exact ⟨h, rfl⟩
    · rename_i d hd
      exact ⟨put_inv h (h.cons k d hd) (set_keeps bus s.dict d c ⟨k, get_mem (h.cons k d hd)⟩ v), rfl⟩
  | setCached k v =>
    unfold Storage.step
    dsimp only
    split
    · exact ⟨h, rfl⟩
    · rename_i d hd
      exact ⟨put_inv h (h.cons k d hd) (setCached_keeps bus s.dict d c ⟨k, get_mem (h.cons k d hd)⟩ v), rfl⟩
  | init k =>
    unfold Storage.step Storage.init
    dsimp only
    split
    · exact ⟨h, rfl⟩
    · rename_i e he
      exact initNolock_inv bus mem h k e he
  | initAll => exact initAllFrom_inv bus mem s.dict h (fun p hp => get_nodup hn (by exact hp))
  | reset => exact ⟨reset_inv mem h, rfl⟩
  | map i sub r w =>
    unfold Storage.step Storage.map
    dsimp only
    split
    · rename_i e he
      exact mapKey_inv bus mem h _ e he r w
    · split
      · exact ⟨h, rfl⟩
      · split
        · rename_i e he
          exact mapKey_inv bus mem h _ e he r w
        · exact ⟨h, rfl⟩

theorem run_inv (mem : Mem) (ops : List SOp) : ∀ {s : Storage} {c : Ctx W}, s.dict.NodupKeys → Inv s c →
    Inv (s.run bus mem c ops).1 (s.run bus mem c ops).2.1 ∧ (s.run bus mem c ops).1.dict = s.dict := by
  induction ops with
  | nil => intro s c _ h; exact ⟨h, rfl⟩
  | cons o os ih =>
    intro s c hn h
    have h1 := step_inv bus mem hn h o
    have h2 := ih (by rw [h1.2]; exact hn) h1.1
    unfold Storage.run
    exact ⟨h2.1, by dsimp only; rw [h2.2, h1.2]⟩

theorem fresh_inv (dict : Dict) (node : BitVec 8) (w : W) : Inv (Storage.fresh dict node) (⟨w, []⟩ : Ctx W) :=
  ⟨fun k d h => by simp [Storage.fresh] at h, ⟨fun i s h => by simp at h, fun i s v h => by simp at h⟩⟩

/-! ## one object against a device that answers -/

/-- relation of the real object and the specification -/
structure Rel (d : Data) (c : Ctx (List Byte)) (s : ObjState) : Prop where
  rd : d.rd = .dev
  wr : d.wr = .dev
  sized : SizedFor d.ty d.buffer
  dev : c.w = s.dev
  devSized : SizedFor d.ty s.dev
  cache : s.cache = d.cache

theorem access_sized {d : Data} (h : SizedFor d.ty d.buffer) : d.access = if d.valid then .ok d.buffer else .throws .lengthError := by
  unfold Data.access
  cases hv : d.valid with
  | false => simp
  | true =>
    simp only [Bool.not_true, Bool.false_eq_true, if_false, if_true]
    by_cases hs : d.ty = .string
    · simp [hs]
    · have := h hs
      rw [if_neg hs, if_neg (by omega), ← this, List.take_length]

theorem allocate_facts (d : Data) : d.allocate.ty = d.ty ∧ d.allocate.rd = d.rd ∧ d.allocate.wr = d.wr ∧ d.allocate.valid = true := by
  unfold Data.allocate
  split
  · exact ⟨rfl, rfl, rfl, rfl⟩
  · split
    · exact ⟨rfl, rfl, rfl, rfl⟩
    · rename_i h
      exact ⟨rfl, rfl, rfl, by simpa using h⟩

theorem store_sized {d : Data} (h : SizedFor d.ty d.buffer) {v : List Byte} (hv : SizedFor d.ty v) :
    d.store v = some { d with buffer := v, valid := true } := by
  unfold Data.store
  dsimp only
  have ha := allocate_facts d
  by_cases hs : d.ty = .string
  · rw [if_pos (by rw [ha.1]; exact hs)]
    unfold Data.allocate
    rw [if_pos hs]
  · rw [if_neg (by rw [ha.1]; exact hs)]
    have hl : d.allocate.buffer.length = d.ty.size := by
      unfold Data.allocate
      rw [if_neg hs]
      split
      · simp [Txt.length_resize]
      · exact h hs
    rw [if_neg (by rw [ha.1]; omega)]
    have : d.allocate.buffer.drop d.allocate.ty.size = [] := by
      rw [ha.1, ← hl]; simp
    rw [this, List.append_nil]
    unfold Data.allocate
    rw [if_neg hs]
    split
    · rfl
    · rename_i h
      have h : d.valid = true := by simpa using h
      rw [h]

theorem storeWrite_good {d : Data} {c : Ctx (List Byte)} {s : ObjState} (h : Rel d c s) {v : List Byte} (hv : SizedFor d.ty v) :
    d.storeWrite goodBus c v = ({ d with buffer := v, valid := true }, ⟨v, c.log ++ [accOf d.entry (.write v)]⟩, .ok ()) ∧
    Rel { d with buffer := v, valid := true } ⟨v, c.log ++ [accOf d.entry (.write v)]⟩ ⟨v, some v⟩ := by
  constructor
  · unfold Data.storeWrite
    rw [store_sized h.sized hv]
    simp [Data.callWrite, goodBus, accOf, h.wr]
  · exact ⟨h.rd, h.wr, hv, rfl, hv, rfl⟩

theorem evStep_ok {d : Data} {c : Ctx (List Byte)} {s : ObjState} (h : Rel d c s) (e : ObjEvent) (he : EventSized d.ty e) :
    Rel (evStep d c e).1 (evStep d c e).2.1 (s.step (rightsOf d.entry) e).1 ∧
    (evStep d c e).1.ty = d.ty ∧ (evStep d c e).1.entry = d.entry ∧
    (evStep d c e).2.2 = shown e (s.step (rightsOf d.entry) e).2.1 ∧
    (evStep d c e).2.1.log = c.log ++ (s.step (rightsOf d.entry) e).2.2.map (accOf d.entry) := by
  have hacc := access_sized h.sized
  have hc : s.cache = if d.valid then some d.buffer else none := h.cache
  have hfetch : d.allocate.callRead goodBus c = ({ d with buffer := s.dev, valid := true }, ⟨s.dev, c.log ++ [accOf d.entry .read]⟩, none) := by
    have ha := allocate_facts d
    unfold Data.callRead
    dsimp only [goodBus]
    simp only [accOf, ha.1, ha.2.1, ha.2.2.1, ha.2.2.2, h.rd, allocate_entry, h.dev]
  have hrel : Rel { d with buffer := s.dev, valid := true } ⟨s.dev, c.log ++ [accOf d.entry .read]⟩ { s with cache := some s.dev } :=
    ⟨h.rd, h.wr, h.devSized, rfl, h.devSized, rfl⟩
  have hacc2 := access_sized hrel.sized
  have hget : ∀ cached : Bool,
      d.get goodBus cached c = if d.entry.readable = false then (d, c, .throws .access)
        else if d.valid && (cached || d.entry.constant) then (d, c, .ok d.buffer)
        else ({ d with buffer := s.dev, valid := true }, ⟨s.dev, c.log ++ [accOf d.entry .read]⟩, .ok s.dev) := by
    intro cached
    unfold Data.get
    cases hr : d.entry.readable with
    | false => simp
    | true =>
      simp only [Bool.not_true, Bool.false_eq_true, if_false]
      cases hv : d.valid with
      | false =>
        simp only [Bool.not_false, Bool.true_or, if_true, Bool.false_and, Bool.false_eq_true, if_false, hfetch]
        rw [hacc2]; simp
      | true =>
        cases hcc : cached || d.entry.constant with
        | true => simp [hacc, hv]
        | false =>
          simp only [Bool.not_true, Bool.not_false, Bool.or_true, Bool.false_or, if_true, Bool.and_false, Bool.false_eq_true, if_false, hfetch]
          rw [hacc2]; simp
  have hb : ∀ b : Bool, b = false ∨ b = true := by decide
  cases e with
  | deviceChanges v => exact ⟨⟨h.rd, h.wr, h.sized, rfl, he, h.cache⟩, rfl, rfl, rfl, by simp [evStep, ObjState.step]⟩
  | get =>
    simp only [evStep, Data.call, hget, ObjState.step, rightsOf, Bool.false_or]
    rcases hb d.entry.readable with hr | hr
    · simp [hr, h, shown]
    · rcases hb d.entry.constant with hk | hk
      · simp [hr, hk, hrel, shown, ObjState.fetch]
      · rcases hb d.valid with hv | hv
        · rw [hv] at hc; simp [hr, hk, hv, hc, hrel, shown, ObjState.fetch]
        · rw [hv] at hc; simp [hr, hk, hv, hc, h, shown]
  | getCached =>
    simp only [evStep, Data.call, hget, ObjState.step, rightsOf, Bool.true_or]
    rcases hb d.entry.readable with hr | hr
    · simp [hr, h, shown]
    · rcases hb d.valid with hv | hv
      · rw [hv] at hc; simp [hr, hv, hc, hrel, shown, ObjState.fetch]
      · rw [hv] at hc; simp [hr, hv, hc, h, shown]
  | set v =>
    have hs := storeWrite_good h (v := v) he
    simp only [evStep, Data.call, Data.set, ObjState.step, rightsOf]
    rcases hb d.entry.writable with hw | hw
    · simp only [hw, Bool.not_false, if_true, Bool.false_eq_true, if_false, hacc]
      rcases hb d.valid with hv | hv
      · rw [hv] at hc; simp [hv, hc, h, shown]
      · rw [hv] at hc
        by_cases hcv : d.buffer = v
        · simp [hv, hc, hcv, h, shown]
        · simp [hv, hc, hcv, h, shown]
    · simp only [hw, Bool.not_true, Bool.false_eq_true, if_false, if_true, hs.1]
      exact ⟨hs.2, trivial, trivial, rfl, rfl⟩
  | setCached v =>
    have hs := storeWrite_good h (v := v) he
    simp only [evStep, Data.call, Data.setCached, Data.differs, ObjState.step, rightsOf, hacc]
    rcases hb d.valid with hv | hv
    · rw [hv] at hc
      simp only [hv, hc, Bool.not_false, if_true, Bool.false_eq_true, if_false, reduceCtorEq]
      rcases hb d.entry.writable with hw | hw
      · simp [hw, h, shown]
      · simp only [hw, Bool.not_true, Bool.false_eq_true, if_false, if_true, hs.1]
        exact ⟨hs.2, trivial, trivial, rfl, rfl⟩
    · rw [hv] at hc
      by_cases hcv : d.buffer = v
      · simp [hv, hc, hcv, h, shown]
      · simp only [hv, hc, Bool.not_true, Bool.false_eq_true, if_false, if_true, hcv, ne_eq, not_false_eq_true, decide_true, Option.some.injEq]
        rcases hb d.entry.writable with hw | hw
        · simp [hw, h, shown]
        · simp only [hw, Bool.not_true, Bool.false_eq_true, if_false, if_true, hs.1]
          exact ⟨hs.2, trivial, trivial, rfl, rfl⟩

theorem evRun_ok (es : List ObjEvent) : ∀ {d : Data} {c : Ctx (List Byte)} {s : ObjState}, Rel d c s → (∀ e ∈ es, EventSized d.ty e) →
    (evRun d c es).2.2 = (es.zip (s.run (rightsOf d.entry) es).2.1).map (fun p => shown p.1 p.2) ∧
    (evRun d c es).2.1.log = c.log ++ (s.run (rightsOf d.entry) es).2.2.map (accOf d.entry) ∧
    (evRun d c es).2.1.w = (s.run (rightsOf d.entry) es).1.dev := by
  induction es with
  | nil => intro d c s h _; exact ⟨rfl, by simp [evRun, ObjState.run], h.dev⟩
  | cons e es ih =>
    intro d c s h hs
    obtain ⟨h1, h2, h3, h4, h5⟩ := evStep_ok h e (hs e (by simp))
    have := ih h1 (fun e he => by rw [h2]; exact hs e (by simp [he]))
    rw [h3] at this
    unfold evRun ObjState.run
    refine ⟨?_, ?_, ?_⟩
    · simp only [List.zip_cons_cons, List.map_cons]
      rw [h4, this.1]
    · simp only [List.map_append]
      rw [this.2.1, h5, List.append_assoc]
    · exact this.2.2

/-! ## init -/

theorem init_ty (mem : Mem) (d : Data) (c : Ctx W) : (d.init bus mem c).1.ty = d.ty := by
  unfold Data.init
  split
  · split
    · rfl
    · split
      · dsimp only
        split
        · split <;> rfl
        · rfl
      · rfl
  · rfl

/-- what `Data::init` does to one object -/
theorem init_one (mem : Mem) (d : Data) (c : Ctx W) (p : Payload) (hp : d.entry.initVal = .val p) :
    (d.init bus mem c).2.1.log = c.log ++ (if MustInit d.entry.writable (p.bytes mem) (defaultOf mem d.entry) d.cache
      then [.write d.wr d.entry.index d.entry.subIndex (p.bytes mem)] else []) ∧
    ((d.init bus mem c).2.2 = .ok () ∨ ∃ code, (d.init bus mem c).2.2 = .throws (.device code)) ∧
    ((d.init bus mem c).2.2 = .ok () → (d.init bus mem c).1.cache = some (p.bytes mem) ∨
      (defaultOf mem d.entry ≠ none ∧ d.cache ≠ none ∧ d.cache ≠ defaultOf mem d.entry ∧ (d.init bus mem c).1.cache = d.cache)) := by
  have hchanged : d.changed mem = true ↔ (defaultOf mem d.entry ≠ none ∧ d.cache ≠ none ∧ d.cache ≠ defaultOf mem d.entry) := by
    unfold Data.changed defaultOf Data.cache
    cases hv : d.valid with
    | false => simp
    | true =>
      cases hdv : d.entry.defVal <;> simp
  unfold Data.init
  rw [hp]
  dsimp only
  by_cases hch : d.changed mem = true
  · rw [if_pos hch]
    obtain ⟨h1, h2, h3⟩ := hchanged.1 hch
    refine ⟨?_, .inl rfl, fun _ => .inr ⟨h1, h2, h3, rfl⟩⟩
    rw [if_neg]
    · simp
    · intro hm
      unfold MustInit at hm
      cases hdef : defaultOf mem d.entry with
      | none => exact h1 hdef
      | some dv =>
        rw [hdef] at hm h3
        rcases hm.2.2 with h | h
        · exact h2 h
        · exact h3 h
  · rw [if_neg hch]
    have hch' : defaultOf mem d.entry = none ∨ d.cache = none ∨ d.cache = defaultOf mem d.entry := by
      by_cases h1 : defaultOf mem d.entry = none
      · exact .inl h1
      · by_cases h2 : d.cache = none
        · exact .inr (.inl h2)
        · by_cases h3 : d.cache = defaultOf mem d.entry
          · exact .inr (.inr h3)
          · exact absurd (hchanged.2 ⟨h1, h2, h3⟩) hch
    have hcond : (!d.valid || decide (d.buffer ≠ p.bytes mem)) = true ↔ d.cache ≠ some (p.bytes mem) := by
      unfold Data.cache
      cases hv : d.valid <;> simp
    have hdiff : d.entry.initDiffers mem p = true ↔ (defaultOf mem d.entry = none ∨ defaultOf mem d.entry ≠ some (p.bytes mem)) := by
      unfold Entry.initDiffers defaultOf
      cases d.entry.defVal with
      | val q => simp only [decide_eq_true_eq, reduceCtorEq, false_or, ne_eq, Option.some.injEq]; exact ⟨fun h h' => h h'.symm, fun h h' => h h'.symm⟩
      | none => simp
      | empty t => simp
    by_cases hc : (!d.valid || decide (d.buffer ≠ p.bytes mem)) = true
    · rw [if_pos hc]
      have hc' := hcond.1 hc
      by_cases hw : (d.entry.writable && d.entry.initDiffers mem p) = true
      · rw [if_pos hw]
        simp only [Bool.and_eq_true] at hw
        have hm : MustInit d.entry.writable (p.bytes mem) (defaultOf mem d.entry) d.cache := by
          refine ⟨hw.1, ?_⟩
          cases hdef : defaultOf mem d.entry with
          | none => exact hc'
          | some dv =>
            have h1 := hdiff.1 hw.2
            rw [hdef] at h1 hch'
            simp only [reduceCtorEq, false_or, ne_eq, Option.some.injEq] at h1 hch'
            exact ⟨fun h => h1 h.symm, hch'⟩
        rw [if_pos hm]
        split
        · rename_i e he
          exact ⟨rfl, .inr ⟨e, rfl⟩, fun h => by cases h⟩
        · exact ⟨rfl, .inl rfl, fun _ => .inl rfl⟩
      · rw [if_neg hw]
        rw [if_neg]
        · exact ⟨by simp, .inl rfl, fun _ => .inl rfl⟩
        · intro hm
          apply hw
          simp only [Bool.and_eq_true]
          refine ⟨hm.1, hdiff.2 ?_⟩
          have hm2 := hm.2
          cases hdef : defaultOf mem d.entry with
          | none => exact .inl rfl
          | some dv =>
            rw [hdef] at hm2
            right
            simp only [ne_eq, Option.some.injEq]
            exact fun h => hm2.1 h.symm
    · rw [if_neg hc]
      have hc' : d.cache = some (p.bytes mem) := by
        by_cases h : d.cache = some (p.bytes mem)
        · exact h
        · exact absurd (hcond.2 h) hc
      rw [if_neg]
      · exact ⟨by simp, .inl rfl, fun _ => .inl hc'⟩
      · intro hm
        have hm2 := hm.2
        cases hdef : defaultOf mem d.entry with
        | none => rw [hdef] at hm2; exact hm2 hc'
        | some dv =>
          rw [hdef] at hm2 
          rw [hc'] at hm2
          simp only [reduceCtorEq, false_or, Option.some.injEq] at hm2
          exact hm2.1 hm2.2

theorem initNolock_one (mem : Mem) {s : Storage} (hcons : Consistent s) (c : Ctx W) (k : Key) (e : Entry) (he : s.dict.get k = some e) :
    (s.initNolock bus mem k e c).2.1.log = c.log ++ initWrites mem s (k, e) ∧
    ((s.initNolock bus mem k e c).2.2 = .ok () ∨ ∃ code, (s.initNolock bus mem k e c).2.2 = .throws (.device code)) ∧
    ((s.initNolock bus mem k e c).2.2 = .ok () → ∀ p, e.initVal = .val p → (s.initNolock bus mem k e c).1.cacheOf k = some (p.bytes mem) ∨
      (defaultOf mem e ≠ none ∧ s.cacheOf k ≠ none ∧ s.cacheOf k ≠ defaultOf mem e ∧ (s.initNolock bus mem k e c).1.cacheOf k = s.cacheOf k)) ∧
    (∀ k', k' ≠ k → (s.initNolock bus mem k e c).1.data k' = s.data k') := by
  unfold Storage.initNolock initWrites
  split
  · rename_i p hp
    have hde : ((s.data k).getD (Data.new e p.ty)).entry = e := by
      cases hs : s.data k with
      | none => rfl
      | some d =>
        have := hcons k d hs
        rw [he] at this
        cases this; rfl
    have hcache : ((s.data k).getD (Data.new e p.ty)).cache = s.cacheOf k := by
      unfold Storage.cacheOf
      cases s.data k <;> rfl
    have hdlg : ((s.data k).getD (Data.new e p.ty)).wr = s.writeDlg k := by
      unfold Storage.writeDlg
      cases s.data k <;> rfl
    have h := init_one bus mem ((s.data k).getD (Data.new e p.ty)) c p (by rw [hde]; exact hp)
    rw [hde, hcache, hdlg] at h
    simp only [hp]
    refine ⟨h.1, h.2.1, ?_, ?_⟩
    · intro hok p' hp'
      cases hp'
      have e1 : ∀ d, (s.put k d).cacheOf k = d.cache := by intro d; simp [Storage.cacheOf, Storage.put]
      rw [e1]
      exact h.2.2 hok
    · intro k' hk'
      simp [Storage.put, hk']
  · rename_i hno
    refine ⟨?_, .inl rfl, ?_, fun _ _ => rfl⟩
    · first
      | (split
         · rename_i p hp; exact absurd hp (hno p)
         · simp)
      | simp
    · intro _ p hp; exact absurd hp (hno p)

theorem initNolock_cons (mem : Mem) {s : Storage} (hcons : Consistent s) (c : Ctx W) (k : Key) (e : Entry) (he : s.dict.get k = some e) :
    Consistent (s.initNolock bus mem k e c).1 ∧ (s.initNolock bus mem k e c).1.dict = s.dict := by
  unfold Storage.initNolock
  split
  · rename_i p hp
    have hde : ((s.data k).getD (Data.new e p.ty)).entry = e := by
      cases hs : s.data k with
      | none => rfl
      | some d =>
        have := hcons k d hs
        rw [he] at this
        cases this; rfl
    refine ⟨put_consistent hcons ?_, rfl⟩
    have := (init_keeps bus s.dict ((s.data k).getD (Data.new e p.ty)) c ⟨k, by rw [hde]; exact get_mem he⟩ mem).1
    rw [this, hde]; exact he
  · exact ⟨hcons, rfl⟩

theorem initAllFrom_writes (mem : Mem) : ∀ (l : Dict), (l.map (·.1)).Nodup → ∀ {s : Storage}, Consistent s →
    (∀ p ∈ l, s.dict.get p.1 = some p.2) → ∀ c : Ctx W,
    ∃ done todo, l = done ++ todo ∧ (Storage.initAllFrom bus mem l s c).2.1.log = c.log ++ done.flatMap (initWrites mem s) ∧
      ((Storage.initAllFrom bus mem l s c).2.2 = .ok () ∨ ∃ code, (Storage.initAllFrom bus mem l s c).2.2 = .throws (.device code)) ∧
      ((Storage.initAllFrom bus mem l s c).2.2 = .ok () → todo = [] ∧ ∀ k e p, (k, e) ∈ l → e.initVal = .val p →
        (Storage.initAllFrom bus mem l s c).1.cacheOf k = some (p.bytes mem) ∨
        (defaultOf mem e ≠ none ∧ s.cacheOf k ≠ none ∧ s.cacheOf k ≠ defaultOf mem e ∧
          (Storage.initAllFrom bus mem l s c).1.cacheOf k = s.cacheOf k)) ∧
      (∀ k, k ∉ l.map (·.1) → (Storage.initAllFrom bus mem l s c).1.data k = s.data k) := by
  intro l
  induction l with
  | nil => intro _ s _ _ c; exact ⟨[], [], rfl, by simp [Storage.initAllFrom], .inl rfl, fun _ => ⟨rfl, fun _ _ _ h => by simp at h⟩, fun _ _ => rfl⟩
  | cons q l ih =>
    intro hn s hcons hl c
    obtain ⟨k, e⟩ := q
    simp only [List.map_cons, List.nodup_cons] at hn
    have he := hl (k, e) (by simp)
    have h1 := initNolock_one bus mem hcons c k e he
    have h2 := initNolock_cons bus mem hcons c k e he
    unfold Storage.initAllFrom
    dsimp only
    split
    · rename_i hok
      obtain ⟨d1, d2, g1, g2, g3, g4, g5⟩ := ih hn.2 h2.1 (fun p hp => by rw [h2.2]; exact hl p (by simp [hp])) (s.initNolock bus mem k e c).2.1
      have hsame : ∀ p ∈ l, (s.initNolock bus mem k e c).1.data p.1 = s.data p.1 := by
        intro p hp
        apply h1.2.2.2
        intro h
        apply hn.1
        rw [← h]
        exact List.mem_map.2 ⟨p, hp, rfl⟩
      have hcs : ∀ p ∈ l, (s.initNolock bus mem k e c).1.cacheOf p.1 = s.cacheOf p.1 := fun p hp => by
        unfold Storage.cacheOf; rw [hsame p hp]
      have hiw : d1.flatMap (initWrites mem (s.initNolock bus mem k e c).1) = d1.flatMap (initWrites mem s) := by
        rw [List.flatMap_def, List.flatMap_def]
        congr 1
        apply List.map_congr_left
        intro p hp
        have hp' : p ∈ l := by rw [g1]; simp [hp]
        unfold initWrites Storage.writeDlg
        rw [hcs p hp', hsame p hp']
      refine ⟨(k, e) :: d1, d2, by rw [g1]; rfl, ?_, g3, ?_, ?_⟩
      · rw [g2, h1.1, hiw]; simp
      · intro hok2
        refine ⟨(g4 hok2).1, ?_⟩
        intro k' e' p hm hp
        simp only [List.mem_cons, Prod.mk.injEq] at hm
        rcases hm with ⟨rfl, rfl⟩ | hm
        · have hk : (Storage.initAllFrom bus mem l (s.initNolock bus mem k' e' c).1 (s.initNolock bus mem k' e' c).2.1).1.cacheOf k' =
              (s.initNolock bus mem k' e' c).1.cacheOf k' := by
            unfold Storage.cacheOf; rw [g5 k' hn.1]
          rw [hk]
          exact h1.2.2.1 (by rw [hok]) p hp
        · have := (g4 hok2).2 k' e' p hm hp
          rw [hcs (k', e') hm] at this
          exact this
      · intro k' hk'
        simp only [List.map_cons, List.mem_cons, not_or] at hk'
        rw [g5 k' hk'.2, h1.2.2.2 k' hk'.1]
    · rename_i hno
      refine ⟨[(k, e)], l, rfl, by rw [h1.1]; simp, h1.2.1, fun h => absurd h (hno ()), ?_⟩
      intro k' hk'
      simp only [List.map_cons, List.mem_cons, not_or] at hk'
      exact h1.2.2.2 k' hk'.1

end Verif.OD
