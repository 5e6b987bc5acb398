import Verif.Lemmas.Storage

/-!
# Lemmas: the type of an object in use never changes
-/

set_option linter.unusedSimpArgs false

namespace Verif.OD
open Verif Verif.Spec

variable {W : Type} (bus : Bus W)

theorem put_same (s : Storage) (k : Key) (d : Data) : (s.put k d).data k = some d := by simp [Storage.put]
theorem put_other (s : Storage) {k k' : Key} (d : Data) (h : k' ≠ k) : (s.put k d).data k' = s.data k' := by simp [Storage.put, h]

theorem store_ty {d d' : Data} {v : List Byte} (h : d.store v = some d') : d'.ty = d.ty := by
  unfold Data.store at h
  dsimp only at h
  split at h
  · cases h; exact (allocate_facts d).1
  · split at h
    · cases h
    · cases h; exact (allocate_facts d).1

theorem storeWrite_ty (d : Data) (c : Ctx W) (v : List Byte) : (d.storeWrite bus c v).1.ty = d.ty := by
  unfold Data.storeWrite
  split
  · rfl
  · rename_i d' hs
    dsimp only
    split <;> exact store_ty hs

theorem get_ty (d : Data) (c : Ctx W) (cached : Bool) : (d.get bus cached c).1.ty = d.ty := by
  unfold Data.get
  split
  · rfl
  · split
    · dsimp only
      split <;> exact (allocate_facts d).1
    · rfl

theorem set_ty (d : Data) (c : Ctx W) (v : List Byte) : (d.set bus v c).1.ty = d.ty := by
  unfold Data.set
  split
  · split
    · split <;> rfl
    · rfl
    · rfl
  · exact storeWrite_ty bus d c v

theorem setCached_ty (d : Data) (c : Ctx W) (v : List Byte) : (d.setCached bus v c).1.ty = d.ty := by
  unfold Data.setCached
  split
  · rfl
  · rfl
  · split
    · rfl
    · exact storeWrite_ty bus d c v

theorem reset_ty (mem : Mem) (d : Data) : (d.reset mem).ty = d.ty := by
  unfold Data.reset
  split
  · split <;> rfl
  · rfl

theorem forceWrite_facts (d : Data) (c : Ctx W) :
    (d.forceWrite bus c).1.ty = d.ty ∧ (d.forceWrite bus c).1.rd = d.rd ∧ (d.forceWrite bus c).1.wr = d.wr := by
  unfold Data.forceWrite
  by_cases h : (!d.valid && d.entry.readable) = true
  · simp only [h, if_true]
    cases hr : (d.callRead bus c).2.2 with
    | some e => dsimp only; exact ⟨rfl, rfl, rfl⟩
    | none =>
      dsimp only
      split
      · split <;> exact ⟨rfl, rfl, rfl⟩
      · exact ⟨rfl, rfl, rfl⟩
  · simp only [h, Bool.false_eq_true, if_false]
    split
    · split <;> exact ⟨rfl, rfl, rfl⟩
    · exact ⟨rfl, rfl, rfl⟩

/-- the type of every object in use stays -/
def TypesStay (s s' : Storage) : Prop := ∀ k d, s.data k = some d → ∃ d', s'.data k = some d' ∧ d'.ty = d.ty

theorem TypesStay.refl (s : Storage) : TypesStay s s := fun _ d h => ⟨d, h, rfl⟩
theorem TypesStay.trans {a b c : Storage} (h : TypesStay a b) (h' : TypesStay b c) : TypesStay a c := by
  intro k d hd
  obtain ⟨d1, h1, h2⟩ := h k d hd
  obtain ⟨d2, h3, h4⟩ := h' k d1 h1
  exact ⟨d2, h3, h4.trans h2⟩

theorem typesStay_put {s : Storage} {k : Key} {d' : Data} (h : ∀ d, s.data k = some d → d'.ty = d.ty) : TypesStay s (s.put k d') := by
  intro k' d hd
  by_cases hk : k' = k
  · subst hk
    exact ⟨d', by simp [Storage.put], h d hd⟩
  · exact ⟨d, by simp [Storage.put, hk, hd], rfl⟩

theorem initNolock_types (mem : Mem) (s : Storage) (c : Ctx W) (k : Key) (e : Entry) : TypesStay s (s.initNolock bus mem k e c).1 := by
  unfold Storage.initNolock
  split
  · refine typesStay_put ?_
    intro d hd
    rw [init_ty, hd]; rfl
  · exact .refl s

theorem initAllFrom_types (mem : Mem) : ∀ (l : Dict) (s : Storage) (c : Ctx W), TypesStay s (Storage.initAllFrom bus mem l s c).1 := by
  intro l
  induction l with
  | nil => intro s c; exact .refl s
  | cons p l ih =>
    intro s c
    obtain ⟨k, e⟩ := p
    unfold Storage.initAllFrom
    dsimp only
    split
    · exact (initNolock_types bus mem s c k e).trans (ih _ _)
    · exact initNolock_types bus mem s c k e

theorem entry_types (mem : Mem) (s : Storage) (k : Key) (ty : Ty) : TypesStay s (s.entry mem k ty).1 := by
  unfold Storage.entry
  split
  · split <;> exact .refl s
  · rename_i hn
    split
    · exact .refl s
    · split
      · refine typesStay_put ?_
        intro d hd; rw [hn] at hd; cases hd
      · exact .refl s
      · exact .refl s

theorem mapKey_types (mem : Mem) (s : Storage) (c : Ctx W) (k : Key) (e : Entry) (r w : Option Nat) : TypesStay s (s.mapKey bus mem k e r w c).1 := by
  unfold Storage.mapKey
  have hany : ∀ (od : Outcome Err Data) (d : Data), od = (match s.data k with
      | some d => .ok d
      | none => match e.defVal.type with
        | none => .throws .badCast
        | some ty => .ok ((Data.new e ty).reset mem)) → od = .ok d → ∀ d0, s.data k = some d0 → d.ty = d0.ty := by
    intro od d h h' d0 h0
    rw [h0] at h
    rw [h] at h'
    injection h' with h'
    rw [h']
  dsimp only
  split
  · exact .refl s
  · exact .refl s
  · rename_i d hd
    have hd := hany _ d rfl hd
    split
    · rename_i r w
      have hf := (forceWrite_facts bus (d.setDelegates .dev (.pdo w)) c).1
      split <;> (refine typesStay_put (fun d0 h0 => ?_); rw [← hd d0 h0]; exact hf)
    · rename_i w
      have hf := (forceWrite_facts bus (d.setDelegates .dev (.pdo w)) c).1
      split <;> (refine typesStay_put (fun d0 h0 => ?_); rw [← hd d0 h0]; exact hf)
    · exact typesStay_put (fun d0 h0 => hd d0 h0)
    · exact typesStay_put (fun d0 h0 => hd d0 h0)

theorem step_types (mem : Mem) (s : Storage) (c : Ctx W) (o : SOp) : TypesStay s (s.step bus mem c o).1 := by
  cases o with
  | «open» k ty => exact entry_types mem s k ty
  | get k cached =>
    unfold Storage.step
    dsimp only
    split
    · exact .refl s
    · rename_i d hd
      exact typesStay_put (fun d0 h0 => by rw [hd] at h0; cases h0; exact get_ty bus d c cached)
  | set k v =>
    unfold Storage.step
    dsimp only
    split
    · exact .refl s
    · rename_i d hd
      exact typesStay_put (fun d0 h0 => by rw [hd] at h0; cases h0; exact set_ty bus d c v)
  | setCached k v =>
    unfold Storage.step
    dsimp only
    split
    · exact .refl s
    · rename_i d hd
      exact typesStay_put (fun d0 h0 => by rw [hd] at h0; cases h0; exact setCached_ty bus d c v)
  | init k =>
    unfold Storage.step Storage.init
    dsimp only
    split
    · exact .refl s
    · exact initNolock_types bus mem s c k _
  | initAll => exact initAllFrom_types bus mem s.dict s c
  | reset =>
    intro k d hd
    exact ⟨d.reset mem, by simp [Storage.step, Storage.reset, hd], reset_ty mem d⟩
  | map i sub r w =>
    unfold Storage.step Storage.map
    dsimp only
    split
    · exact mapKey_types bus mem s c _ _ r w
    · split
      · exact .refl s
      · split
        · exact mapKey_types bus mem s c _ _ r w
        · exact .refl s

theorem run_types (mem : Mem) (ops : List SOp) : ∀ (s : Storage) (c : Ctx W), TypesStay s (s.run bus mem c ops).1 := by
  induction ops with
  | nil => intro s c; exact .refl s
  | cons o os ih =>
    intro s c
    unfold Storage.run
    exact (step_types bus mem s c o).trans (ih _ _)

end Verif.OD
