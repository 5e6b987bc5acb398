import Verif.Lemmas.StorageBus
import Verif.Lemmas.ObjectText
import Verif.Spec.Services

/-!
# Lemmas for C120
-/

set_option linter.unusedSimpArgs false

namespace Verif.Spec.Serv
open Verif Verif.OD Verif.Sdo Verif.Chan Verif.Spec Verif.Spec.Sdo Verif.Spec.Chan Verif.Spec.Wire

variable {P : Type}

/-! ## the services use the delegates of the node only -/

section
variable {W V : Type} (bus : Text → Bus W) (bus' : Text → Bus V) (B : W → Prop) (B' : V → Prop) (G : W → V → Prop)
  (hr : ∀ n d e b w, B w → B ((bus n).read d e b w).1) (hw : ∀ n d e v w, B w → B ((bus n).write d e v w).1)
  (gr : ∀ n d e b w v, G w v → B ((bus n).read d e b w).1 ∨ B' ((bus' n).read d e b v).1 ∨
    (G ((bus n).read d e b w).1 ((bus' n).read d e b v).1 ∧ ((bus n).read d e b w).2 = ((bus' n).read d e b v).2))
  (gw : ∀ n d e b w v, G w v → B ((bus n).write d e b w).1 ∨ B' ((bus' n).write d e b v).1 ∨
    (G ((bus n).write d e b w).1 ((bus' n).write d e b v).1 ∧ ((bus n).write d e b w).2 = ((bus' n).write d e b v).2))

include hr in
theorem keep_readText (rp : RealPrinter) (mem : Mem) (s : Storage) (c : Ctx W) (node : Text) (k : Key) (cached : Bool) (h : B c.w) :
    B (s.readText (bus node) rp mem c k cached).2.1.w := by
  have := fun d => keep_get (bus node) B (hr node) cached d c h
  unfold Storage.readText
  split
  · exact h
  · split
    · exact h
    · dsimp only
      split
      · exact h
      · exact h
      · split <;> exact this _

include hw in
theorem keep_writeText (rp : RealParser) (mem : Mem) (s : Storage) (c : Ctx W) (node : Text) (k : Key) (cached : Bool) (v : Text) (h : B c.w) :
    B (s.writeText (bus node) rp mem c k cached v).2.1.w := by
  have h1 := fun d v => keep_set (bus node) B (hw node) v d c h
  have h2 := fun d v => keep_setCached (bus node) B (hw node) v d c h
  unfold Storage.writeText
  split
  · exact h
  · split
    · exact h
    · dsimp only
      split
      · exact h
      · exact h
      · split
        · exact h
        · exact h
        · split
          · exact h
          · exact h
          · split
            · exact h2 _ _
            · exact h1 _ _

include hr in
theorem keep_getObject (rp : RealPrinter) (info : Err → Text) (mem : Mem) (ns : Nodes) (c : Ctx W) (node object : Text) (cached : Bool) (h : B c.w) :
    B (getObject bus rp info mem ns c node object cached).2.1.w := by
  unfold getObject
  split
  · exact h
  · exact keep_readText bus B hr rp mem _ c node _ cached h

include hw in
theorem keep_setObject (rp : RealParser) (info : Err → Text) (mem : Mem) (ns : Nodes) (c : Ctx W) (node object v : Text) (cached : Bool) (h : B c.w) :
    B (setObject bus rp info mem ns c node object v cached).2.1.w := by
  unfold setObject
  split
  · exact h
  · exact keep_writeText bus B hw rp mem _ c node _ cached v h

include gr in
theorem alike_readText (rp : RealPrinter) (mem : Mem) (s : Storage) {c : Ctx W} {c' : Ctx V} (node : Text) (k : Key) (cached : Bool)
    (h : Twin G c c') : Alike B B' G (s.readText (bus node) rp mem c k cached) (s.readText (bus' node) rp mem c' k cached) := by
  have := fun d => alike_get (bus node) (bus' node) B B' G (gr node) cached d h
  unfold Alike at *
  unfold Storage.readText
  cases s.dict.get k with
  | none => exact Or.inr (Or.inr ⟨rfl, h, rfl⟩)
  | some e =>
    dsimp only
    cases typeOf e.dataType with
    | none => exact Or.inr (Or.inr ⟨rfl, h, rfl⟩)
    | some ty =>
      dsimp only
      cases (s.entry mem k ty).2 with
      | throws x => exact Or.inr (Or.inr ⟨rfl, h, rfl⟩)
      | ub => exact Or.inr (Or.inr ⟨rfl, h, rfl⟩)
      | ok d =>
        have := this d
        dsimp only
        grind

include gw in
theorem alike_writeText (rp : RealParser) (mem : Mem) (s : Storage) {c : Ctx W} {c' : Ctx V} (node : Text) (k : Key) (cached : Bool) (v : Text)
    (h : Twin G c c') : Alike B B' G (s.writeText (bus node) rp mem c k cached v) (s.writeText (bus' node) rp mem c' k cached v) := by
  have h1 := fun d v => alike_set (bus node) (bus' node) B B' G (gw node) v d h
  have h2 := fun d v => alike_setCached (bus node) (bus' node) B B' G (gw node) v d h
  unfold Alike at *
  unfold Storage.writeText
  cases s.dict.get k with
  | none => exact Or.inr (Or.inr ⟨rfl, h, rfl⟩)
  | some e =>
    dsimp only
    cases typeOf e.dataType with
    | none => exact Or.inr (Or.inr ⟨rfl, h, rfl⟩)
    | some ty =>
      dsimp only
      cases (s.entry mem k ty).2 with
      | throws x => exact Or.inr (Or.inr ⟨rfl, h, rfl⟩)
      | ub => exact Or.inr (Or.inr ⟨rfl, h, rfl⟩)
      | ok d =>
        cases readValue rp e.dataType (some v) with
        | throws x => exact Or.inr (Or.inr ⟨rfl, h, rfl⟩)
        | ub => exact Or.inr (Or.inr ⟨rfl, h, rfl⟩)
        | ok any =>
          dsimp only
          cases any.get mem ty with
          | throws x => exact Or.inr (Or.inr ⟨rfl, h, rfl⟩)
          | ub => exact Or.inr (Or.inr ⟨rfl, h, rfl⟩)
          | ok bs =>
            have h1 := h1 d bs
            have h2 := h2 d bs
            dsimp only
            cases cached with
            | true => simp only [if_true]; grind
            | false => simp only [Bool.false_eq_true, if_false]; grind

include gr in
theorem alike_getObject (rp : RealPrinter) (info : Err → Text) (mem : Mem) (ns : Nodes) {c : Ctx W} {c' : Ctx V} (node object : Text) (cached : Bool)
    (h : Twin G c c') : Alike B B' G (getObject bus rp info mem ns c node object cached) (getObject bus' rp info mem ns c' node object cached) := by
  unfold getObject
  cases ns.find node with
  | none => exact Or.inr (Or.inr ⟨rfl, h, rfl⟩)
  | some s =>
    rcases alike_readText bus bus' B B' G gr rp mem s node (Key.fromText object) cached h with h1 | h1 | ⟨h1, h2, h3⟩
    · exact Or.inl h1
    · exact Or.inr (Or.inl h1)
    · refine Or.inr (Or.inr ⟨?_, h2, ?_⟩)
      · dsimp only; rw [h1]
      · dsimp only; rw [h3]

include gw in
theorem alike_setObject (rp : RealParser) (info : Err → Text) (mem : Mem) (ns : Nodes) {c : Ctx W} {c' : Ctx V} (node object v : Text) (cached : Bool)
    (h : Twin G c c') : Alike B B' G (setObject bus rp info mem ns c node object v cached) (setObject bus' rp info mem ns c' node object v cached) := by
  unfold setObject
  cases ns.find node with
  | none => exact Or.inr (Or.inr ⟨rfl, h, rfl⟩)
  | some s =>
    rcases alike_writeText bus bus' B B' G gw rp mem s node (Key.fromText object) cached v h with h1 | h1 | ⟨h1, h2, h3⟩
    · exact Or.inl h1
    · exact Or.inr (Or.inl h1)
    · refine Or.inr (Or.inr ⟨?_, h2, ?_⟩)
      · dsimp only; rw [h1]
      · dsimp only; rw [h3]

end

/-! ## all devices at once -/

/-- some access did not come to its end -/
def Hung (w : Text → Wire P) : Prop := ∃ n, (w n).hung = true

/-- some access was not supported -/
def Unfair (v : Text → Memory P) : Prop := ∃ n, (v n).fair = false

/-- the bus and the memories tell the same -/
def Matches (sid : Text → Header) (w : Text → Wire P) (v : Text → Memory P) : Prop := ∀ n, Match (sid n) (w n) (v n)

theorem wiredAll_read_hung (cfg : Text → Config) (sid : Text → Header) (other : Text → Bus P) (n : Text) (d : Dlg) (e : Entry) (b : List Byte)
    (w : Text → Wire P) (h : Hung w) : Hung ((wiredAll cfg sid other n).read d e b w).1 := by
  obtain ⟨m, hm⟩ := h
  refine ⟨m, ?_⟩
  simp only [wiredAll, of]
  split
  · rename_i h; subst h; exact wired_read_hung _ _ _ d e b _ hm
  · exact hm

theorem wiredAll_write_hung (cfg : Text → Config) (sid : Text → Header) (other : Text → Bus P) (n : Text) (d : Dlg) (e : Entry) (b : List Byte)
    (w : Text → Wire P) (h : Hung w) : Hung ((wiredAll cfg sid other n).write d e b w).1 := by
  obtain ⟨m, hm⟩ := h
  refine ⟨m, ?_⟩
  simp only [wiredAll, of]
  split
  · rename_i h; subst h; exact wired_write_hung _ _ _ d e b _ hm
  · exact hm

theorem directAll_read_unfair (cfg : Text → Config) (other : Text → Bus P) (n : Text) (d : Dlg) (e : Entry) (b : List Byte)
    (w : Text → Memory P) (h : Unfair w) : Unfair ((directAll cfg other n).read d e b w).1 := by
  obtain ⟨m, hm⟩ := h
  refine ⟨m, ?_⟩
  simp only [directAll, of]
  split
  · rename_i h; subst h; exact direct_read_unfair _ _ d e b _ hm
  · exact hm

theorem directAll_write_unfair (cfg : Text → Config) (other : Text → Bus P) (n : Text) (d : Dlg) (e : Entry) (b : List Byte)
    (w : Text → Memory P) (h : Unfair w) : Unfair ((directAll cfg other n).write d e b w).1 := by
  obtain ⟨m, hm⟩ := h
  refine ⟨m, ?_⟩
  simp only [directAll, of]
  split
  · rename_i h; subst h; exact direct_write_unfair _ _ d e b _ hm
  · exact hm

section
variable (cfg : Text → Config) (hcfg : ∀ n, (cfg n).Legal) (sid : Text → Header) (other : Text → Bus P)

include hcfg in
theorem matches_read (n : Text) (d : Dlg) (e : Entry) (b : List Byte) (w : Text → Wire P) (v : Text → Memory P) (h : Matches sid w v) :
    Hung ((wiredAll cfg sid other n).read d e b w).1 ∨ Unfair ((directAll cfg other n).read d e b v).1 ∨
      (Matches sid ((wiredAll cfg sid other n).read d e b w).1 ((directAll cfg other n).read d e b v).1 ∧
        ((wiredAll cfg sid other n).read d e b w).2 = ((directAll cfg other n).read d e b v).2) := by
  rcases match_read (cfg n) (hcfg n) (sid n) (other n) d e b (w n) (v n) (h n) with h1 | h1 | ⟨h1, h2⟩
  · exact Or.inl ⟨n, by simp only [wiredAll, of, if_true]; exact h1⟩
  · exact Or.inr (Or.inl ⟨n, by simp only [directAll, of, if_true]; exact h1⟩)
  · refine Or.inr (Or.inr ⟨?_, h2⟩)
    intro m
    simp only [wiredAll, directAll, of]
    by_cases hm : m = n
    · subst hm; simpa using h1
    · simpa [hm] using h m

include hcfg in
theorem matches_write (n : Text) (d : Dlg) (e : Entry) (b : List Byte) (w : Text → Wire P) (v : Text → Memory P) (h : Matches sid w v) :
    Hung ((wiredAll cfg sid other n).write d e b w).1 ∨ Unfair ((directAll cfg other n).write d e b v).1 ∨
      (Matches sid ((wiredAll cfg sid other n).write d e b w).1 ((directAll cfg other n).write d e b v).1 ∧
        ((wiredAll cfg sid other n).write d e b w).2 = ((directAll cfg other n).write d e b v).2) := by
  rcases match_write (cfg n) (hcfg n) (sid n) (other n) d e b (w n) (v n) (h n) with h1 | h1 | ⟨h1, h2⟩
  · exact Or.inl ⟨n, by simp only [wiredAll, of, if_true]; exact h1⟩
  · exact Or.inr (Or.inl ⟨n, by simp only [directAll, of, if_true]; exact h1⟩)
  · refine Or.inr (Or.inr ⟨?_, h2⟩)
    intro m
    simp only [wiredAll, directAll, of]
    by_cases hm : m = n
    · subst hm; simpa using h1
    · simpa [hm] using h m

theorem serve_hung (t : Texts) (mem : Mem) (ns : Nodes) (c : Ctx (Text → Wire P)) (q : Request) (h : Hung c.w) :
    Hung (serve (wiredAll cfg sid other) changeWired t mem ns c q).2.1.w := by
  cases q with
  | get node object cached => exact keep_getObject _ Hung (wiredAll_read_hung cfg sid other) _ _ mem ns c node object cached h
  | set node object v cached => exact keep_setObject _ Hung (wiredAll_write_hung cfg sid other) _ _ mem ns c node object v cached h
  | deviceChanges node o v =>
    obtain ⟨m, hm⟩ := h
    refine ⟨m, ?_⟩
    simp only [serve, changeWired]
    split <;> exact hm

theorem serve_unfair (t : Texts) (mem : Mem) (ns : Nodes) (c : Ctx (Text → Memory P)) (q : Request) (h : Unfair c.w) :
    Unfair (serve (directAll cfg other) changeDirect t mem ns c q).2.1.w := by
  cases q with
  | get node object cached => exact keep_getObject _ Unfair (directAll_read_unfair cfg other) _ _ mem ns c node object cached h
  | set node object v cached => exact keep_setObject _ Unfair (directAll_write_unfair cfg other) _ _ mem ns c node object v cached h
  | deviceChanges node o v =>
    obtain ⟨m, hm⟩ := h
    refine ⟨m, ?_⟩
    simp only [serve, changeDirect]
    split <;> exact hm

theorem serveAll_hung (t : Texts) (mem : Mem) (qs : List Request) (ns : Nodes) (c : Ctx (Text → Wire P)) (h : Hung c.w) :
    Hung (serveAll (wiredAll cfg sid other) changeWired t mem ns c qs).2.1.w := by
  induction qs generalizing ns c with
  | nil => exact h
  | cons q qs ih => exact ih _ _ (serve_hung cfg sid other t mem ns c q h)

theorem serveAll_unfair (t : Texts) (mem : Mem) (qs : List Request) (ns : Nodes) (c : Ctx (Text → Memory P)) (h : Unfair c.w) :
    Unfair (serveAll (directAll cfg other) changeDirect t mem ns c qs).2.1.w := by
  induction qs generalizing ns c with
  | nil => exact h
  | cons q qs ih => exact ih _ _ (serve_unfair cfg other t mem ns c q h)

include hcfg in
theorem alike_serve (t : Texts) (mem : Mem) (ns : Nodes) {c : Ctx (Text → Wire P)} {c' : Ctx (Text → Memory P)} (q : Request) (h : Twin (Matches sid) c c') :
    Alike Hung Unfair (Matches sid) (serve (wiredAll cfg sid other) changeWired t mem ns c q) (serve (directAll cfg other) changeDirect t mem ns c' q) := by
  cases q with
  | get node object cached =>
    rcases alike_getObject _ _ Hung Unfair (Matches sid) (matches_read cfg hcfg sid other) t.print t.info mem ns node object cached h with
      h1 | h1 | ⟨h1, h2, h3⟩
    · exact Or.inl h1
    · exact Or.inr (Or.inl h1)
    · exact Or.inr (Or.inr ⟨h1, h2, congrArg some h3⟩)
  | set node object v cached =>
    rcases alike_setObject _ _ Hung Unfair (Matches sid) (matches_write cfg hcfg sid other) t.parse t.info mem ns node object v cached h with
      h1 | h1 | ⟨h1, h2, h3⟩
    · exact Or.inl h1
    · exact Or.inr (Or.inl h1)
    · exact Or.inr (Or.inr ⟨h1, h2, congrArg some h3⟩)
  | deviceChanges node o v =>
    refine Or.inr (Or.inr ⟨rfl, ⟨?_, h.2⟩, rfl⟩)
    intro m
    obtain ⟨⟨a1, a2, a3, a4, a5, a6⟩, b, e⟩ := h.1 m
    simp only [serve, changeWired, changeDirect]
    by_cases hm : m = node
    · simp only [hm, if_true] at *
      exact ⟨⟨a1, a2, a3, a4, a5, by rw [a6]⟩, b, e⟩
    · simp only [hm, if_false]
      exact ⟨⟨a1, a2, a3, a4, a5, a6⟩, b, e⟩

include hcfg in
theorem alike_serveAll (t : Texts) (mem : Mem) (qs : List Request) (ns : Nodes) {c : Ctx (Text → Wire P)} {c' : Ctx (Text → Memory P)}
    (h : Twin (Matches sid) c c') :
    Alike Hung Unfair (Matches sid) (serveAll (wiredAll cfg sid other) changeWired t mem ns c qs) (serveAll (directAll cfg other) changeDirect t mem ns c' qs) := by
  induction qs generalizing ns c c' with
  | nil => exact Or.inr (Or.inr ⟨rfl, h, rfl⟩)
  | cons q qs ih =>
    rcases alike_serve cfg hcfg sid other t mem ns q h with h1 | h1 | ⟨h1, h2, h3⟩
    · exact Or.inl (serveAll_hung cfg sid other t mem qs _ _ h1)
    · exact Or.inr (Or.inl (serveAll_unfair cfg other t mem qs _ _ h1))
    · have := ih (serve (wiredAll cfg sid other) changeWired t mem ns c q).1 h2
      unfold Alike at this ⊢
      simp only [serveAll]
      rw [h1] at this ⊢
      rw [h3]
      rcases this with h4 | h4 | ⟨h4, h5, h6⟩
      · exact Or.inl h4
      · exact Or.inr (Or.inl h4)
      · exact Or.inr (Or.inr ⟨h4, h5, by rw [h6]⟩)

end

/-! ## what the services do to a storage -/

/-- the records of one storage describe the objects of its dictionary -/
def Good (s : Storage) : Prop := ∀ k d, s.data k = some d → s.dict.get k = some d.entry

theorem make_entry (mem : Mem) (s : Storage) (e : Entry) (ty : Ty) (d : Data) (h : s.make mem e ty = .ok d) : d.entry = e := by
  unfold Storage.make at h
  grind [Data.ofVal, Data.new]

theorem entry_good (mem : Mem) (s : Storage) (k : Key) (ty : Ty) (h : Good s) :
    Good (s.entry mem k ty).1 ∧ (s.entry mem k ty).1.dict = s.dict ∧ (∀ k', k' ≠ k → (s.entry mem k ty).1.data k' = s.data k') ∧
    (∀ d, (s.entry mem k ty).2 = .ok d → s.dict.get k = some d.entry) := by
  unfold Storage.entry
  cases hd : s.data k with
  | some d =>
    dsimp only
    split
    · refine ⟨h, rfl, fun _ _ => rfl, fun d' hd' => ?_⟩
      cases hd'
      exact h k d hd
    · exact ⟨h, rfl, fun _ _ => rfl, fun d' hd' => by cases hd'⟩
  | none =>
    dsimp only
    cases he : s.dict.get k with
    | none => exact ⟨h, rfl, fun _ _ => rfl, fun d' hd' => by cases hd'⟩
    | some e =>
      dsimp only
      cases hm : s.make mem e ty with
      | throws x => exact ⟨h, rfl, fun _ _ => rfl, fun d' hd' => by cases hd'⟩
      | ub => exact ⟨h, rfl, fun _ _ => rfl, fun d' hd' => by cases hd'⟩
      | ok d =>
        have := make_entry mem s e ty d hm
        refine ⟨?_, rfl, ?_, ?_⟩
        · intro k' d' hk
          simp only [Storage.put] at hk ⊢
          split at hk
          · rename_i hkk; subst hkk; cases hk; rw [he, this]
          · exact h k' d' hk
        · intro k' hk
          simp only [Storage.put, hk, if_false]
        · intro d' hd'
          cases hd'
          rw [this]

theorem put_good (s : Storage) (k : Key) (d : Data) (h : Good s) (hd : s.dict.get k = some d.entry) : Good (s.put k d) := by
  intro k' d' hk
  simp only [Storage.put] at hk ⊢
  split at hk
  · rename_i hkk; subst hkk; cases hk; exact hd
  · exact h k' d' hk

section
variable {W : Type} (bus : Bus W)

theorem allocate_same (d : Data) : d.allocate.entry = d.entry ∧ d.allocate.ty = d.ty ∧ d.allocate.rd = d.rd ∧ d.allocate.wr = d.wr := by
  unfold Data.allocate
  grind

theorem store_same (d d' : Data) (v : List Byte) (h : d.store v = some d') : d'.entry = d.entry ∧ d'.ty = d.ty ∧ d'.rd = d.rd ∧ d'.wr = d.wr := by
  have := allocate_same d
  unfold Data.store at h
  grind

theorem get_same (cached : Bool) (d : Data) (c : Ctx W) :
    (d.get bus cached c).1.entry = d.entry ∧ (d.get bus cached c).1.ty = d.ty ∧ (d.get bus cached c).1.rd = d.rd ∧ (d.get bus cached c).1.wr = d.wr := by
  have := allocate_same d
  unfold Data.get Data.callRead
  grind

theorem storeWrite_same (d : Data) (c : Ctx W) (v : List Byte) : (d.storeWrite bus c v).1.entry = d.entry ∧
    ((d.storeWrite bus c v).2.1 = c ∨ ∃ b, (d.storeWrite bus c v).2.1.w = (bus.write d.wr d.entry b c.w).1) := by
  unfold Data.storeWrite
  cases h : d.store v with
  | none => exact ⟨rfl, Or.inl rfl⟩
  | some d' =>
    obtain ⟨h1, -, -, h4⟩ := store_same d d' v h
    dsimp only [Data.callWrite]
    rw [h1, h4]
    split
    · exact ⟨h1, Or.inr ⟨_, rfl⟩⟩
    · exact ⟨h1, Or.inr ⟨_, rfl⟩⟩

theorem set_same (v : List Byte) (d : Data) (c : Ctx W) : (d.set bus v c).1.entry = d.entry ∧
    ((d.set bus v c).2.1 = c ∨ ∃ b, (d.set bus v c).2.1.w = (bus.write d.wr d.entry b c.w).1) := by
  have := storeWrite_same bus d c v
  unfold Data.set
  grind

theorem setCached_same (v : List Byte) (d : Data) (c : Ctx W) : (d.setCached bus v c).1.entry = d.entry ∧
    ((d.setCached bus v c).2.1 = c ∨ ∃ b, (d.setCached bus v c).2.1.w = (bus.write d.wr d.entry b c.w).1) := by
  have := storeWrite_same bus d c v
  unfold Data.setCached
  grind

theorem readText_good (rp : RealPrinter) (mem : Mem) (s : Storage) (c : Ctx W) (k : Key) (cached : Bool) (h : Good s) :
    Good (s.readText bus rp mem c k cached).1 ∧ (s.readText bus rp mem c k cached).1.dict = s.dict ∧
      ∀ k', k' ≠ k → (s.readText bus rp mem c k cached).1.data k' = s.data k' := by
  unfold Storage.readText
  split
  · exact ⟨h, rfl, fun _ _ => rfl⟩
  · split
    · exact ⟨h, rfl, fun _ _ => rfl⟩
    · rename_i ty _
      obtain ⟨h1, h2, h3, h4⟩ := entry_good mem s k ty h
      dsimp only
      split
      · exact ⟨h1, h2, h3⟩
      · exact ⟨h1, h2, h3⟩
      · rename_i d hd
        have hg := (get_same bus cached d c).1
        have key : ∀ d' : Data, d'.entry = d.entry → Good ((s.entry mem k ty).1.put k d') ∧ ((s.entry mem k ty).1.put k d').dict = s.dict ∧
            ∀ k', k' ≠ k → ((s.entry mem k ty).1.put k d').data k' = s.data k' := by
          intro d' he
          refine ⟨put_good _ _ _ h1 (by rw [h2, h4 d hd, he]), h2, fun k' hk => ?_⟩
          simp only [Storage.put, hk, if_false]
          exact h3 k' hk
        split <;> exact key _ hg

theorem writeText_good (rp : RealParser) (mem : Mem) (s : Storage) (c : Ctx W) (k : Key) (cached : Bool) (v : Text) (h : Good s) :
    Good (s.writeText bus rp mem c k cached v).1 ∧ (s.writeText bus rp mem c k cached v).1.dict = s.dict ∧
      (∀ k', k' ≠ k → (s.writeText bus rp mem c k cached v).1.data k' = s.data k') ∧
      ((s.writeText bus rp mem c k cached v).2.1 = c ∨
        ∃ d e b, s.dict.get k = some e ∧ (s.writeText bus rp mem c k cached v).2.1.w = (bus.write d e b c.w).1) := by
  unfold Storage.writeText
  split
  · exact ⟨h, rfl, fun _ _ => rfl, Or.inl rfl⟩
  · split
    · exact ⟨h, rfl, fun _ _ => rfl, Or.inl rfl⟩
    · rename_i ty _
      obtain ⟨h1, h2, h3, h4⟩ := entry_good mem s k ty h
      dsimp only
      split
      · exact ⟨h1, h2, h3, Or.inl rfl⟩
      · exact ⟨h1, h2, h3, Or.inl rfl⟩
      · rename_i d hd
        have key : ∀ d' : Data, d'.entry = d.entry → Good ((s.entry mem k ty).1.put k d') ∧ ((s.entry mem k ty).1.put k d').dict = s.dict ∧
            ∀ k', k' ≠ k → ((s.entry mem k ty).1.put k d').data k' = s.data k' := by
          intro d' he
          refine ⟨put_good _ _ _ h1 (by rw [h2, h4 d hd, he]), h2, fun k' hk => ?_⟩
          simp only [Storage.put, hk, if_false]
          exact h3 k' hk
        split
        · exact ⟨h1, h2, h3, Or.inl rfl⟩
        · exact ⟨h1, h2, h3, Or.inl rfl⟩
        · split
          · exact ⟨h1, h2, h3, Or.inl rfl⟩
          · exact ⟨h1, h2, h3, Or.inl rfl⟩
          · rename_i bs _
            split
            · obtain ⟨a, b⟩ := setCached_same bus bs d c
              obtain ⟨k1, k2, k3⟩ := key _ a
              refine ⟨k1, k2, k3, ?_⟩
              rcases b with b | ⟨x, b⟩
              · exact Or.inl b
              · exact Or.inr ⟨_, _, x, h4 d hd, b⟩
            · obtain ⟨a, b⟩ := set_same bus bs d c
              obtain ⟨k1, k2, k3⟩ := key _ a
              refine ⟨k1, k2, k3, ?_⟩
              rcases b with b | ⟨x, b⟩
              · exact Or.inl b
              · exact Or.inr ⟨_, _, x, h4 d hd, b⟩

end

/-! ## a value that stays -/

section
variable (cfg : Text → Config) (other : Text → Bus P)

theorem store_read (n m : Text) (d : Dlg) (e : Entry) (b : List Byte) (w : Text → Memory P) :
    (((directAll cfg other n).read d e b w).1 m).store = (w m).store := by
  simp only [directAll, of]
  split
  · rename_i h
    subst h
    cases d <;> rfl
  · rfl

theorem store_write (n m : Text) (d : Dlg) (e : Entry) (b : List Byte) (w : Text → Memory P) (o : Obj) (h : m = n → o ≠ objOf e) :
    (((directAll cfg other n).write d e b w).1 m).store o = (w m).store o := by
  simp only [directAll, of]
  split
  · rename_i hm
    subst hm
    cases d with
    | dev => simp only [direct, h rfl, if_false]
    | pdo i => rfl
  · rfl

/-- the object `k` of `node` is held as `bs`, by the device and by the master -/
structure Stays (node : Text) (D : Dict) (k : Key) (e : Entry) (t : IntTy) (bs : List Byte) (ns : Nodes) (c : Ctx (Text → Memory P)) : Prop where
  good : ∀ n s, ns.find n = some s → Good s
  listed : D.get k = some e
  here : ∃ s d, ns.find node = some s ∧ s.dict = D ∧ s.data k = some d ∧ d.ty = .int t ∧ d.rd = .dev ∧ d.valid = true ∧ d.buffer = bs
  device : (c.w node).store (objOf e) = bs
  size : bs.length = t.size

theorem get_stays (node : Text) (t : IntTy) (bs : List Byte) (d : Data) (c : Ctx (Text → Memory P)) (cached : Bool) (h1 : d.ty = .int t) (h2 : d.rd = .dev)
    (h3 : d.valid = true) (h4 : d.buffer = bs) (h5 : (c.w node).store (objOf d.entry) = bs) (h6 : bs.length = t.size) :
    let r := d.get (directAll cfg other node) cached c
    r.1.valid = true ∧ r.1.buffer = bs ∧ (d.entry.readable = true → r.2.2 = .ok bs) := by
  have ha : d.allocate = d := by
    unfold Data.allocate
    rw [if_neg (by rw [h1]; simp), if_neg (by rw [h3]; simp)]
  have hacc : d.access = .ok bs := by
    unfold Data.access
    rw [if_neg (by rw [h3]; simp), if_neg (by rw [h1]; simp), if_neg (by rw [h1, h4, h6]; simp [Ty.size]), h4, h1]
    rw [List.take_of_length_le (by rw [h6]; simp [Ty.size])]
  have hcr : d.callRead (directAll cfg other node) c = (d, (d.callRead (directAll cfg other node) c).2.1, none) := by
    unfold Data.callRead
    have : ((directAll cfg other node).read d.rd d.entry d.buffer c.w).2 = (bs, none) := by
      rw [h2]
      simp only [directAll, of, direct, h5]
    dsimp only
    rw [this, ← h4]
  intro r
  show (d.get (directAll cfg other node) cached c).1.valid = true ∧ _
  simp only [r]
  unfold Data.get
  rw [ha, hcr]
  dsimp only
  cases hr : d.entry.readable with
  | false => simp only [Bool.not_false, if_true]; exact ⟨h3, h4, fun h => by cases h⟩
  | true =>
    simp only [Bool.not_true, Bool.false_eq_true, if_false]
    split
    · exact ⟨h3, h4, fun _ => hacc⟩
    · exact ⟨h3, h4, fun _ => hacc⟩

theorem update_good (ns : Nodes) (node : Text) (s : Storage) (h : ∀ n s, ns.find n = some s → Good s) (hs : Good s) (hn : (ns.find node).isSome) :
    ∀ n s', (ns.update node s).find n = some s' → Good s' := by
  intro n s' hf
  by_cases hm : n = node
  · subst hm
    rw [find_update_same ns n s hn] at hf
    cases hf
    exact hs
  · rw [find_update_other ns node n s hm] at hf
    exact h n s' hf

theorem stays_get (node : Text) (D : Dict) (k : Key) (e : Entry) (t : IntTy) (bs : List Byte) (ns : Nodes) (c : Ctx (Text → Memory P)) (rp : RealPrinter)
    (info : Err → Text) (mem : Mem) (n object : Text) (cached : Bool) (h : Stays node D k e t bs ns c) :
    Stays node D k e t bs (getObject (directAll cfg other) rp info mem ns c n object cached).1
      (getObject (directAll cfg other) rp info mem ns c n object cached).2.1 := by
  have hdev : ((getObject (directAll cfg other) rp info mem ns c n object cached).2.1.w node).store (objOf e) = bs :=
    keep_getObject (directAll cfg other) (fun w => (w node).store (objOf e) = bs) (fun n d e' b w hw => by rw [store_read]; exact hw) rp info mem ns c n object
      cached h.device
  obtain ⟨s, d, h1, h2, h3, h4, h5, h6, h7⟩ := h.here
  unfold getObject at hdev ⊢
  cases hf : ns.find n with
  | none => exact h
  | some s' =>
    rw [hf] at hdev
    dsimp only at hdev ⊢
    obtain ⟨g1, g2, g3⟩ := readText_good (directAll cfg other n) rp mem s' c (Key.fromText object) cached (h.good n s' hf)
    refine ⟨update_good ns n _ h.good g1 (by rw [hf]; rfl), h.listed, ?_, hdev, h.size⟩
    by_cases hm : node = n
    · subst hm
      rw [h1] at hf
      cases hf
      suffices hx : ∃ d', (s.readText (directAll cfg other node) rp mem c (Key.fromText object) cached).1.dict = D ∧
          (s.readText (directAll cfg other node) rp mem c (Key.fromText object) cached).1.data k = some d' ∧ d'.ty = .int t ∧ d'.rd = .dev ∧
          d'.valid = true ∧ d'.buffer = bs by
        obtain ⟨d', hx⟩ := hx
        exact ⟨_, d', find_update_same ns node _ (by rw [h1]; rfl), hx⟩
      by_cases hk : k = Key.fromText object
      · subst hk
        have he : d.entry = e := by
          have := h.good node s h1 _ d h3
          rw [h2, h.listed] at this
          exact (Option.some.inj this).symm
        unfold Storage.readText
        rw [h2, h.listed]
        dsimp only
        split
        · exact ⟨d, h2, h3, h4, h5, h6, h7⟩
        · rename_i ty _
          unfold Storage.entry
          rw [h3]
          dsimp only
          by_cases hty : d.ty = ty
          · rw [if_pos hty]
            dsimp only
            have hg := get_stays cfg other node t bs d c cached h4 h5 h6 h7 (by rw [he]; exact h.device) h.size
            have hs := get_same (directAll cfg other node) cached d c
            refine ⟨(d.get (directAll cfg other node) cached c).1, ?_⟩
            have key : ∀ s0 : Storage, s0 = s.put (Key.fromText object) (d.get (directAll cfg other node) cached c).1 → s0.dict = D ∧
                s0.data (Key.fromText object) = some (d.get (directAll cfg other node) cached c).1 := by
              intro s0 h0
              subst h0
              exact ⟨h2, by simp [Storage.put]⟩
            have key2 : ∀ s0 : Storage, s0 = s.put (Key.fromText object) (d.get (directAll cfg other node) cached c).1 → s0.dict = D ∧
                s0.data (Key.fromText object) = some (d.get (directAll cfg other node) cached c).1 ∧
                (d.get (directAll cfg other node) cached c).1.ty = .int t ∧ (d.get (directAll cfg other node) cached c).1.rd = .dev ∧
                (d.get (directAll cfg other node) cached c).1.valid = true ∧ (d.get (directAll cfg other node) cached c).1.buffer = bs := by
              intro s0 h0
              exact ⟨(key s0 h0).1, (key s0 h0).2, hs.2.1.trans h4, hs.2.2.1.trans h5, hg.1, hg.2.1⟩
            apply key2
            split <;> rfl
          · rw [if_neg hty]
            exact ⟨d, h2, h3, h4, h5, h6, h7⟩
      · exact ⟨d, g2.trans h2, (g3 k hk).trans h3, h4, h5, h6, h7⟩
    · rw [find_update_other ns n node _ hm]
      exact ⟨s, d, h1, h2, h3, h4, h5, h6, h7⟩

theorem stays_set (node : Text) (D : Dict) (k : Key) (e : Entry) (t : IntTy) (bs : List Byte) (ns : Nodes) (c : Ctx (Text → Memory P)) (rp : RealParser)
    (info : Err → Text) (mem : Mem) (n object v : Text) (cached : Bool) (h : Stays node D k e t bs ns c)
    (hs : n = node → ∀ e', D.get (Key.fromText object) = some e' → objOf e' ≠ objOf e) :
    Stays node D k e t bs (setObject (directAll cfg other) rp info mem ns c n object v cached).1
      (setObject (directAll cfg other) rp info mem ns c n object v cached).2.1 := by
  obtain ⟨s, d, h1, h2, h3, h4, h5, h6, h7⟩ := h.here
  unfold setObject
  cases hf : ns.find n with
  | none => exact h
  | some s' =>
    dsimp only
    obtain ⟨g1, g2, g3, g4⟩ := writeText_good (directAll cfg other n) rp mem s' c (Key.fromText object) cached v (h.good n s' hf)
    refine ⟨update_good ns n _ h.good g1 (by rw [hf]; rfl), h.listed, ?_, ?_, h.size⟩
    · by_cases hm : node = n
      · subst hm
        rw [h1] at hf
        cases hf
        have hk : k ≠ Key.fromText object := by
          intro hk
          exact hs rfl e (by rw [← hk]; exact h.listed) rfl
        refine ⟨_, d, find_update_same ns node _ (by rw [h1]; rfl), g2.trans h2, (g3 k hk).trans h3, h4, h5, h6, h7⟩
      · exact ⟨s, d, (find_update_other ns n node _ hm).trans h1, h2, h3, h4, h5, h6, h7⟩
    · rcases g4 with g | ⟨dl, e', b, ge, g⟩
      · rw [g]; exact h.device
      · rw [g, store_write]
        · exact h.device
        · intro hm
          subst hm
          rw [h1] at hf
          cases hf
          rw [h2] at ge
          exact fun hx => hs rfl e' ge hx.symm

/-- the request spares the object of a node with this dictionary -/
def SparesIn (D : Dict) (node : Text) (o : Obj) : Request → Prop
  | .get _ _ _ => True
  | .set n object _ _ => n = node → ∀ e, D.get (Key.fromText object) = some e → objOf e ≠ o
  | .deviceChanges n o' _ => n = node → o' ≠ o

theorem stays_serve (node : Text) (D : Dict) (k : Key) (e : Entry) (t : IntTy) (bs : List Byte) (tx : Texts) (mem : Mem) (ns : Nodes)
    (c : Ctx (Text → Memory P)) (q : Request) (h : Stays node D k e t bs ns c) (hs : SparesIn D node (objOf e) q) :
    Stays node D k e t bs (serve (directAll cfg other) changeDirect tx mem ns c q).1 (serve (directAll cfg other) changeDirect tx mem ns c q).2.1 := by
  cases q with
  | get n object cached => exact stays_get cfg other node D k e t bs ns c _ _ mem n object cached h
  | set n object v cached => exact stays_set cfg other node D k e t bs ns c _ _ mem n object v cached h hs
  | deviceChanges n o v =>
    refine ⟨h.good, h.listed, h.here, ?_, h.size⟩
    simp only [serve, changeDirect]
    by_cases hm : node = n
    · rw [if_pos hm]
      simp only [if_neg (Ne.symm (hs hm.symm))]
      exact h.device
    · rw [if_neg hm]
      exact h.device

theorem stays_serveAll (node : Text) (D : Dict) (k : Key) (e : Entry) (t : IntTy) (bs : List Byte) (tx : Texts) (mem : Mem) (qs : List Request) (ns : Nodes)
    (c : Ctx (Text → Memory P)) (h : Stays node D k e t bs ns c) (hs : ∀ q ∈ qs, SparesIn D node (objOf e) q) :
    Stays node D k e t bs (serveAll (directAll cfg other) changeDirect tx mem ns c qs).1 (serveAll (directAll cfg other) changeDirect tx mem ns c qs).2.1 := by
  induction qs generalizing ns c with
  | nil => exact h
  | cons q qs ih =>
    exact ih _ _ (stays_serve cfg other node D k e t bs tx mem ns c q h (hs q (by simp))) (fun x hx => hs x (by simp [hx]))

theorem serveAll_append {W : Type} (bus : Text → Bus W) (changes : Text → Obj → List Byte → W → W) (tx : Texts) (mem : Mem) (as bs : List Request) (ns : Nodes)
    (c : Ctx W) : serveAll bus changes tx mem ns c (as ++ bs) =
      let r := serveAll bus changes tx mem ns c as
      let q := serveAll bus changes tx mem r.1 r.2.1 bs
      (q.1, q.2.1, r.2.2 ++ q.2.2) := by
  induction as generalizing ns c with
  | nil => rfl
  | cons a as ih =>
    simp only [List.cons_append, serveAll, ih]

end

theorem others_serveAll {W : Type} (f : Text → Bus W) (changes : Text → Obj → List Byte → (Text → W) → Text → W)
    (hch : ∀ n o v g m, m ≠ n → changes n o v g m = g m) (t : Texts) (mem : Mem) (qs : List Request) (ns : Nodes) (c : Ctx (Text → W)) (n : Text)
    (h : ∀ q ∈ qs, ¬ Concerns n q) :
    (serveAll (fun m => of m (f m)) changes t mem ns c qs).2.1.w n = c.w n ∧ (serveAll (fun m => of m (f m)) changes t mem ns c qs).1.find n = ns.find n := by
  induction qs generalizing ns c with
  | nil => exact ⟨rfl, rfl⟩
  | cons q qs ih =>
    obtain ⟨h1, h2⟩ := ih (serve (fun m => of m (f m)) changes t mem ns c q).1 (serve (fun m => of m (f m)) changes t mem ns c q).2.1
      (fun x hx => h x (by simp [hx]))
    have hq := h q (by simp)
    have : (serve (fun m => of m (f m)) changes t mem ns c q).2.1.w n = c.w n ∧ (serve (fun m => of m (f m)) changes t mem ns c q).1.find n = ns.find n := by
      cases q with
      | get node object cached =>
        have hn : n ≠ node := fun e => hq e.symm
        simp only [serve, getObject]
        split
        · exact ⟨rfl, rfl⟩
        · refine ⟨?_, find_update_other ns node n _ hn⟩
          exact keep_readText (fun _ => of node (f node)) (fun g => g n = c.w n)
            (fun _ d e b g hf => by simp only [of, hn, if_false]; exact hf) t.print mem _ c node _ cached rfl
      | set node object v cached =>
        have hn : n ≠ node := fun e => hq e.symm
        simp only [serve, setObject]
        split
        · exact ⟨rfl, rfl⟩
        · refine ⟨?_, find_update_other ns node n _ hn⟩
          exact keep_writeText (fun _ => of node (f node)) (fun g => g n = c.w n)
            (fun _ d e b g hf => by simp only [of, hn, if_false]; exact hf) t.parse mem _ c node _ cached v rfl
      | deviceChanges node o v => exact ⟨hch node o v c.w n (fun e => hq e.symm), rfl⟩
    exact ⟨h1.trans this.1, h2.trans this.2⟩

end Verif.Spec.Serv
