import Verif.Lemmas.Calls
import Verif.Model.PdoInit

/-!
# Lemmas: setting up PDOs
-/

set_option linter.unusedSimpArgs false

namespace Verif.PdoInit
open Verif Verif.OD Verif.Pdo

variable {D : Type} {α β : Type}

/-! ## Reasoning about sequential code -/

/-- `Q` holds after a normal return, `E` otherwise -/
def Post (Q : α → Env D → Prop) (E : Env D → Prop) (r : Env D × Outcome Err α) : Prop :=
  match r.2 with
  | .ok a => Q a r.1
  | _ => E r.1

theorem post_bind {Q : α → Env D → Prop} {R : β → Env D → Prop} {E : Env D → Prop} {m : Act D α} {f : α → Act D β} {e : Env D}
    (hm : Post Q E (m e)) (hf : ∀ a e', Q a e' → Post R E (f a e')) : Post R E ((m >>= f) e) := by
  show Post R E (Act.andThen m f e)
  unfold Act.andThen
  revert hm
  generalize m e = r
  obtain ⟨e', o⟩ := r
  cases o with
  | ok a => exact fun h => hf a e' h
  | throws x => exact id
  | ub => exact id

theorem post_pure {Q : α → Env D → Prop} {E : Env D → Prop} {a : α} {e : Env D} (h : Q a e) : Post Q E ((pure a : Act D α) e) := h

theorem post_mono {Q Q' : α → Env D → Prop} {E E' : Env D → Prop} {r : Env D × Outcome Err α} (h : Post Q E r)
    (hq : ∀ a e, Q a e → Q' a e) (he : ∀ e, E e → E' e) : Post Q' E' r := by
  unfold Post at *
  split at h
  · exact hq _ _ h
  · exact he _ h

theorem post_lift {Q : α → Env D → Prop} {E : Env D → Prop} {o : Outcome Err α} {e : Env D} (hq : ∀ a, o = .ok a → Q a e) (he : E e) :
    Post Q E (lift o e) := by
  unfold Post lift
  split
  · rename_i a h; exact hq a h
  · exact he

/-- both outcomes -/
theorem post_all {I : Env D → Prop} {r : Env D × Outcome Err α} : Post (fun _ => I) I r ↔ I r.1 := by
  unfold Post
  split <;> exact Iff.rfl

/-! ## What all of this leaves alone -/

/-- dictionary, node id and the lists of PDOs stay; buffer numbers only grow -/
structure Kept (e e' : Env D) : Prop where
  dict : e'.s.dict = e.s.dict
  node : e'.s.nodeId = e.s.nodeId
  rpdos : e'.rpdos = e.rpdos
  tpdos : e'.tpdos = e.tpdos
  next : e.c.w.next ≤ e'.c.w.next

theorem Kept.refl (e : Env D) : Kept e e := ⟨rfl, rfl, rfl, rfl, Nat.le_refl _⟩
theorem Kept.trans {a b c : Env D} (h : Kept a b) (h' : Kept b c) : Kept a c :=
  ⟨h'.dict.trans h.dict, h'.node.trans h.node, h'.rpdos.trans h.rpdos, h'.tpdos.trans h.tpdos, Nat.le_trans h.next h'.next⟩

theorem bus_next_read (dv : Dev D) (d : Dlg) (en : Entry) (b : List Byte) (w : PW D) : (busRead dv d en b w).1.next = w.next := by
  unfold busRead
  cases d with
  | dev => rfl
  | pdo n =>
    dsimp only
    split
    · rfl
    · split <;> rfl

theorem bus_next_write (dv : Dev D) (d : Dlg) (en : Entry) (b : List Byte) (w : PW D) : (busWrite dv d en b w).1.next = w.next := by
  unfold busWrite
  cases d with
  | dev => rfl
  | pdo n =>
    dsimp only
    split
    · rfl
    · split <;> rfl

theorem calls_next {dv : Dev D} {en : Entry} {rd wr : Dlg} {c c' : Ctx (PW D)} (h : Calls (pdoBus dv) en rd wr c c') : c'.w.next = c.w.next := by
  induction h with
  | refl => rfl
  | read b _ ih => rw [← ih]; exact bus_next_read dv _ _ _ _
  | write b _ ih => rw [← ih]; exact bus_next_write dv _ _ _ _

/-! ## The elementary operations

Each of them is described once: the state changes in one object, by calls of its delegates. -/

/-- the shape of a change of one object -/
inductive One (dv : Dev D) (k : Key) (e e' : Env D) : Prop
  | none (h : e' = e)
  | change (d d' : Data) (hd : e.s.data k = some d ∨ (e.s.data k = none ∧ e.s.dict.get k = some d.entry ∧ d.rd = .dev ∧ d.wr = .dev))
      (hs : Same d d') (c' : Ctx (PW D)) (hc : Calls (pdoBus dv) d.entry d.rd d.wr e.c c') (h : e' = { e with s := e.s.put k d', c := c' })

theorem one_kept {dv : Dev D} {k : Key} {e e' : Env D} (h : One dv k e e') : Kept e e' := by
  cases h with
  | none h => subst h; exact .refl _
  | change d d' hd hs c' hc h =>
    subst h
    exact ⟨rfl, rfl, rfl, rfl, Nat.le_of_eq (calls_next hc).symm⟩

theorem openEntry_one (dv : Dev D) (mem : Mem) (k : Key) (ty : Ty) (e : Env D) : One dv k e (openEntry mem k ty e).1 := by
  unfold openEntry
  dsimp only
  rcases entry_new mem e.s k ty with h | ⟨d, en, h1, h2, h3, h4, h5, h6⟩
  · exact .none (by rw [h])
  · exact .change d d (.inr ⟨h1, by rw [h2, h3], h4, h5⟩) (.refl d) e.c (.refl _) (by rw [h6])

theorem openEntry_ok (mem : Mem) (k : Key) (ty : Ty) (e : Env D) (u : Unit) (h : (openEntry mem k ty e).2 = .ok u) :
    ∃ d, (openEntry mem k ty e).1.s.data k = some d ∧ d.ty = ty := by
  unfold openEntry at h ⊢
  dsimp only at h ⊢
  unfold Storage.entry at h ⊢
  cases hd : e.s.data k with
  | some d =>
    rw [hd] at h
    dsimp only at h ⊢
    by_cases ht : d.ty = ty
    · rw [if_pos ht]; exact ⟨d, hd, ht⟩
    · rw [if_neg ht] at h; cases h
  | none =>
    rw [hd] at h
    dsimp only at h ⊢
    cases he : e.s.dict.get k with
    | none => rw [he] at h; cases h
    | some en =>
      rw [he] at h
      dsimp only at h ⊢
      cases hm : e.s.make mem en ty with
      | ok d =>
        refine ⟨d, put_same _ _ _, ?_⟩
        unfold Storage.make at hm
        split at hm
        · split at hm
          · cases hm; rfl
          · cases hm
          · cases hm
        · split at hm
          · cases hm; rfl
          · cases hm
      | throws x => rw [hm] at h; cases h
      | ub => rw [hm] at h; cases h

theorem setEntry_one (dv : Dev D) (k : Key) (v : List Byte) (e : Env D) : One dv k e (setEntry dv k v e).1 := by
  unfold setEntry
  cases hd : e.s.data k with
  | none => exact .none rfl
  | some d => exact .change d _ (.inl hd) (set_calls (pdoBus dv) d e.c v).1 _ (set_calls' (pdoBus dv) d e.c v) rfl

theorem getEntry_one (dv : Dev D) (k : Key) (cached : Bool) (e : Env D) : One dv k e (getEntry dv k cached e).1 := by
  unfold getEntry
  cases hd : e.s.data k with
  | none => exact .none rfl
  | some d =>
    exact .change d _ (.inl hd) (get_calls (pdoBus dv) d e.c cached d.wr).1 _ (get_calls (pdoBus dv) d e.c cached d.wr).2 rfl

theorem initEntry_one (dv : Dev D) (mem : Mem) (k : Key) (e : Env D) : One dv k e (initEntry dv mem k e).1 := by
  unfold initEntry
  dsimp only
  unfold Storage.init
  cases hg : e.s.dict.get k with
  | none => exact .none rfl
  | some en =>
    dsimp only
    rcases initNolock_calls (pdoBus dv) mem e.s e.c k en with ⟨h1, h2⟩ | ⟨d, d', hd, hs, h1, h2⟩
    · exact .none (by rw [h1, h2])
    · refine .change d d' ?_ hs _ h2 (by rw [h1])
      rcases hd with h | ⟨h, h', h'', h'''⟩
      · exact .inl h
      · exact .inr ⟨h, by rw [hg, h'], h'', h'''⟩

/-- a mapping changes one object -/
inductive Mapped (dv : Dev D) (r : Option Nat) (w : Nat) (e e' : Env D) : Prop
  | none (h : e' = e)
  | change (k : Key) (d d' : Data) (hd : e.s.data k = some d ∨ (e.s.data k = none ∧ e.s.dict.get k = some d.entry))
      (hen : d'.entry = d.entry) (hty : d'.ty = d.ty) (hrd : d'.rd = .dev ∨ ∃ n, r = some n ∧ d'.rd = .pdo n) (hwr : d'.wr = .dev ∨ d'.wr = .pdo w)
      (hpd : ¬ (d'.rd = .dev ∧ d'.wr = .dev))
      (c' : Ctx (PW D)) (hc : Calls (pdoBus dv) d.entry .dev (.pdo w) e.c c') (h : e' = { e with s := e.s.put k d', c := c' })

theorem mapEntry_mapped (dv : Dev D) (mem : Mem) (i : BitVec 16) (s : BitVec 8) (r : Option Nat) (w : Nat) (e : Env D) :
    Mapped dv r w e (mapEntry dv mem i s r (some w) e).1 := by
  unfold mapEntry
  dsimp only
  have key : ∀ k en, e.s.dict.get k = some en →
      Mapped dv r w e { e with s := (e.s.mapKey (pdoBus dv) mem k en r (some w) e.c).1, c := (e.s.mapKey (pdoBus dv) mem k en r (some w) e.c).2.1 } := by
    intro k en hk
    rcases mapKey_calls (pdoBus dv) mem e.s e.c k en r w with ⟨h1, h2⟩ | ⟨d, d', hd, h1, h2, h3, h4, h7, h5, h6⟩
    · exact .none (by rw [h1, h2])
    · refine .change k d d' ?_ h1 h2 h3 h4 h7 _ h6 (by rw [h5])
      rcases hd with h | ⟨h, h'⟩
      · exact .inl h
      · exact .inr ⟨h, by rw [hk, h']⟩
  unfold Storage.map
  cases hg : e.s.dict.get (Key.ofSub i s) with
  | some en => exact key _ _ hg
  | none =>
    dsimp only
    by_cases hs : s ≠ 0
    · rw [if_pos hs]; exact .none rfl
    · rw [if_neg hs]
      cases hg2 : e.s.dict.get (Key.ofIndex i) with
      | some en => exact key _ _ hg2
      | none => exact .none rfl

theorem mapped_kept {dv : Dev D} {r : Option Nat} {w : Nat} {e e' : Env D} (h : Mapped dv r w e e') : Kept e e' := by
  cases h with
  | none h => subst h; exact .refl _
  | change k d d' hd hen hty hrd hwr hpd c' hc h =>
    subst h
    exact ⟨rfl, rfl, rfl, rfl, Nat.le_of_eq (calls_next hc).symm⟩

/-! ## Invariants kept by all of the set-up code -/

/-- an invariant kept by all elementary operations; mapping may assume that its buffers are alive -/
structure StableOne (dv : Dev D) (I : Env D → Prop) : Prop where
  one : ∀ k e e', I e → One dv k e e' → I e'

/-- see `StableOne` -/
structure Stable (dv : Dev D) (I : Env D → Prop) : Prop extends StableOne dv I where
  map : ∀ r w e e', I e → (e.c.w.heap w).isSome → (r = some w ∨ r = none) → Mapped dv r w e e' → I e'
  new : ∀ size e, I e → I (newBuf size e).1
  clean : ∀ n e, I e → I (cleanBuf n e).1

/-- `m` keeps `I`, whatever its outcome -/
def Keep (I : Env D → Prop) (m : Act D α) : Prop := ∀ e, I e → I (m e).1

theorem bind_run (m : Act D α) (f : α → Act D β) (e : Env D) : (m >>= f) e = match m e with
    | (e', .ok a) => f a e'
    | (e', .throws x) => (e', .throws x)
    | (e', .ub) => (e', .ub) := rfl

theorem keep_bind {I : Env D → Prop} {m : Act D α} {f : α → Act D β} (hm : Keep I m) (hf : ∀ a, Keep I (f a)) : Keep I (m >>= f) := by
  intro e he
  have h1 := hm e he
  rw [bind_run]
  revert h1
  generalize m e = r
  obtain ⟨e', o⟩ := r
  cases o with
  | ok a => exact fun h => hf a e' h
  | throws x => exact id
  | ub => exact id

theorem keep_pure {I : Env D → Prop} (a : α) : Keep I (pure a : Act D α) := fun _ h => h
theorem keep_read {I : Env D → Prop} (f : Env D → Outcome Err α) : Keep I (fun e => (e, f e) : Act D α) := fun _ h => h
theorem keep_lift {I : Env D → Prop} (o : Outcome Err α) : Keep I (lift o : Act D α) := fun _ h => h

theorem keep_dictAt {I : Env D → Prop} (i : BitVec 16) (s : BitVec 8) : Keep I (dictAt i s : Act D Entry) := by
  intro e h
  unfold dictAt
  split <;> exact h

theorem keep_descOf {I : Env D → Prop} (k : Key) : Keep I (descOf k : Act D Entry) := by
  intro e h
  unfold descOf
  split <;> exact h

theorem keep_mapChanged {I : Env D → Prop} (num : Nat) (i : BitVec 16) : Keep I (mapChanged num i : Act D Bool) := by
  intro e h
  unfold mapChanged
  split
  · exact h
  · split <;> exact h

theorem keep_ite {I : Env D → Prop} {c : Prop} {_ : Decidable c} {a b : Act D α} (ha : c → Keep I a) (hb : ¬ c → Keep I b) : Keep I (if c then a else b) := by
  by_cases h : c
  · rw [if_pos h]; exact ha h
  · rw [if_neg h]; exact hb h

theorem keep_onlyIf {I : Env D → Prop} (b : Bool) {m : Act D Unit} (h : Keep I m) : Keep I (onlyIf b m) :=
  keep_ite (fun _ => h) (fun _ => keep_pure _)

section
variable {dv : Dev D} {I : Env D → Prop} (hI : StableOne dv I)
include hI

theorem keep_open (mem : Mem) (k : Key) (ty : Ty) : Keep I (openEntry mem k ty : Act D Unit) :=
  fun e h => hI.one k e _ h (openEntry_one dv mem k ty e)
theorem keep_set (k : Key) (v : List Byte) : Keep I (setEntry dv k v) := fun e h => hI.one k e _ h (setEntry_one dv k v e)
theorem keep_get (k : Key) (cached : Bool) : Keep I (getEntry dv k cached) := fun e h => hI.one k e _ h (getEntry_one dv k cached e)
theorem keep_init (mem : Mem) (k : Key) : Keep I (initEntry dv mem k) := fun e h => hI.one k e _ h (initEntry_one dv mem k e)

theorem keep_setConfigured (k : Key) (init : HoldAny) : Keep I (setConfigured dv k init) := by
  unfold setConfigured
  split
  · exact keep_bind (keep_lift _) (fun _ => keep_set hI _ _)
  · exact keep_pure _

theorem keep_comLoop (mem : Mem) (com : BitVec 16) (subs : List Nat) : Keep I (comLoop dv mem com subs) := by
  induction subs with
  | nil => exact keep_pure _
  | cons s ss ih =>
    intro e he
    unfold comLoop
    split
    · exact ih e he
    · have h := keep_init hI mem (sub com s) e he
      cases hq : initEntry dv mem (sub com s) e with
      | mk e' o =>
        rw [hq] at h
        cases o with
        | ok _ => exact ih e' h
        | ub => exact h
        | throws x => cases x <;> first | exact ih e' h | exact h

theorem keep_disable (mem : Mem) (com : BitVec 16) (changed : Bool) : Keep I (disable dv mem com changed) := by
  unfold disable
  refine keep_bind (keep_open hI _ _ _) fun _ => keep_bind (keep_descOf _) fun x => keep_ite (fun _ => ?_) (fun _ => keep_pure _)
  exact keep_bind (keep_get hI _ _) fun v => keep_set hI _ _

theorem keep_setCom (mem : Mem) (com : BitVec 16) (changed : Bool) : Keep I (setCom dv mem com changed) := by
  unfold setCom
  refine keep_ite (fun _ => ?_) (fun _ => keep_pure _)
  exact keep_bind (keep_dictAt _ _) fun x => keep_bind (keep_lift _) fun v => keep_ite (fun _ => keep_lift _) (fun _ => keep_comLoop hI mem com _)

theorem keep_enable (mem : Mem) (com map : BitVec 16) (num : Nat) (a b : Bool) : Keep I (enable dv mem com map num a b) := by
  unfold enable
  refine keep_bind (keep_onlyIf _ (keep_set hI _ _)) fun _ => keep_bind (keep_descOf _) fun x =>
    keep_ite (fun _ => ?_) (fun _ => keep_pure _)
  exact keep_bind (keep_init hI mem _) fun _ => keep_bind (keep_dictAt _ _) fun y => keep_bind (keep_read _) fun v => keep_set hI _ _

end

section
variable {dv : Dev D} {I : Env D → Prop} (hI : Stable dv I)
include hI

theorem mapOne_keeps (mem : Mem) (p : PdoMap) (n : Nat) (read write : Bool) (e : Env D) (h : I e) (hn : (e.c.w.heap n).isSome) :
    I (mapOne dv mem p n read write e).1 := by
  unfold mapOne
  split
  · exact h
  · split
    · rw [bind_run]
      have hm := hI.map (if read then some n else none) n e _ h hn (by cases read <;> simp) (mapEntry_mapped dv mem p.index p.subIndex _ n e)
      revert hm
      generalize mapEntry dv mem p.index p.subIndex (if read then some n else none) (some n) e = r
      obtain ⟨e', o⟩ := r
      cases o <;> exact id
    · exact h

/-- one round of the mapping loop after the word is known -/
theorem keep_newMap (mem : Mem) (p : PdoMap) (read write : Bool) (size : Nat) (f : Nat → Act D α) (hf : ∀ n, Keep I (f n)) :
    Keep I (newBuf size >>= fun n => mapOne dv mem p n read write >>= fun _ => cleanBuf n >>= fun _ => f n) := by
  intro e he
  rw [bind_run]
  have h1 := hI.new size e he
  have h2 : ((newBuf size e).1.c.w.heap e.c.w.next).isSome := by simp [newBuf, PW.setBuf]
  show I ((mapOne dv mem p e.c.w.next read write >>= fun _ => cleanBuf e.c.w.next >>= fun _ => f e.c.w.next) (newBuf size e).1).1
  rw [bind_run]
  have h3 := mapOne_keeps hI mem p e.c.w.next read write _ h1 h2
  revert h3
  generalize mapOne dv mem p e.c.w.next read write (newBuf size e).1 = r
  obtain ⟨e', o⟩ := r
  cases o with
  | ok a =>
    intro h3
    exact keep_bind (fun e h => hI.clean _ e h) (fun _ => hf _) e' h3
  | throws x => exact id
  | ub => exact id

theorem keep_mapLoop (mem : Mem) (map : BitVec 16) (read write : Bool) (subs : List Nat) :
    ∀ dlc bufs, Keep I (mapLoop dv mem map read write subs dlc bufs) := by
  induction subs with
  | nil => intro dlc bufs; exact keep_pure _
  | cons s ss ih =>
    intro dlc bufs
    unfold mapLoop
    refine keep_bind (keep_open hI.toStableOne _ _ _) fun _ => keep_bind (keep_dictAt _ _) fun x => keep_bind (keep_setConfigured hI.toStableOne _ _) fun _ =>
      keep_bind (keep_get hI.toStableOne _ _) fun v => ?_
    exact keep_newMap hI mem _ read write _ _ (fun n => ih _ _)

theorem keep_setMapping (mem : Mem) (map : BitVec 16) (read write : Bool) (num : Nat) (changed : Bool) :
    Keep I (setMapping dv mem map read write num changed) := by
  unfold setMapping
  refine keep_ite (fun _ => ?_) (fun _ => keep_pure _)
  exact keep_bind (keep_onlyIf _ (keep_set hI.toStableOne _ _)) fun _ => keep_mapLoop hI mem map read write _ _ _

theorem keep_parse (mem : Mem) (com map : BitVec 16) (read write : Bool) : Keep I (parseAndSet dv mem com map read write) := by
  unfold parseAndSet
  refine keep_bind (keep_open hI.toStableOne _ _ _) fun _ => keep_bind (keep_descOf _) fun x => ?_
  refine keep_bind (keep_mapChanged _ _) fun mc => keep_bind (keep_read _) fun di => keep_bind (keep_disable hI.toStableOne mem com _) fun _ => ?_
  exact keep_bind (keep_setMapping hI mem map read write _ _) fun r => keep_bind (keep_setCom hI.toStableOne mem com _) fun _ =>
    keep_bind (keep_enable hI.toStableOne mem com map _ _ _) fun _ => keep_pure _

omit hI in
theorem keep_cobWord (com : BitVec 16) : Keep I (cobWord com : Act D (BitVec 32)) :=
  keep_bind (keep_dictAt _ _) fun _ => keep_read _

theorem keep_rpdoInit (mem : Mem) (junk : Vector Byte 8) (com map : BitVec 16) : Keep I (rpdoInit dv mem junk com map) := by
  unfold rpdoInit
  refine keep_bind (keep_parse hI mem com map _ _) fun r => keep_bind (keep_cobWord com) fun w => keep_ite (fun _ => keep_pure _) (fun _ => ?_)
  exact keep_bind (keep_dictAt _ _) fun y => keep_bind (keep_lift _) fun t => keep_pure _

theorem keep_tpdoInit (mem : Mem) (junk : Vector Byte 8) (com map : BitVec 16) : Keep I (tpdoInit dv mem junk com map) := by
  unfold tpdoInit
  refine keep_bind (keep_cobWord com) fun w => keep_bind (keep_parse hI mem com map _ _) fun r => keep_ite (fun _ => keep_pure _) (fun _ => ?_)
  refine keep_bind (keep_open hI.toStableOne _ _ _) fun _ => keep_bind (keep_descOf _) fun y => keep_bind (keep_lift _) fun t => keep_bind ?_ fun _ => keep_pure _
  unfold enforceType
  exact keep_ite (fun _ => keep_set hI.toStableOne _ _) (fun _ => keep_pure _)

end

/-- everything keeps dictionary, node id, lists of PDOs -/
theorem kept_stable (dv : Dev D) (e0 : Env D) : Stable dv (Kept e0) where
  one _ _ _ h h' := h.trans (one_kept h')
  map _ _ _ _ h _ _ h' := h.trans (mapped_kept h')
  new _ _ h := h.trans ⟨rfl, rfl, rfl, rfl, Nat.le_succ _⟩
  clean _ _ h := h.trans ⟨rfl, rfl, rfl, rfl, Nat.le_refl _⟩

/-! ## Buffers in use are alive -/

/-- a delegate that can be called -/
def DLive (w : PW D) (d : Dlg) : Prop := ∀ n, d = .pdo n → (w.heap n).isSome

/-- all delegates of the storage can be called, and no destroyed buffer was used -/
structure Live (e : Env D) : Prop where
  bad : e.c.w.bad = false
  fresh : ∀ n, e.c.w.next ≤ n → e.c.w.heap n = none
  dlg : ∀ k d, e.s.data k = some d → DLive e.c.w d.rd ∧ DLive e.c.w d.wr

/-- the same buffers are alive, no destroyed one was used -/
structure WStep (w w' : PW D) : Prop where
  bad : w'.bad = w.bad
  next : w'.next = w.next
  heap : ∀ n, (w'.heap n).isSome = (w.heap n).isSome

theorem WStep.refl (w : PW D) : WStep w w := ⟨rfl, rfl, fun _ => rfl⟩
theorem WStep.trans {a b c : PW D} (h : WStep a b) (h' : WStep b c) : WStep a c :=
  ⟨h'.bad.trans h.bad, h'.next.trans h.next, fun n => (h'.heap n).trans (h.heap n)⟩
theorem WStep.live {w w' : PW D} (h : WStep w w') {d : Dlg} (hd : DLive w d) : DLive w' d := fun n hn => by rw [h.heap]; exact hd n hn

theorem setBuf_step {w : PW D} {n : Nat} {b b' : Buffer} (h : w.heap n = some b) : WStep w (w.setBuf n (some b')) := by
  refine ⟨rfl, rfl, fun m => ?_⟩
  unfold PW.setBuf
  dsimp only
  by_cases hm : m = n
  · subst hm; rw [if_pos rfl, h]; rfl
  · rw [if_neg hm]

theorem busRead_step (dv : Dev D) {d : Dlg} (en : Entry) (b : List Byte) {w : PW D} (h : DLive w d) : WStep w (busRead dv d en b w).1 := by
  unfold busRead
  cases d with
  | dev => exact ⟨rfl, rfl, fun _ => rfl⟩
  | pdo n =>
    dsimp only
    have hn := h n rfl
    cases hb : w.heap n with
    | none => rw [hb] at hn; cases hn
    | some bf =>
      dsimp only
      cases hr : bf.readEntry b with
      | ok p => exact setBuf_step hb
      | throws x => exact .refl w
      | ub =>
        unfold Buffer.readEntry at hr
        split at hr
        · cases hr
        · split at hr
          · cases hr
          · split at hr <;> cases hr

theorem busWrite_step (dv : Dev D) {d : Dlg} (en : Entry) (b : List Byte) {w : PW D} (h : DLive w d) : WStep w (busWrite dv d en b w).1 := by
  unfold busWrite
  cases d with
  | dev => exact ⟨rfl, rfl, fun _ => rfl⟩
  | pdo n =>
    dsimp only
    have hn := h n rfl
    cases hb : w.heap n with
    | none => rw [hb] at hn; cases hn
    | some bf =>
      dsimp only
      cases hr : bf.writeEntry b with
      | ok p => exact setBuf_step hb
      | throws x => exact .refl w
      | ub =>
        unfold Buffer.writeEntry at hr
        split at hr <;> cases hr

theorem calls_step {dv : Dev D} {en : Entry} {rd wr : Dlg} {c c' : Ctx (PW D)} (h : Calls (pdoBus dv) en rd wr c c')
    (hr : DLive c.w rd) (hw : DLive c.w wr) : WStep c.w c'.w := by
  induction h with
  | refl => exact .refl _
  | read b _ ih => exact (ih).trans (busRead_step dv en b ((ih).live hr))
  | write b _ ih => exact (ih).trans (busWrite_step dv en b ((ih).live hw))

theorem live_put {e : Env D} {k : Key} {d' : Data} {c' : Ctx (PW D)} (h : Live e) (hs : WStep e.c.w c'.w)
    (hr : DLive c'.w d'.rd) (hw : DLive c'.w d'.wr) : Live { e with s := e.s.put k d', c := c' } := by
  refine ⟨hs.bad.trans h.bad, fun n hn => ?_, fun k' d hd => ?_⟩
  · have h1 := hs.heap n
    rw [h.fresh n (by rw [← hs.next]; exact hn)] at h1
    simpa using h1
  · by_cases hk : k' = k
    · subst hk
      rw [put_same] at hd
      cases hd
      exact ⟨hr, hw⟩
    · rw [put_other _ _ hk] at hd
      exact ⟨hs.live (h.dlg k' d hd).1, hs.live (h.dlg k' d hd).2⟩

theorem dlive_dev (w : PW D) : DLive w .dev := fun n h => by cases h

theorem live_stable (dv : Dev D) : Stable dv (Live (D := D)) where
  one k e e' h h' := by
    cases h' with
    | none h' => subst h'; exact h
    | change d d' hd hs c' hc he =>
      subst he
      have hl : DLive e.c.w d.rd ∧ DLive e.c.w d.wr := by
        rcases hd with hd | ⟨_, _, h1, h2⟩
        · exact h.dlg k d hd
        · rw [h1, h2]; exact ⟨dlive_dev _, dlive_dev _⟩
      have hst := calls_step hc hl.1 hl.2
      exact live_put h hst (by rw [hs.rd]; exact hst.live hl.1) (by rw [hs.wr]; exact hst.live hl.2)
  map r w e e' h hw hr h' := by
    cases h' with
    | none h' => subst h'; exact h
    | change k d d' hd hen hty hrd hwr hpd c' hc he =>
      subst he
      have hlw : DLive e.c.w (.pdo w) := fun n hn => by cases hn; exact hw
      have hst := calls_step hc (dlive_dev _) hlw
      refine live_put h hst ?_ ?_
      · rcases hrd with h1 | ⟨n, h1, h2⟩
        · rw [h1]; exact dlive_dev _
        · rw [h2]
          rcases hr with h3 | h3
          · rw [h1] at h3; cases h3; exact hst.live hlw
          · rw [h1] at h3; cases h3
      · rcases hwr with h1 | h1
        · rw [h1]; exact dlive_dev _
        · rw [h1]; exact hst.live hlw
  new size e h := by
    refine ⟨h.bad, fun n hn => ?_, fun k d hd => ?_⟩
    · simp only [newBuf, PW.setBuf] at hn ⊢
      rw [if_neg (by omega)]
      exact h.fresh n (by omega)
    · have mono : ∀ d, DLive e.c.w d → DLive (newBuf size e).1.c.w d := by
        intro d hd n hn
        simp only [newBuf, PW.setBuf]
        split
        · rfl
        · exact hd n hn
      exact ⟨mono _ (h.dlg k d hd).1, mono _ (h.dlg k d hd).2⟩
  clean n e h := by
    have hst : ∀ m, ((cleanBuf n e).1.c.w.heap m).isSome = (e.c.w.heap m).isSome := by
      intro m
      simp only [cleanBuf, PW.setBuf]
      split
      · rename_i hm; subst hm; simp
      · rfl
    refine ⟨h.bad, fun m hm => ?_, fun k d hd => ?_⟩
    · have h1 := hst m
      rw [h.fresh m hm] at h1
      simpa using h1
    · exact ⟨fun m hm => by rw [hst]; exact (h.dlg k d hd).1 m hm, fun m hm => by rw [hst]; exact (h.dlg k d hd).2 m hm⟩

end Verif.PdoInit
