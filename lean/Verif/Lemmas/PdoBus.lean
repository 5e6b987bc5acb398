import Verif.Lemmas.StorageBus
import Verif.Spec.PdoBus

/-!
# Lemmas for C127: the set-up of PDOs uses the device only through its answers
-/

namespace Verif.Spec.PBus
open Verif Verif.OD Verif.PdoInit Verif.Spec Verif.Spec.Wire

section
variable {D E : Type} (dv : Dev D) (dv' : Dev E) (B : D → Prop) (B' : E → Prop) (G : D → E → Prop)

/-- two devices that answer alike unless something goes wrong, which is remembered -/
structure Similar : Prop where
  r : ∀ e b w, B w → B (dv.read e b w).1
  w : ∀ e v w, B w → B (dv.write e v w).1
  r' : ∀ e b w, B' w → B' (dv'.read e b w).1
  w' : ∀ e v w, B' w → B' (dv'.write e v w).1
  gr : ∀ e b w v, G w v → B (dv.read e b w).1 ∨ B' (dv'.read e b v).1 ∨ (G (dv.read e b w).1 (dv'.read e b v).1 ∧ (dv.read e b w).2 = (dv'.read e b v).2)
  gw : ∀ e b w v, G w v → B (dv.write e b w).1 ∨ B' (dv'.write e b v).1 ∨ (G (dv.write e b w).1 (dv'.write e b v).1 ∧ (dv.write e b w).2 = (dv'.write e b v).2)

/-- devices alike, and the same buffers -/
def GW (w : PW D) (v : PW E) : Prop := G w.dev v.dev ∧ w.heap = v.heap ∧ w.next = v.next ∧ w.bad = v.bad

/-- the same situation -/
structure Eqv (e : Env D) (f : Env E) : Prop where
  s : e.s = f.s
  c : Twin (GW G) e.c f.c
  r : e.rpdos = f.rpdos
  t : e.tpdos = f.tpdos

/-- two pieces of code that do the same unless something goes wrong -/
structure Sim {α : Type} (m : PdoInit.Act D α) (m' : PdoInit.Act E α) : Prop where
  keep : ∀ e, B e.c.w.dev → B (m e).1.c.w.dev
  keep' : ∀ e, B' e.c.w.dev → B' (m' e).1.c.w.dev
  same : ∀ e f, Eqv G e f → B (m e).1.c.w.dev ∨ B' (m' f).1.c.w.dev ∨ (Eqv G (m e).1 (m' f).1 ∧ (m e).2 = (m' f).2)

variable {dv dv' B B' G} (H : Similar dv dv' B B' G)

include H in
theorem bus_r : ∀ d e b w, B w.dev → B ((pdoBus dv).read d e b w).1.dev := by
  intro d e b w h
  have := H.r e b w.dev h
  cases d <;> simp only [pdoBus, busRead, PW.setBuf] <;> grind

include H in
theorem bus_w : ∀ d e b w, B w.dev → B ((pdoBus dv).write d e b w).1.dev := by
  intro d e b w h
  have := H.w e b w.dev h
  cases d <;> simp only [pdoBus, busWrite, PW.setBuf] <;> grind

include H in
theorem bus_r' : ∀ d e b w, B' w.dev → B' ((pdoBus dv').read d e b w).1.dev := by
  intro d e b w h
  have := H.r' e b w.dev h
  cases d <;> simp only [pdoBus, busRead, PW.setBuf] <;> grind

include H in
theorem bus_w' : ∀ d e b w, B' w.dev → B' ((pdoBus dv').write d e b w).1.dev := by
  intro d e b w h
  have := H.w' e b w.dev h
  cases d <;> simp only [pdoBus, busWrite, PW.setBuf] <;> grind

include H in
theorem bus_gr : ∀ d e b w v, GW G w v → B ((pdoBus dv).read d e b w).1.dev ∨ B' ((pdoBus dv').read d e b v).1.dev ∨
    (GW G ((pdoBus dv).read d e b w).1 ((pdoBus dv').read d e b v).1 ∧ ((pdoBus dv).read d e b w).2 = ((pdoBus dv').read d e b v).2) := by
  intro d e b w v h
  obtain ⟨h1, h2, h3, h4⟩ := h
  cases d with
  | dev =>
    have := H.gr e b w.dev v.dev h1
    simp only [pdoBus, busRead, GW]
    grind
  | pdo n =>
    refine Or.inr (Or.inr ?_)
    simp only [pdoBus, busRead, GW, PW.setBuf, h2]
    cases v.heap n with
    | none => exact ⟨⟨h1, rfl, h3, rfl⟩, rfl⟩
    | some q =>
      dsimp only
      cases q.readEntry b with
      | ok x => exact ⟨⟨h1, rfl, h3, h4⟩, rfl⟩
      | throws x => exact ⟨⟨h1, h2, h3, h4⟩, rfl⟩
      | ub => exact ⟨⟨h1, rfl, h3, rfl⟩, rfl⟩

include H in
theorem bus_gw : ∀ d e b w v, GW G w v → B ((pdoBus dv).write d e b w).1.dev ∨ B' ((pdoBus dv').write d e b v).1.dev ∨
    (GW G ((pdoBus dv).write d e b w).1 ((pdoBus dv').write d e b v).1 ∧ ((pdoBus dv).write d e b w).2 = ((pdoBus dv').write d e b v).2) := by
  intro d e b w v h
  obtain ⟨h1, h2, h3, h4⟩ := h
  cases d with
  | dev =>
    have := H.gw e b w.dev v.dev h1
    simp only [pdoBus, busWrite, GW]
    grind
  | pdo n =>
    refine Or.inr (Or.inr ?_)
    simp only [pdoBus, busWrite, GW, PW.setBuf, h2]
    cases v.heap n with
    | none => exact ⟨⟨h1, rfl, h3, rfl⟩, rfl⟩
    | some q =>
      dsimp only
      cases q.writeEntry b with
      | ok x => exact ⟨⟨h1, rfl, h3, h4⟩, rfl⟩
      | throws x => exact ⟨⟨h1, h2, h3, h4⟩, rfl⟩
      | ub => exact ⟨⟨h1, rfl, h3, rfl⟩, rfl⟩

/-! ## programs -/

theorem sim_pure {α : Type} (a : α) : Sim B B' G (pure a : PdoInit.Act D α) (pure a) :=
  ⟨fun _ h => h, fun _ h => h, fun _ _ h => Or.inr (Or.inr ⟨h, rfl⟩)⟩

theorem sim_lift {α : Type} (o : Outcome Err α) : Sim B B' G (lift o : PdoInit.Act D α) (lift o) :=
  ⟨fun _ h => h, fun _ h => h, fun _ _ h => Or.inr (Or.inr ⟨h, rfl⟩)⟩

/-- code that looks at the storage only -/
theorem sim_look {α : Type} (q : Storage → Outcome Err α) : Sim B B' G (fun e : Env D => (e, q e.s)) (fun e => (e, q e.s)) :=
  ⟨fun _ h => h, fun _ h => h, fun _ _ h => Or.inr (Or.inr ⟨h, by simp only [h.s]⟩)⟩

theorem keep_andThen {F : Type} {K : F → Prop} {α β : Type} {m : PdoInit.Act F α} {f : α → PdoInit.Act F β} (h1 : ∀ e, K e.c.w.dev → K (m e).1.c.w.dev)
    (h2 : ∀ a e, K e.c.w.dev → K (f a e).1.c.w.dev) (e : Env F) (h : K e.c.w.dev) : K ((m >>= f) e).1.c.w.dev := by
  have := h1 e h
  show K (Act.andThen m f e).1.c.w.dev
  unfold PdoInit.Act.andThen
  generalize m e = x at *
  obtain ⟨e', o⟩ := x
  cases o with
  | ok a => exact h2 a e' this
  | throws x => exact this
  | ub => exact this

theorem sim_bind {α β : Type} {m : PdoInit.Act D α} {m' : PdoInit.Act E α} {f : α → PdoInit.Act D β} {f' : α → PdoInit.Act E β} (h1 : Sim B B' G m m')
    (h2 : ∀ a, Sim B B' G (f a) (f' a)) : Sim B B' G (m >>= f) (m' >>= f') := by
  refine ⟨keep_andThen h1.keep (fun a => (h2 a).keep), keep_andThen h1.keep' (fun a => (h2 a).keep'), ?_⟩
  intro e e' h
  have key := h1.same e e' h
  show B (Act.andThen m f e).1.c.w.dev ∨ B' (Act.andThen m' f' e').1.c.w.dev ∨
    (Eqv G (Act.andThen m f e).1 (Act.andThen m' f' e').1 ∧ (Act.andThen m f e).2 = (Act.andThen m' f' e').2)
  unfold PdoInit.Act.andThen
  generalize m e = x at *
  generalize m' e' = y at *
  obtain ⟨x, o⟩ := x
  obtain ⟨y, o'⟩ := y
  rcases key with k | k | ⟨k1, k2⟩
  · left
    cases o with
    | ok a => exact (h2 a).keep x k
    | throws x => exact k
    | ub => exact k
  · right; left
    cases o' with
    | ok a => exact (h2 a).keep' y k
    | throws x => exact k
    | ub => exact k
  · dsimp only at k2
    subst k2
    cases o with
    | ok a => exact (h2 a).same x y k1
    | throws x => exact Or.inr (Or.inr ⟨k1, rfl⟩)
    | ub => exact Or.inr (Or.inr ⟨k1, rfl⟩)

theorem sim_ite {α : Type} (p : Prop) [Decidable p] {m n : PdoInit.Act D α} {m' n' : PdoInit.Act E α} (h1 : Sim B B' G m m') (h2 : Sim B B' G n n') :
    Sim B B' G (if p then m else n) (if p then m' else n') := by
  split
  · exact h1
  · exact h2

theorem sim_onlyIf (b : Bool) {m : PdoInit.Act D Unit} {m' : PdoInit.Act E Unit} (h : Sim B B' G m m') : Sim B B' G (onlyIf b m) (onlyIf b m') := by
  unfold onlyIf
  exact sim_ite _ h (sim_pure ())

theorem sim_dictAt (i : BitVec 16) (sub : BitVec 8) : Sim B B' G (dictAt i sub : PdoInit.Act D Entry) (dictAt i sub) := by
  refine ⟨fun e h => ?_, fun e h => ?_, fun e f h => ?_⟩
  · unfold dictAt; grind
  · unfold dictAt; grind
  · have := h.s
    unfold dictAt
    rw [this]
    cases f.s.dict.get (Key.ofSub i sub) <;> exact Or.inr (Or.inr ⟨h, rfl⟩)

theorem sim_openEntry (mem : Mem) (k : Key) (ty : Ty) : Sim B B' G (openEntry mem k ty : PdoInit.Act D Unit) (openEntry mem k ty) := by
  refine ⟨fun _ h => h, fun _ h => h, fun e f h => Or.inr (Or.inr ?_)⟩
  unfold openEntry
  rw [h.s]
  exact ⟨⟨rfl, h.c, h.r, h.t⟩, rfl⟩

theorem sim_descOf (k : Key) : Sim B B' G (descOf k : PdoInit.Act D Entry) (descOf k) := by
  refine ⟨fun e h => ?_, fun e h => ?_, fun e f h => ?_⟩
  · unfold descOf; grind
  · unfold descOf; grind
  · have := h.s
    unfold descOf
    rw [this]
    cases f.s.data k <;> exact Or.inr (Or.inr ⟨h, rfl⟩)

theorem sim_mapChanged (num : Nat) (i : BitVec 16) : Sim B B' G (mapChanged num i : PdoInit.Act D Bool) (mapChanged num i) := by
  refine ⟨fun e h => ?_, fun e h => ?_, fun e f h => ?_⟩
  · unfold mapChanged; grind
  · unfold mapChanged; grind
  · have := h.s
    unfold mapChanged
    rw [this]
    split
    · exact Or.inr (Or.inr ⟨h, rfl⟩)
    · cases f.s.dict.get (sub i 0) <;> exact Or.inr (Or.inr ⟨h, rfl⟩)

include H in
theorem sim_setEntry (k : Key) (v : List Byte) : Sim B B' G (setEntry dv k v) (setEntry dv' k v) := by
  refine ⟨fun e h => ?_, fun e h => ?_, fun e f h => ?_⟩
  · unfold setEntry
    have := fun d => keep_set (pdoBus dv) (fun w => B w.dev) (bus_w H) v d e.c h
    grind
  · unfold setEntry
    have := fun d => keep_set (pdoBus dv') (fun w => B' w.dev) (bus_w' H) v d e.c h
    grind
  · unfold setEntry
    rw [h.s]
    cases f.s.data k with
    | none => exact Or.inr (Or.inr ⟨h, rfl⟩)
    | some d =>
      rcases alike_set (pdoBus dv) (pdoBus dv') (fun w => B w.dev) (fun w => B' w.dev) (GW G) (bus_gw H) v d h.c with a | a | ⟨a1, a2, a3⟩
      · exact Or.inl a
      · exact Or.inr (Or.inl a)
      · exact Or.inr (Or.inr ⟨⟨by simp only [a1], a2, h.r, h.t⟩, a3⟩)

include H in
theorem sim_getEntry (k : Key) (cached : Bool) : Sim B B' G (getEntry dv k cached) (getEntry dv' k cached) := by
  refine ⟨fun e h => ?_, fun e h => ?_, fun e f h => ?_⟩
  · unfold getEntry
    have := fun d => keep_get (pdoBus dv) (fun w => B w.dev) (bus_r H) cached d e.c h
    grind
  · unfold getEntry
    have := fun d => keep_get (pdoBus dv') (fun w => B' w.dev) (bus_r' H) cached d e.c h
    grind
  · unfold getEntry
    rw [h.s]
    cases f.s.data k with
    | none => exact Or.inr (Or.inr ⟨h, rfl⟩)
    | some d =>
      rcases alike_get (pdoBus dv) (pdoBus dv') (fun w => B w.dev) (fun w => B' w.dev) (GW G) (bus_gr H) cached d h.c with a | a | ⟨a1, a2, a3⟩
      · exact Or.inl a
      · exact Or.inr (Or.inl a)
      · exact Or.inr (Or.inr ⟨⟨by simp only [a1], a2, h.r, h.t⟩, a3⟩)

include H in
theorem sim_initEntry (mem : Mem) (k : Key) : Sim B B' G (initEntry dv mem k) (initEntry dv' mem k) := by
  refine ⟨fun e h => ?_, fun e h => ?_, fun e f h => ?_⟩
  · exact keep_step (pdoBus dv) (fun w => B w.dev) (bus_r H) (bus_w H) mem e.s e.c (.init k) h
  · exact keep_step (pdoBus dv') (fun w => B' w.dev) (bus_r' H) (bus_w' H) mem e.s e.c (.init k) h
  · have key := alike_step (pdoBus dv) (pdoBus dv') (fun w => B w.dev) (fun w => B' w.dev) (GW G) (bus_w H) (bus_w' H) (bus_gr H) (bus_gw H) mem f.s (.init k) h.c
    unfold Alike at key
    unfold initEntry
    rw [h.s]
    simp only [Storage.step] at key
    rcases key with a | a | ⟨a1, a2, a3⟩
    · exact Or.inl a
    · exact Or.inr (Or.inl a)
    · exact Or.inr (Or.inr ⟨⟨a1, a2, h.r, h.t⟩, by simpa using a3⟩)

include H in
theorem sim_mapEntry (mem : Mem) (i : BitVec 16) (sub : BitVec 8) (r w : Option Nat) : Sim B B' G (mapEntry dv mem i sub r w) (mapEntry dv' mem i sub r w) := by
  refine ⟨fun e h => ?_, fun e h => ?_, fun e f h => ?_⟩
  · exact keep_map (pdoBus dv) (fun w => B w.dev) (bus_r H) (bus_w H) mem e.s i sub r w e.c h
  · exact keep_map (pdoBus dv') (fun w => B' w.dev) (bus_r' H) (bus_w' H) mem e.s i sub r w e.c h
  · have key := alike_map (pdoBus dv) (pdoBus dv') (fun w => B w.dev) (fun w => B' w.dev) (GW G) (bus_w H) (bus_w' H) (bus_gr H) (bus_gw H) mem f.s i sub r w h.c
    unfold mapEntry
    rw [h.s]
    rcases key with a | a | ⟨a1, a2, a3⟩
    · exact Or.inl a
    · exact Or.inr (Or.inl a)
    · exact Or.inr (Or.inr ⟨⟨a1, a2, h.r, h.t⟩, a3⟩)

theorem sim_newBuf (size : Nat) : Sim B B' G (newBuf size : PdoInit.Act D Nat) (newBuf size) := by
  refine ⟨fun _ h => h, fun _ h => h, fun e f h => Or.inr (Or.inr ?_)⟩
  obtain ⟨h0, ⟨⟨h1, h2, h3, h4⟩, h5⟩, h6, h7⟩ := h
  exact ⟨⟨h0, ⟨⟨h1, by simp only [newBuf, PW.setBuf, h2, h3], by simp only [newBuf, h3], h4⟩, h5⟩, h6, h7⟩, by simp only [newBuf, h3]⟩

theorem sim_cleanBuf (n : Nat) : Sim B B' G (cleanBuf n : PdoInit.Act D Unit) (cleanBuf n) := by
  refine ⟨fun _ h => h, fun _ h => h, fun e f h => Or.inr (Or.inr ?_)⟩
  obtain ⟨h0, ⟨⟨h1, h2, h3, h4⟩, h5⟩, h6, h7⟩ := h
  exact ⟨⟨h0, ⟨⟨h1, by simp only [cleanBuf, PW.setBuf, h2], h3, h4⟩, h5⟩, h6, h7⟩, rfl⟩

theorem eqv_freeBufs (ns : List Nat) {e : Env D} {f : Env E} (h : Eqv G e f) : Eqv G (freeBufs ns e) (freeBufs ns f) := by
  obtain ⟨h0, ⟨⟨h1, h2, h3, h4⟩, h5⟩, h6, h7⟩ := h
  exact ⟨h0, ⟨⟨h1, by simp only [freeBufs, h2], h3, h4⟩, h5⟩, h6, h7⟩

include H in
theorem sim_setConfigured (k : Key) (init : HoldAny) : Sim B B' G (setConfigured dv k init) (setConfigured dv' k init) := by
  unfold setConfigured
  cases init with
  | none => exact sim_pure ()
  | empty t => exact sim_pure ()
  | val p => exact sim_bind (sim_lift _) fun v => sim_setEntry H k _

include H in
theorem sim_mapOne (mem : Mem) (p : Pdo.PdoMap) (n : Nat) (read write : Bool) : Sim B B' G (mapOne dv mem p n read write) (mapOne dv' mem p n read write) := by
  unfold mapOne
  exact sim_ite _ (sim_pure ()) (sim_ite _ (sim_bind (sim_mapEntry H mem _ _ _ _) fun _ => sim_pure ()) (sim_pure ()))

include H in
theorem sim_mapLoop (mem : Mem) (map : BitVec 16) (read write : Bool) (ss : List Nat) (dlc : Byte) (bufs : List Nat) :
    Sim B B' G (mapLoop dv mem map read write ss dlc bufs) (mapLoop dv' mem map read write ss dlc bufs) := by
  induction ss generalizing dlc bufs with
  | nil => exact sim_pure _
  | cons s ss ih =>
    unfold mapLoop
    exact sim_bind (sim_openEntry mem _ _) fun _ => sim_bind (sim_dictAt _ _) fun x => sim_bind (sim_setConfigured H _ _) fun _ =>
      sim_bind (sim_getEntry H _ _) fun v => sim_bind (sim_newBuf _) fun n => sim_bind (sim_mapOne H mem _ n read write) fun _ =>
      sim_bind (sim_cleanBuf n) fun _ => ih _ _

include H in
theorem sim_comLoop (mem : Mem) (com : BitVec 16) (ss : List Nat) : Sim B B' G (comLoop dv mem com ss) (comLoop dv' mem com ss) := by
  induction ss with
  | nil => exact sim_pure _
  | cons s ss ih =>
    have hi := sim_initEntry H mem (sub com s)
    refine ⟨fun e h => ?_, fun e h => ?_, fun e f h => ?_⟩
    · have k := hi.keep e h
      unfold comLoop
      split
      · exact ih.keep e h
      · generalize initEntry dv mem (sub com s) e = x at *
        obtain ⟨x, o⟩ := x
        cases o with
        | ok a => exact ih.keep x k
        | throws y => cases y <;> first | exact k | exact ih.keep x k
        | ub => exact k
    · have k := hi.keep' e h
      unfold comLoop
      split
      · exact ih.keep' e h
      · generalize initEntry dv' mem (sub com s) e = x at *
        obtain ⟨x, o⟩ := x
        cases o with
        | ok a => exact ih.keep' x k
        | throws y => cases y <;> first | exact k | exact ih.keep' x k
        | ub => exact k
    · have k := hi.same e f h
      unfold comLoop
      split
      · exact ih.same e f h
      · generalize initEntry dv mem (sub com s) e = x at *
        generalize initEntry dv' mem (sub com s) f = z at *
        obtain ⟨x, o⟩ := x
        obtain ⟨z, o'⟩ := z
        rcases k with k | k | ⟨k1, k2⟩
        · left
          cases o with
          | ok a => exact ih.keep x k
          | throws y => cases y <;> first | exact k | exact ih.keep x k
          | ub => exact k
        · right; left
          cases o' with
          | ok a => exact ih.keep' z k
          | throws y => cases y <;> first | exact k | exact ih.keep' z k
          | ub => exact k
        · dsimp only at k2
          subst k2
          cases o with
          | ok a => exact ih.same x z k1
          | throws y => cases y <;> first | exact Or.inr (Or.inr ⟨k1, rfl⟩) | exact ih.same x z k1
          | ub => exact Or.inr (Or.inr ⟨k1, rfl⟩)

include H in
theorem sim_parseAndSet (mem : Mem) (com map : BitVec 16) (read write : Bool) :
    Sim B B' G (parseAndSet dv mem com map read write) (parseAndSet dv' mem com map read write) := by
  unfold parseAndSet
  refine sim_bind (sim_openEntry mem _ _) fun _ => sim_bind (sim_descOf _) fun x => sim_bind (sim_mapChanged _ _) fun mapCh =>
    sim_bind (sim_look fun s => .ok s.dict) fun dict => sim_bind ?_ fun _ => sim_bind ?_ fun r => sim_bind ?_ fun _ => sim_bind ?_ fun _ => sim_pure r
  · unfold disable
    exact sim_bind (sim_openEntry mem _ _) fun _ => sim_bind (sim_descOf _) fun x =>
      sim_ite _ (sim_bind (sim_getEntry H _ _) fun v => sim_setEntry H _ _) (sim_pure ())
  · unfold setMapping
    exact sim_ite _ (sim_bind (sim_onlyIf _ (sim_setEntry H _ _)) fun _ => sim_mapLoop H mem map read write _ _ _) (sim_pure _)
  · unfold setCom
    exact sim_ite _ (sim_bind (sim_dictAt _ _) fun x => sim_bind (sim_lift _) fun n => sim_ite _ (sim_lift _) (sim_comLoop H mem com _)) (sim_pure ())
  · unfold enable
    exact sim_bind (sim_onlyIf _ (sim_setEntry H _ _)) fun _ => sim_bind (sim_descOf _) fun x =>
      sim_ite _ (sim_bind (sim_initEntry H mem _) fun _ => sim_bind (sim_dictAt _ _) fun y =>
        sim_bind (sim_look fun s => applyOffset .u32 y.value s.nodeId) fun v => sim_setEntry H _ _) (sim_pure ())

theorem sim_cobWord (com : BitVec 16) : Sim B B' G (cobWord com : PdoInit.Act D (BitVec 32)) (cobWord com) := by
  unfold cobWord
  exact sim_bind (sim_dictAt _ _) fun y => sim_look fun s => applyOffset .u32 y.value s.nodeId

include H in
theorem sim_rpdoInit (mem : Mem) (junk : Vector Byte 8) (com map : BitVec 16) : Sim B B' G (rpdoInit dv mem junk com map) (rpdoInit dv' mem junk com map) := by
  unfold rpdoInit
  exact sim_bind (sim_parseAndSet H mem com map true false) fun r => sim_bind (sim_cobWord com) fun w =>
    sim_ite _ (sim_pure _) (sim_bind (sim_dictAt _ _) fun y => sim_bind (sim_lift _) fun t => sim_pure _)

include H in
theorem sim_tpdoInit (mem : Mem) (junk : Vector Byte 8) (com map : BitVec 16) : Sim B B' G (tpdoInit dv mem junk com map) (tpdoInit dv' mem junk com map) := by
  unfold tpdoInit
  refine sim_bind (sim_cobWord com) fun w => sim_bind (sim_parseAndSet H mem com map false true) fun r =>
    sim_ite _ (sim_pure _) (sim_bind (sim_openEntry mem _ _) fun _ => sim_bind (sim_descOf _) fun y => sim_bind (sim_lift _) fun t =>
      sim_bind ?_ fun _ => sim_pure _)
  unfold enforceType
  split
  · exact sim_setEntry H _ _
  · exact sim_pure ()

theorem sim_create {m : PdoInit.Act D (Option Rec)} {m' : PdoInit.Act E (Option Rec)} (h : Sim B B' G m m') : Sim B B' G (create m) (create m') := by
  refine ⟨fun e hb => ?_, fun e hb => ?_, fun e f he => ?_⟩
  · have k := h.keep e hb
    unfold create
    dsimp only
    split <;> exact k
  · have k := h.keep' e hb
    unfold create
    dsimp only
    split <;> exact k
  · have k := h.same e f he
    have n1 : e.c.w.next = f.c.w.next := he.c.1.2.2.1
    unfold create
    dsimp only
    generalize m e = x at *
    generalize m' f = y at *
    obtain ⟨x, o⟩ := x
    obtain ⟨y, o'⟩ := y
    rcases k with k | k | ⟨k1, k2⟩
    · left
      split <;> exact k
    · right; left
      split <;> exact k
    · right; right
      dsimp only at k2
      subst k2
      have n2 : x.c.w.next = y.c.w.next := k1.c.1.2.2.1
      have k3 := eqv_freeBufs (List.range' f.c.w.next (y.c.w.next - f.c.w.next)) k1
      dsimp only
      rw [n1, n2]
      cases o with
      | ok a => cases a with
        | none => exact ⟨k3, rfl⟩
        | some a => exact ⟨k1, rfl⟩
      | throws a => exact ⟨k3, rfl⟩
      | ub => exact ⟨k3, rfl⟩

include H in
theorem sim_rpdoLoop (mem : Mem) (junk : Vector Byte 8) (nr : Nat) (is : List Nat) : Sim B B' G (rpdoLoop dv mem junk nr is) (rpdoLoop dv' mem junk nr is) := by
  induction is with
  | nil => exact sim_pure _
  | cons i is ih =>
    have hi := sim_create (sim_rpdoInit H mem junk (0x1800#16 + BitVec.ofNat 16 i) (0x1A00#16 + BitVec.ofNat 16 i))
    refine ⟨fun e h => ?_, fun e h => ?_, fun e f h => ?_⟩
    · have k := hi.keep e h
      unfold rpdoLoop
      dsimp only
      split
      · split
        · exact ih.keep e h
        · generalize create (rpdoInit dv mem junk _ _) e = x at *
          obtain ⟨x, o⟩ := x
          cases o with
          | ok a => cases a with
            | none => exact ih.keep x k
            | some a => exact ih.keep { x with rpdos := x.rpdos ++ [a] } k
          | throws y => exact k
          | ub => exact k
      · exact h
    · have k := hi.keep' e h
      unfold rpdoLoop
      dsimp only
      split
      · split
        · exact ih.keep' e h
        · generalize create (rpdoInit dv' mem junk _ _) e = x at *
          obtain ⟨x, o⟩ := x
          cases o with
          | ok a => cases a with
            | none => exact ih.keep' x k
            | some a => exact ih.keep' { x with rpdos := x.rpdos ++ [a] } k
          | throws y => exact k
          | ub => exact k
      · exact h
    · have k := hi.same e f h
      unfold rpdoLoop
      dsimp only
      rw [h.s, h.r]
      split
      · split
        · exact ih.same e f h
        · generalize create (rpdoInit dv mem junk _ _) e = x at *
          generalize create (rpdoInit dv' mem junk _ _) f = y at *
          obtain ⟨x, o⟩ := x
          obtain ⟨y, o'⟩ := y
          rcases k with k | k | ⟨k1, k2⟩
          · left
            cases o with
            | ok a => cases a with
              | none => exact ih.keep x k
              | some a => exact ih.keep { x with rpdos := x.rpdos ++ [a] } k
            | throws y => exact k
            | ub => exact k
          · right; left
            cases o' with
            | ok a => cases a with
              | none => exact ih.keep' y k
              | some a => exact ih.keep' { y with rpdos := y.rpdos ++ [a] } k
            | throws y => exact k
            | ub => exact k
          · dsimp only at k2
            subst k2
            cases o with
            | ok a => cases a with
              | none => exact ih.same x y k1
              | some a => exact ih.same { x with rpdos := x.rpdos ++ [a] } { y with rpdos := y.rpdos ++ [a] } ⟨k1.s, k1.c, congrArg (· ++ [a]) k1.r, k1.t⟩
            | throws y => exact Or.inr (Or.inr ⟨k1, rfl⟩)
            | ub => exact Or.inr (Or.inr ⟨k1, rfl⟩)
      · exact Or.inr (Or.inr ⟨h, rfl⟩)

include H in
theorem sim_tpdoLoop (mem : Mem) (junk : Vector Byte 8) (nr : Nat) (is : List Nat) : Sim B B' G (tpdoLoop dv mem junk nr is) (tpdoLoop dv' mem junk nr is) := by
  induction is with
  | nil => exact sim_pure _
  | cons i is ih =>
    have hi := sim_create (sim_tpdoInit H mem junk (0x1400#16 + BitVec.ofNat 16 i) (0x1600#16 + BitVec.ofNat 16 i))
    refine ⟨fun e h => ?_, fun e h => ?_, fun e f h => ?_⟩
    · have k := hi.keep e h
      unfold tpdoLoop
      dsimp only
      split
      · split
        · exact ih.keep e h
        · generalize create (tpdoInit dv mem junk _ _) e = x at *
          obtain ⟨x, o⟩ := x
          cases o with
          | ok a => cases a with
            | none => exact ih.keep x k
            | some a => exact ih.keep { x with tpdos := x.tpdos ++ [a] } k
          | throws y => exact k
          | ub => exact k
      · exact h
    · have k := hi.keep' e h
      unfold tpdoLoop
      dsimp only
      split
      · split
        · exact ih.keep' e h
        · generalize create (tpdoInit dv' mem junk _ _) e = x at *
          obtain ⟨x, o⟩ := x
          cases o with
          | ok a => cases a with
            | none => exact ih.keep' x k
            | some a => exact ih.keep' { x with tpdos := x.tpdos ++ [a] } k
          | throws y => exact k
          | ub => exact k
      · exact h
    · have k := hi.same e f h
      unfold tpdoLoop
      dsimp only
      rw [h.s, h.t]
      split
      · split
        · exact ih.same e f h
        · generalize create (tpdoInit dv mem junk _ _) e = x at *
          generalize create (tpdoInit dv' mem junk _ _) f = y at *
          obtain ⟨x, o⟩ := x
          obtain ⟨y, o'⟩ := y
          rcases k with k | k | ⟨k1, k2⟩
          · left
            cases o with
            | ok a => cases a with
              | none => exact ih.keep x k
              | some a => exact ih.keep { x with tpdos := x.tpdos ++ [a] } k
            | throws y => exact k
            | ub => exact k
          · right; left
            cases o' with
            | ok a => cases a with
              | none => exact ih.keep' y k
              | some a => exact ih.keep' { y with tpdos := y.tpdos ++ [a] } k
            | throws y => exact k
            | ub => exact k
          · dsimp only at k2
            subst k2
            cases o with
            | ok a => cases a with
              | none => exact ih.same x y k1
              | some a => exact ih.same { x with tpdos := x.tpdos ++ [a] } { y with tpdos := y.tpdos ++ [a] } ⟨k1.s, k1.c, k1.r, congrArg (· ++ [a]) k1.t⟩
            | throws y => exact Or.inr (Or.inr ⟨k1, rfl⟩)
            | ub => exact Or.inr (Or.inr ⟨k1, rfl⟩)
      · exact Or.inr (Or.inr ⟨h, rfl⟩)

theorem sim_clearRpdos : Sim B B' G (clearRpdos : PdoInit.Act D Unit) clearRpdos := by
  refine ⟨fun _ h => h, fun _ h => h, fun e f h => Or.inr (Or.inr ⟨?_, rfl⟩)⟩
  have k := eqv_freeBufs (f.rpdos.flatMap (·.bufs)) h
  unfold clearRpdos
  rw [h.r]
  exact ⟨k.s, k.c, rfl, k.t⟩

theorem sim_clearTpdos : Sim B B' G (clearTpdos : PdoInit.Act D Unit) clearTpdos := by
  refine ⟨fun _ h => h, fun _ h => h, fun e f h => Or.inr (Or.inr ⟨?_, rfl⟩)⟩
  have k := eqv_freeBufs (f.tpdos.flatMap (·.bufs)) h
  unfold clearTpdos
  rw [h.t]
  exact ⟨k.s, k.c, k.r, rfl⟩

include H in
theorem sim_mapperInit (mem : Mem) (junk : Vector Byte 8) (nrTx nrRx : Nat) :
    Sim B B' G (mapperInit dv mem junk nrTx nrRx) (mapperInit dv' mem junk nrTx nrRx) := by
  have hi : Sim B B' G (initBody dv mem junk nrTx nrRx) (initBody dv' mem junk nrTx nrRx) := by
    unfold initBody
    exact sim_bind sim_clearRpdos fun _ => sim_bind (sim_rpdoLoop H mem junk nrTx _) fun _ => sim_bind sim_clearTpdos fun _ => sim_tpdoLoop H mem junk nrRx _
  refine ⟨fun e h => ?_, fun e h => ?_, fun e f h => ?_⟩
  · have k := hi.keep e h
    unfold mapperInit
    generalize initBody dv mem junk nrTx nrRx e = x at *
    obtain ⟨x, o⟩ := x
    cases o with
    | ok a => exact k
    | throws y => cases y <;> exact k
    | ub => exact k
  · have k := hi.keep' e h
    unfold mapperInit
    generalize initBody dv' mem junk nrTx nrRx e = x at *
    obtain ⟨x, o⟩ := x
    cases o with
    | ok a => exact k
    | throws y => cases y <;> exact k
    | ub => exact k
  · have k := hi.same e f h
    unfold mapperInit
    generalize initBody dv mem junk nrTx nrRx e = x at *
    generalize initBody dv' mem junk nrTx nrRx f = z at *
    obtain ⟨x, o⟩ := x
    obtain ⟨z, o'⟩ := z
    rcases k with k | k | ⟨k1, k2⟩
    · left
      cases o with
      | ok a => exact k
      | throws y => cases y <;> exact k
      | ub => exact k
    · right; left
      cases o' with
      | ok a => exact k
      | throws y => cases y <;> exact k
      | ub => exact k
    · dsimp only at k2
      subst k2
      right; right
      cases o with
      | ok a => exact ⟨k1, rfl⟩
      | throws y => cases y <;> exact ⟨k1, rfl⟩
      | ub => exact ⟨k1, rfl⟩

/-- a change of the devices themselves -/
structure Changes (change : Sdo.Obj → List Byte → D → D) (change' : Sdo.Obj → List Byte → E → E) (B : D → Prop) (B' : E → Prop) (G : D → E → Prop) : Prop where
  k : ∀ o v d, B d → B (change o v d)
  k' : ∀ o v d, B' d → B' (change' o v d)
  g : ∀ o v d d', G d d' → G (change o v d) (change' o v d')

include H in
theorem happens_alike {change : Sdo.Obj → List Byte → D → D} {change' : Sdo.Obj → List Byte → E → E} (hc : Changes change change' B B' G)
    (mem : Mem) (junk : Vector Byte 8) (nrTx nrRx : Nat) (a : Ev) :
    (∀ e, B e.c.w.dev → B (happens dv change mem junk nrTx nrRx e a).1.c.w.dev) ∧
    (∀ e, B' e.c.w.dev → B' (happens dv' change' mem junk nrTx nrRx e a).1.c.w.dev) ∧
    (∀ e f, Eqv G e f → B (happens dv change mem junk nrTx nrRx e a).1.c.w.dev ∨ B' (happens dv' change' mem junk nrTx nrRx f a).1.c.w.dev ∨
      (Eqv G (happens dv change mem junk nrTx nrRx e a).1 (happens dv' change' mem junk nrTx nrRx f a).1 ∧
        (happens dv change mem junk nrTx nrRx e a).2 = (happens dv' change' mem junk nrTx nrRx f a).2)) := by
  cases a with
  | use o =>
    refine ⟨fun e h => keep_step (pdoBus dv) (fun w => B w.dev) (bus_r H) (bus_w H) mem e.s e.c o h,
      fun e h => keep_step (pdoBus dv') (fun w => B' w.dev) (bus_r' H) (bus_w' H) mem e.s e.c o h, fun e f h => ?_⟩
    have key := alike_step (pdoBus dv) (pdoBus dv') (fun w => B w.dev) (fun w => B' w.dev) (GW G) (bus_w H) (bus_w' H) (bus_gr H) (bus_gw H) mem f.s o h.c
    simp only [happens]
    rw [h.s]
    rcases key with a | a | ⟨a1, a2, a3⟩
    · exact Or.inl a
    · exact Or.inr (Or.inl a)
    · exact Or.inr (Or.inr ⟨⟨a1, a2, h.r, h.t⟩, congrArg Res.used a3⟩)
  | setUp =>
    have key := sim_mapperInit H mem junk nrTx nrRx
    simp only [happens]
    refine ⟨key.keep, key.keep', fun e f h => ?_⟩
    rcases key.same e f h with a | a | ⟨a1, a2⟩
    · exact Or.inl a
    · exact Or.inr (Or.inl a)
    · exact Or.inr (Or.inr ⟨a1, congrArg Res.setUp a2⟩)
  | deviceChanges o v =>
    exact ⟨fun e h => hc.k o v _ h, fun e h => hc.k' o v _ h, fun e f h => Or.inr (Or.inr
      ⟨⟨h.s, ⟨⟨hc.g o v _ _ h.c.1.1, h.c.1.2.1, h.c.1.2.2.1, h.c.1.2.2.2⟩, h.c.2⟩, h.r, h.t⟩, rfl⟩)⟩

include H in
theorem history_alike {change : Sdo.Obj → List Byte → D → D} {change' : Sdo.Obj → List Byte → E → E} (hc : Changes change change' B B' G)
    (mem : Mem) (junk : Vector Byte 8) (nrTx nrRx : Nat) (as : List Ev) :
    (∀ e, B e.c.w.dev → B (history dv change mem junk nrTx nrRx e as).1.c.w.dev) ∧
    (∀ e, B' e.c.w.dev → B' (history dv' change' mem junk nrTx nrRx e as).1.c.w.dev) ∧
    (∀ e f, Eqv G e f → B (history dv change mem junk nrTx nrRx e as).1.c.w.dev ∨ B' (history dv' change' mem junk nrTx nrRx f as).1.c.w.dev ∨
      (Eqv G (history dv change mem junk nrTx nrRx e as).1 (history dv' change' mem junk nrTx nrRx f as).1 ∧
        (history dv change mem junk nrTx nrRx e as).2 = (history dv' change' mem junk nrTx nrRx f as).2)) := by
  induction as with
  | nil => exact ⟨fun _ h => h, fun _ h => h, fun _ _ h => Or.inr (Or.inr ⟨h, rfl⟩)⟩
  | cons a as ih =>
    obtain ⟨i1, i2, i3⟩ := ih
    obtain ⟨a1, a2, a3⟩ := happens_alike H hc mem junk nrTx nrRx a
    refine ⟨fun e h => i1 _ (a1 e h), fun e h => i2 _ (a2 e h), fun e f h => ?_⟩
    rcases a3 e f h with b | b | ⟨b1, b2⟩
    · exact Or.inl (i1 _ b)
    · exact Or.inr (Or.inl (i2 _ b))
    · rcases i3 _ _ b1 with c | c | ⟨c1, c2⟩
      · exact Or.inl c
      · exact Or.inr (Or.inl c)
      · exact Or.inr (Or.inr ⟨c1, by simp only [history, b2, c2]⟩)

end

/-! ## the bus, the memory, and a device that follows the rules -/

open Verif.Spec.Sdo Verif.Spec.Chan

theorem bus_memory (cfg : Config) (hcfg : cfg.Legal) (sid : Header) :
    Similar (overBus cfg sid) (inMemory cfg) (fun w => w.hung = true) (fun v => v.fair = false) (Match sid) where
  r e b w h := wired_read_hung cfg sid nothing .dev e b w h
  w e b w h := wired_write_hung cfg sid nothing .dev e b w h
  r' e b w h := direct_read_unfair cfg nothing .dev e b w h
  w' e b w h := direct_write_unfair cfg nothing .dev e b w h
  gr e b w v h := match_read cfg hcfg sid nothing .dev e b w v h
  gw e b w v h := match_write cfg hcfg sid nothing .dev e b w v h

theorem supported_exact (cfg : Config) (store : Sdo.Obj → List Byte) (o : Sdo.Obj) (data : List Byte) (up : Bool)
    (h : supported (exact cfg) store o data up = true) : supported cfg store o data up = true := by
  unfold supported exact at *
  cases up <;> simp_all

theorem bus_exact (cfg : Config) (hcfg : cfg.Legal) (sid : Header) :
    Similar (overBus cfg sid) (inMemory (exact cfg)) (fun w => w.hung = true) (fun v => v.fair = false) (Match sid) where
  r e b w h := wired_read_hung cfg sid nothing .dev e b w h
  w e b w h := wired_write_hung cfg sid nothing .dev e b w h
  r' e b w h := direct_read_unfair (exact cfg) nothing .dev e b w h
  w' e b w h := direct_write_unfair (exact cfg) nothing .dev e b w h
  gr e b w v h := by
    have key := match_read cfg hcfg sid nothing .dev e b w v h
    have h2 := h.2.1
    cases hs : supported (exact cfg) v.store (objOf e) b true with
    | false => right; left; simp [inMemory, direct, hs]
    | true =>
      have hs' := supported_exact cfg _ _ _ _ hs
      have : (direct cfg nothing).read .dev e b v = (inMemory (exact cfg)).read e b v := by simp [inMemory, direct, hs, hs']
      rw [this] at key
      exact key
  gw e b w v h := by
    have key := match_write cfg hcfg sid nothing .dev e b w v h
    have h2 := h.2.1
    cases hs : supported (exact cfg) v.store (objOf e) b false with
    | false => right; left; simp [inMemory, direct, hs]
    | true =>
      have hs' := supported_exact cfg _ _ _ _ hs
      have : (direct cfg nothing).write .dev e b v = (inMemory (exact cfg)).write e b v := by simp [inMemory, direct, hs, hs']
      rw [this] at key
      exact key

/-- a device that follows the rules and was asked nothing forbidden, and the memory -/
def Same (d : Strict) (v : Memory Unit) : Prop := d.store = contents v.store ∧ d.broken = false ∧ v.fair = true

theorem heedful_memory (cfg : Config) : Similar heedful (inMemory (exact cfg)) (fun d => d.broken = true) (fun v => v.fair = false) Same where
  r e b d h := by
    simp only [heedful, strictDev]
    split <;> exact h
  w e b d h := by
    simp only [heedful, strictDev]
    split <;> simp [h]
  r' e b w h := direct_read_unfair (exact cfg) nothing .dev e b w h
  w' e b w h := direct_write_unfair (exact cfg) nothing .dev e b w h
  gr e b d v h := by
    obtain ⟨h1, h2, h3⟩ := h
    right
    cases hs : supported (exact cfg) v.store (objOf e) b true with
    | false => left; simp [inMemory, direct, hs]
    | true =>
      right
      have hs2 := hs
      simp only [supported, exact, if_true, Bool.false_eq_true, and_false, false_or, decide_eq_true_eq] at hs2
      have hst : d.store e.index e.subIndex = v.store (objOf e) := by rw [h1]; rfl
      have hlen : (d.store e.index e.subIndex).length = b.length := by rw [hst]; exact hs2.2.2.symm
      simp only [heedful, strictDev, hlen, if_true, inMemory, direct, hs, h3, Bool.and_self]
      exact ⟨⟨h1, h2, rfl⟩, by rw [hst]⟩
  gw e b d v h := by
    obtain ⟨h1, h2, h3⟩ := h
    cases hf : d.store.forbids e.index e.subIndex b with
    | true => left; simp [heedful, strictDev, hf]
    | false =>
      right
      cases hs : supported (exact cfg) v.store (objOf e) b false with
      | false => left; simp [inMemory, direct, hs]
      | true =>
        right
        simp only [heedful, strictDev, hf, Bool.false_eq_true, if_false, inMemory, direct, hs, h3, Bool.and_self]
        refine ⟨⟨?_, h2, rfl⟩, trivial⟩
        funext i s
        simp only [Contents.write, contents, h1, objOf, Sdo.Obj.mk.injEq]

end Verif.Spec.PBus
