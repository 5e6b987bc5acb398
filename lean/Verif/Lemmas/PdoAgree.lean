import Verif.Lemmas.PdoDevice

/-!
# Setting up a PDO leaves the parameters of the others on the device
-/

set_option linter.unusedSimpArgs false

namespace Verif.PdoInit
open Verif Verif.OD Verif.Spec Verif.Pdo

section
variable {nr nw : Entry → List Byte → Contents → Option Nat} {dict : Dict} {com map j : BitVec 16} {t : BitVec 8} {val : List Byte}

theorem holds_disable (mem : Mem) (ch : Bool) (hj : j ≠ com) : Keep (HoldsAt dict j t val) (disable (strictDev nr nw) mem com ch) := by
  unfold disable
  refine keep_bind (holds_open _ _ _) fun _ => keep_bind (keep_descOf _) fun x => keep_ite (fun _ => ?_) (fun _ => keep_pure _)
  exact keep_bind (holds_get _ _) fun v => fun e h => holds_one (setEntry_one _ _ _ e) (fun hc => hj hc.1) h

theorem holds_setMapping (mem : Mem) (read write : Bool) (num : Nat) (ch : Bool) (hj : j ≠ map) :
    Keep (HoldsAt dict j t val) (setMapping (strictDev nr nw) mem map read write num ch) := by
  unfold setMapping
  refine keep_ite (fun _ => ?_) (fun _ => keep_pure _)
  exact keep_bind (keep_onlyIf _ (fun e h => holds_one (setEntry_one _ _ _ e) (fun hc => hj hc.1) h)) fun _ =>
    holds_mapLoop mem read write _ (fun s _ hc => hj hc.1) _ _

theorem holds_parse (mem : Mem) (read write : Bool) (hj : j ≠ com) (hm : j ≠ map) :
    Keep (HoldsAt dict j t val) (parseAndSet (strictDev nr nw) mem com map read write) := by
  unfold parseAndSet
  exact keep_bind (holds_open _ _ _) fun _ => keep_bind (keep_descOf _) fun x => keep_bind (keep_mapChanged _ _) fun b => keep_bind (keep_read _) fun d =>
    keep_bind (holds_disable mem _ hj) fun _ => keep_bind (holds_setMapping mem _ _ _ _ hm) fun r => keep_bind (holds_setCom mem _ hj) fun _ =>
      keep_bind (holds_enable mem _ _ _ hj (fun hc => hm hc.1)) fun _ => keep_pure _

theorem holds_cob : Keep (HoldsAt dict j t val) (cobWord com : Act Strict (BitVec 32)) := by
  unfold cobWord
  exact keep_bind (keep_dictAt _ _) fun y => keep_read _

theorem holds_rpdo (mem : Mem) (junk : Vector Byte 8) (hj : j ≠ com) (hm : j ≠ map) :
    Keep (HoldsAt dict j t val) (rpdoInit (strictDev nr nw) mem junk com map) := by
  unfold rpdoInit
  exact keep_bind (holds_parse mem _ _ hj hm) fun r => keep_bind holds_cob fun w => keep_ite (fun _ => keep_pure _) fun _ =>
    keep_bind (keep_dictAt _ _) fun y => keep_bind (keep_lift _) fun t => keep_pure _

theorem holds_tpdo (mem : Mem) (junk : Vector Byte 8) (hj : j ≠ com) (hm : j ≠ map) :
    Keep (HoldsAt dict j t val) (tpdoInit (strictDev nr nw) mem junk com map) := by
  unfold tpdoInit
  refine keep_bind holds_cob fun w => keep_bind (holds_parse mem _ _ hj hm) fun r => keep_ite (fun _ => keep_pure _) fun _ =>
    keep_bind (holds_open _ _ _) fun _ => keep_bind (keep_descOf _) fun y => keep_bind (keep_lift _) fun t => keep_bind ?_ fun _ => keep_pure _
  unfold enforceType
  exact keep_ite (fun _ e h => holds_one (setEntry_one _ _ _ e) (fun hc => hj hc.1) h) fun _ => keep_pure _

theorem holds_free {e : Env Strict} (ns : List Nat) (h : HoldsAt dict j t val e) : HoldsAt dict j t val (freeBufs ns e) :=
  ⟨⟨h.1.cons, h.1.isDict, h.1.keys⟩, h.2⟩

theorem holds_rpdoLoop (mem : Mem) (junk : Vector Byte 8) (n : Nat) (is : List Nat) (hj : ∀ i ∈ is, j ≠ (sends i).1 ∧ j ≠ (sends i).2) :
    Keep (HoldsAt dict j t val) (rpdoLoop (strictDev nr nw) mem junk n is) := by
  induction is with
  | nil => exact keep_pure _
  | cons i is ih =>
    have ih := ih fun k hk => hj k (List.mem_cons_of_mem _ hk)
    obtain ⟨h1, h2⟩ := hj i List.mem_cons_self
    intro e he
    unfold rpdoLoop
    dsimp only
    split
    · split
      · exact ih e he
      · have h := keep_create (I := HoldsAt dict j t val) (fun ns _ h => holds_free ns h) (holds_rpdo (nr := nr) (nw := nw) mem junk h1 h2) e he
        unfold sends at h
        revert h
        dsimp only
        generalize create (rpdoInit (strictDev nr nw) mem junk (0x1800#16 + BitVec.ofNat 16 i) (0x1A00#16 + BitVec.ofNat 16 i)) e = r
        obtain ⟨e', o⟩ := r
        intro h
        cases o with
        | ok o =>
          cases o with
          | some x => exact ih _ ⟨⟨h.1.cons, h.1.isDict, h.1.keys⟩, h.2⟩
          | none => exact ih _ h
        | throws x => exact h
        | ub => exact h
    · exact he

theorem holds_tpdoLoop (mem : Mem) (junk : Vector Byte 8) (n : Nat) (is : List Nat) (hj : ∀ i ∈ is, j ≠ (receives i).1 ∧ j ≠ (receives i).2) :
    Keep (HoldsAt dict j t val) (tpdoLoop (strictDev nr nw) mem junk n is) := by
  induction is with
  | nil => exact keep_pure _
  | cons i is ih =>
    have ih := ih fun k hk => hj k (List.mem_cons_of_mem _ hk)
    obtain ⟨h1, h2⟩ := hj i List.mem_cons_self
    intro e he
    unfold tpdoLoop
    dsimp only
    split
    · split
      · exact ih e he
      · have h := keep_create (I := HoldsAt dict j t val) (fun ns _ h => holds_free ns h) (holds_tpdo (nr := nr) (nw := nw) mem junk h1 h2) e he
        unfold receives at h
        revert h
        dsimp only
        generalize create (tpdoInit (strictDev nr nw) mem junk (0x1400#16 + BitVec.ofNat 16 i) (0x1600#16 + BitVec.ofNat 16 i)) e = r
        obtain ⟨e', o⟩ := r
        intro h
        cases o with
        | ok o =>
          cases o with
          | some x => exact ih _ ⟨⟨h.1.cons, h.1.isDict, h.1.keys⟩, h.2⟩
          | none => exact ih _ h
        | throws x => exact h
        | ub => exact h
    · exact he

/-- the device keeps its configuration of a PDO when something else is done that leaves its parameters alone -/
theorem applied_keep {node : BitVec 8} {e e' : Env Strict} (h : Applied dict node com map e) (h1 : ∀ s, e'.c.w.dev.store com s = e.c.w.dev.store com s)
    (h2 : ∀ s, e'.c.w.dev.store map s = e.c.w.dev.store map s) (h3 : ∀ k, Plain k e' → Plain k e) : Applied dict node com map e' := by
  refine ⟨?_, by rw [h2]; exact h.count, fun s x w a1 a2 a3 a4 a5 a6 => by rw [h2]; exact h.entries s x w a1 a2 a3 a4 a5 (h3 _ a6)⟩
  rw [h.id]
  unfold Contents.cob
  rw [h1]

theorem params_distinct {i k : Nat} (hi : i < 512) (hk : k < 512) :
    (i ≠ k → ((sends i).1 ≠ (sends k).1 ∧ (sends i).2 ≠ (sends k).2 ∧ (receives i).1 ≠ (receives k).1 ∧ (receives i).2 ≠ (receives k).2)) ∧
    (sends i).1 ≠ (sends k).2 ∧ (sends i).2 ≠ (sends k).1 ∧ (receives i).1 ≠ (receives k).2 ∧ (receives i).2 ≠ (receives k).1 ∧
    (sends i).1 ≠ (receives k).1 ∧ (sends i).1 ≠ (receives k).2 ∧ (sends i).2 ≠ (receives k).1 ∧ (sends i).2 ≠ (receives k).2 := by
  unfold sends receives
  simp only [ne_eq, ← BitVec.toNat_inj, BitVec.toNat_add, BitVec.toNat_ofNat]
  refine ⟨fun h => ⟨?_, ?_, ?_, ?_⟩, ?_, ?_, ?_, ?_, ?_, ?_, ?_, ?_⟩ <;> omega

end

end Verif.PdoInit
