import Verif.Lemmas.PdoDevice
import Verif.Props.PdoInit

/-!
# C110: setting up PDOs on a device that insists on the procedure of CiA 301
-/

set_option linter.unusedSimpArgs false

namespace Verif.Props
open Verif Verif.OD Verif.Spec Verif.Pdo Verif.PdoInit

/-- one PDO the device sends, with the values of a fresh device and the ones configured for identifier, number of mapped objects and the entry -/
def sentDict (id count entry : HoldAny) : Dict :=
  [(Key.ofSub 0x1800#16 0, exampleSub 0x1800#16 0 (.val (.int .u8 2#8)) .none),
   (Key.ofSub 0x1800#16 1, exampleSub 0x1800#16 1 (.val (.int .u32 0x181#32)) id),
   (Key.ofSub 0x1800#16 2, exampleSub 0x1800#16 2 (.val (.int .u8 255#8)) .none),
   (Key.ofSub 0x1A00#16 0, exampleSub 0x1A00#16 0 (.val (.int .u8 2#8)) count),
   (Key.ofSub 0x1A00#16 1, exampleSub 0x1A00#16 1 (.val (.int .u32 0x60000008#32)) entry),
   (Key.ofSub 0x1A00#16 2, exampleSub 0x1A00#16 2 (.val (.int .u32 0x60010008#32)) .none),
   (Key.ofIndex 0x6000#16, exampleSub 0x6000#16 0 (.empty (.int .u8)) .none),
   (Key.ofIndex 0x6001#16, exampleSub 0x6001#16 0 (.empty (.int .u8)) .none)]

/-- a fresh device of this kind, with the PDO switched on -/
def sentDevice : Strict where
  store i s := match i.toNat, s.toNat with
    | 0x1800, 0 => [2#8]
    | 0x1800, 1 => [0x81#8, 1#8, 0#8, 0#8]
    | 0x1800, 2 => [255#8]
    | 0x1A00, 0 => [2#8]
    | 0x1A00, 1 => [8#8, 0#8, 0#8, 0x60#8]
    | 0x1A00, 2 => [8#8, 0#8, 1#8, 0x60#8]
    | _, _ => [0#8]
  broken := false

/-- it refuses nothing but what is forbidden -/
def sentDev : Dev Strict := strictDev (fun _ _ _ => none) (fun _ _ _ => none)

/-- the set-up of the node's PDOs -/
def sentSetUp (dict : Dict) : Env Strict × Outcome Err Bool := mapperInit sentDev exampleMem zeros 1 0 (Spec.fresh dict 1#8 sentDevice)

theorem sentDict_keys (id count entry : HoldAny) : KeysMatch (sentDict id count entry) := by
  intro k e he
  have hm := get_mem he
  simp only [sentDict, List.mem_cons, List.not_mem_nil, or_false, Prod.mk.injEq] at hm
  rcases hm with ⟨rfl, rfl⟩ | ⟨rfl, rfl⟩ | ⟨rfl, rfl⟩ | ⟨rfl, rfl⟩ | ⟨rfl, rfl⟩ | ⟨rfl, rfl⟩ | ⟨rfl, rfl⟩ | ⟨rfl, rfl⟩ <;>
    exact ⟨by rfl, fun _ => by first | rfl | contradiction⟩

theorem sentDict_nodup (id count entry : HoldAny) : (sentDict id count entry).NodupKeys := by
  have h : (sentDict id count entry).map (·.1) = (sentDict .none .none .none).map (·.1) := rfl
  unfold Dict.NodupKeys
  rw [h]
  decide +kernel

theorem sentDict_proper (w : BitVec 32) (count entry : HoldAny) : Proper (sentDict (.val (.int .u32 w)) count entry) 0x1800#16 0x1A00#16 :=
  ⟨_, _, rfl, ⟨rfl, rfl, fun p hp => by cases hp; exact ⟨w, rfl⟩⟩, rfl, rfl⟩

/-- C110 (partial: the set-up of the PDOs, not the initialisation of the remaining objects that follows when a node is started; see
`C110_identifier_false`).  Whatever happened before, and however the set-up ends: as long as the device was not asked for something forbidden before, the set-up
of all PDOs does not ask for it either, whatever else the device refuses.  (For every PDO the dictionary has, identifier and number of entries can
be set and are not themselves mapped into a PDO in the end.) -/
theorem C110_accepted_partial (nr nw : Entry → List Byte → Contents → Option Nat) (mem : Mem) (junk : Vector Byte 8) (nrTx nrRx : Nat) (dict : Dict)
    (hn : dict.NodupKeys) (hk : KeysMatch dict) (node : BitVec 8) (e e' : Env Strict) (o : Outcome Err Bool)
    (he : Reached (strictDev nr nw) mem junk nrTx nrRx dict node e) (hb : e.c.w.dev.broken = false)
    (h : mapperInit (strictDev nr nw) mem junk nrTx nrRx e = (e', o))
    (hp : ∀ com map, IsPair com map → present dict com map = true → Proper dict com map ∧ Plain (sub com 1) e' ∧ Plain (sub map 0) e') :
    e'.c.w.dev.broken = false := by
  have b := reached_base hn he
  have key := mapperInit_strict (nr := nr) (nw := nw) mem junk nrTx nrRx ⟨⟨b.cons, b.isDict, hk⟩, hb⟩
  rw [h] at key
  exact (key (fun i hi hq => hp _ _ ⟨i, hi, .inl rfl⟩ hq) (fun i hi hq => hp _ _ ⟨i, hi, .inr rfl⟩ hq)).2

/-- C110.  The set-up of one PDO, in any state. -/
theorem C110_accepted_one (nr nw : Entry → List Byte → Contents → Option Nat) (mem : Mem) (junk : Vector Byte 8) (nrTx nrRx : Nat) (dict : Dict)
    (hn : dict.NodupKeys) (hk : KeysMatch dict) (node : BitVec 8) (e : Env Strict)
    (he : Reached (strictDev nr nw) mem junk nrTx nrRx dict node e) (hb : e.c.w.dev.broken = false) (com map : BitVec 16) (hp : IsPair com map)
    (hg : Proper dict com map) (hc : Plain (sub com 1) e) (hm : Direct (sub map 0) e) :
    (rpdoInit (strictDev nr nw) mem junk com map e).1.c.w.dev.broken = false ∧ (tpdoInit (strictDev nr nw) mem junk com map e).1.c.w.dev.broken = false := by
  have b := reached_base hn he
  obtain ⟨c, m, g1, g2, g3, g4⟩ := hg
  exact ⟨(rpdo_strict hp mem junk ⟨b.cons, b.isDict, hk⟩ hb g1 g2 hc g3 g4 hm).fine, (tpdo_strict hp mem junk ⟨b.cons, b.isDict, hk⟩ hb g1 g2 hc g3 g4 hm).fine⟩

/-- the mapping of the device after `parseAndSet` -/
private theorem parsed (nr nw : Entry → List Byte → Contents → Option Nat) (mem : Mem) (dict : Dict) (hk : KeysMatch dict) (node : BitVec 8) (e e1 e' : Env Strict)
    (r : Byte × List Nat) (b : Base dict node e) (hb : e.c.w.dev.broken = false) (com map : BitVec 16) (hp : IsPair com map) (hg : Proper dict com map)
    (hcfg : Configured dict map) (hc : Plain (sub com 1) e) (hm : Direct (sub map 0) e) (read write : Bool) (hrw : (read || write) = true)
    (h : parseAndSet (strictDev nr nw) mem com map read write e = (e1, .ok r)) (hc' : Plain (sub com 1) e1) (hm' : Plain (sub map 0) e1)
    (hst : ∀ t, e'.c.w.dev.store map t = e1.c.w.dev.store map t) (hst1 : e'.c.w.dev.store com 1 = e1.c.w.dev.store com 1)
    (hpl : ∀ k, Plain k e' → Plain k e1) : Applied dict node com map e' := by
  obtain ⟨c, m, g1, g2, g3, g4⟩ := hg
  obtain ⟨s, x, p, q1, q2, q3, q4⟩ := hcfg
  have hcount : mappingCount dict map = if 0 < mapNum m ∧ mapNum m ≤ 64 then mapNum m else 0 := by
    unfold mappingCount mapNum
    rw [g3]
    dsimp only
    cases m.value.getInt .u8 <;> rfl
  have hnum : 0 < mapNum m ∧ mapNum m ≤ 64 := by
    by_cases hq : 0 < mapNum m ∧ mapNum m ≤ 64
    · exact hq
    · rw [if_neg hq] at hcount; omega
  rw [if_pos hnum] at hcount
  obtain ⟨⟨w, a1, a2⟩, ⟨rest, a3⟩, a4⟩ := parse_applied hp mem read write hrw ⟨b.cons, b.isDict, hk⟩ hb g1 g2 hc g3 g4 hm h hnum.2
    ⟨s, q1, by omega, by unfold hasInit; rw [q3]; dsimp only; rw [q4]; rfl⟩ hc' hm'
  refine ⟨?_, ?_, ?_⟩
  · unfold cobOf
    rw [g1]
    dsimp only
    rw [← b.isNode, a1]
    dsimp only
    rw [show e'.c.w.dev.store.cob com = e1.c.w.dev.store.cob com by unfold Contents.cob; rw [hst1], a2]
  · rw [hst, a3, hcount]
    rfl
  · intro s x w h1 h2 h3 h4 h5 h6
    obtain ⟨rest, hr⟩ := a4 s x (.int .u32 w) w h1 (by omega) h3 h4 h5 (by rw [h5]; rfl) (hpl _ h6)
    rw [hst, hr]
    exact word32_bytes32 w rest

/-- see `C110_applied_sent` -/
theorem applied_sent_base (nr nw : Entry → List Byte → Contents → Option Nat) (mem : Mem) (junk : Vector Byte 8) (dict : Dict)
    (hk : KeysMatch dict) (node : BitVec 8) (e e' : Env Strict) (o : Option Rec)
    (b : Base dict node e) (hb : e.c.w.dev.broken = false) (com map : BitVec 16) (hp : IsPair com map)
    (hg : Proper dict com map) (hcfg : Configured dict map) (h : rpdoInit (strictDev nr nw) mem junk com map e = (e', .ok o))
    (hc : Plain (sub com 1) e') (hm : Plain (sub map 0) e') : Applied dict node com map e' := by
  have he' : e' = (rpdoInit (strictDev nr nw) mem junk com map e).1 := by rw [h]
  have b1 : Plain (sub com 1) e := back (keep_rpdoInit (notPlain_stable (strictDev nr nw) (sub com 1)) mem junk com map) (by rw [← he']; exact hc)
  have b2 : Plain (sub map 0) e := back (keep_rpdoInit (notPlain_stable (strictDev nr nw) (sub map 0)) mem junk com map) (by rw [← he']; exact hm)
  unfold rpdoInit at h
  bnd h with e1 r h1
  bnd h with e2 w h2
  obtain ⟨rfl, -⟩ := cobWord_ok h2
  have hend : e' = e2 := by
    split at h
    · exact (pure_ok h).1
    · bnd h with e3 y h3
      obtain ⟨rfl, -⟩ := dictAt_ok h3
      bnd h with e4 t h4
      obtain ⟨rfl, -⟩ := lift_ok h4
      exact (pure_ok h).1
  subst hend
  exact parsed nr nw mem dict hk node e e' e' r b hb com map hp hg hcfg b1 (fun d hd => (b2 d hd).2) true false rfl h1 hc hm (fun _ => rfl) rfl (fun _ => id)

/-- C110.  When the set-up of a PDO the device sends ends normally, the device has its configuration. -/
theorem C110_applied_sent (nr nw : Entry → List Byte → Contents → Option Nat) (mem : Mem) (junk : Vector Byte 8) (nrTx nrRx : Nat) (dict : Dict)
    (hn : dict.NodupKeys) (hk : KeysMatch dict) (node : BitVec 8) (e e' : Env Strict) (o : Option Rec)
    (he : Reached (strictDev nr nw) mem junk nrTx nrRx dict node e) (hb : e.c.w.dev.broken = false) (com map : BitVec 16) (hp : IsPair com map)
    (hg : Proper dict com map) (hcfg : Configured dict map) (h : rpdoInit (strictDev nr nw) mem junk com map e = (e', .ok o))
    (hc : Plain (sub com 1) e') (hm : Plain (sub map 0) e') : Applied dict node com map e' :=
  applied_sent_base nr nw mem junk dict hk node e e' o (reached_base hn he) hb com map hp hg hcfg h hc hm

/-- see `C110_applied_received` -/
theorem applied_received_base (nr nw : Entry → List Byte → Contents → Option Nat) (mem : Mem) (junk : Vector Byte 8) (dict : Dict)
    (hk : KeysMatch dict) (node : BitVec 8) (e e' : Env Strict) (o : Option Rec)
    (b : Base dict node e) (hb : e.c.w.dev.broken = false) (com map : BitVec 16) (hp : IsPair com map)
    (hg : Proper dict com map) (hcfg : Configured dict map) (h : tpdoInit (strictDev nr nw) mem junk com map e = (e', .ok o))
    (hc : Plain (sub com 1) e') (hm : Plain (sub map 0) e') : Applied dict node com map e' := by
  obtain ⟨f1, f2, f3, f4, f5, f6⟩ := pair_facts hp
  have he' : e' = (tpdoInit (strictDev nr nw) mem junk com map e).1 := by rw [h]
  have b1 : Plain (sub com 1) e := back (keep_tpdoInit (notPlain_stable (strictDev nr nw) (sub com 1)) mem junk com map) (by rw [← he']; exact hc)
  have b2 : Plain (sub map 0) e := back (keep_tpdoInit (notPlain_stable (strictDev nr nw) (sub map 0)) mem junk com map) (by rw [← he']; exact hm)
  unfold tpdoInit at h
  bnd h with e0 w h2
  obtain ⟨rfl, -⟩ := cobWord_ok h2
  bnd h with e1 r h1
  have s1 := keep_ok (keep_parse (sound_stable (strictDev nr nw) dict) mem com map _ _) h1 ⟨b.cons, b.isDict, hk⟩
  have rest : (∀ j t, ¬ (j = com ∧ t = 2) → e'.c.w.dev.store j t = e1.c.w.dev.store j t) ∧ ∀ k, Plain k e' → Plain k e1 := by
    split at h
    · obtain ⟨rfl, -⟩ := pure_ok h
      exact ⟨fun _ _ _ => rfl, fun _ => id⟩
    · bnd h with e3 u3 a3
      bnd h with e4 z a4
      bnd h with e5 t a5
      bnd h with e6 u6 a6
      obtain ⟨rfl, -⟩ := pure_ok h
      obtain ⟨rfl, -⟩ := descOf_ok a4
      obtain ⟨rfl, -⟩ := lift_ok a5
      have keepAll : ∀ {I : Env Strict → Prop}, StableOne (strictDev nr nw) I → I e1 → I e' := by
        intro I hI h1
        have h5 := keep_ok (keep_open hI mem _ _) a3 h1
        unfold enforceType at a6
        split at a6
        · exact keep_ok (keep_set hI _ _) a6 h5
        · obtain ⟨rfl, -⟩ := pure_ok a6
          exact h5
      constructor
      · intro j t hj
        have h5 := keep_ok (holds_open mem _ _) a3 (⟨s1, rfl⟩ : HoldsAt dict j t (e1.c.w.dev.store j t) e1)
        unfold enforceType at a6
        split at a6
        · have o6 := setEntry_one (strictDev nr nw) (sub com 2) [1#8] e5
          rw [a6] at o6
          exact (holds_one o6 hj h5).2
        · obtain ⟨rfl, -⟩ := pure_ok a6
          exact h5.2
      · intro k hk'
        exact Classical.byContradiction fun hq => keepAll (notPlain_stable (strictDev nr nw) k).toStableOne hq hk'
  exact parsed nr nw mem dict hk node e0 e1 e' r b hb com map hp hg hcfg b1 (fun d hd => (b2 d hd).2) false true rfl h1 (rest.2 _ hc) (rest.2 _ hm)
    (fun t => rest.1 _ _ (fun hx => f6 hx.1.symm)) (rest.1 _ _ (by simp)) rest.2

/-- C110.  When the set-up of a PDO the device receives ends normally, the device has its configuration. -/
theorem C110_applied_received (nr nw : Entry → List Byte → Contents → Option Nat) (mem : Mem) (junk : Vector Byte 8) (nrTx nrRx : Nat) (dict : Dict)
    (hn : dict.NodupKeys) (hk : KeysMatch dict) (node : BitVec 8) (e e' : Env Strict) (o : Option Rec)
    (he : Reached (strictDev nr nw) mem junk nrTx nrRx dict node e) (hb : e.c.w.dev.broken = false) (com map : BitVec 16) (hp : IsPair com map)
    (hg : Proper dict com map) (hcfg : Configured dict map) (h : tpdoInit (strictDev nr nw) mem junk com map e = (e', .ok o))
    (hc : Plain (sub com 1) e') (hm : Plain (sub map 0) e') : Applied dict node com map e' :=
  applied_received_base nr nw mem junk dict hk node e e' o (reached_base hn he) hb com map hp hg hcfg h hc hm

/-- C110.  If any of the sub-objects 0 to 6 of the mapping parameter is configured, be it just the number of entries, and the set-up of a PDO the device
sends ends normally, the device has the identifier the dictionary gives. -/
theorem C110_identifier_applied (nr nw : Entry → List Byte → Contents → Option Nat) (mem : Mem) (junk : Vector Byte 8) (nrTx nrRx : Nat) (dict : Dict)
    (hn : dict.NodupKeys) (hk : KeysMatch dict) (node : BitVec 8) (e e' : Env Strict) (o : Option Rec)
    (he : Reached (strictDev nr nw) mem junk nrTx nrRx dict node e) (hb : e.c.w.dev.broken = false) (com map : BitVec 16) (hp : IsPair com map)
    (hg : Proper dict com map) (hcfg : ∃ s x p, s ≤ 6 ∧ dict.get (sub map s) = some x ∧ x.initVal = .val p)
    (h : rpdoInit (strictDev nr nw) mem junk com map e = (e', .ok o))
    (hc : Plain (sub com 1) e') (hm : Plain (sub map 0) e') : cobOf dict node com = some (e'.c.w.dev.store.cob com) := by
  have b := reached_base hn he
  have he' : e' = (rpdoInit (strictDev nr nw) mem junk com map e).1 := by rw [h]
  have b1 : Plain (sub com 1) e := back (keep_rpdoInit (notPlain_stable (strictDev nr nw) (sub com 1)) mem junk com map) (by rw [← he']; exact hc)
  have b2 : Plain (sub map 0) e := back (keep_rpdoInit (notPlain_stable (strictDev nr nw) (sub map 0)) mem junk com map) (by rw [← he']; exact hm)
  unfold rpdoInit at h
  bnd h with e1 r h1
  bnd h with e2 w h2
  obtain ⟨rfl, -⟩ := cobWord_ok h2
  have hend : e' = e2 := by
    split at h
    · exact (pure_ok h).1
    · bnd h with e3 y h3
      obtain ⟨rfl, -⟩ := dictAt_ok h3
      bnd h with e4 t h4
      obtain ⟨rfl, -⟩ := lift_ok h4
      exact (pure_ok h).1
  subst hend
  obtain ⟨c, m, g1, g2, g3, g4⟩ := hg
  obtain ⟨s, x, p, q1, q2, q3⟩ := hcfg
  obtain ⟨w, a1, a2⟩ := parse_id hp mem true false ⟨b.cons, b.isDict, hk⟩ hb g1 g2 b1 g3 g4 (fun d hd => (b2 d hd).2) h1
    ⟨s, q1, by unfold hasInit; rw [q2]; dsimp only; rw [q3]; rfl⟩ hc hm
  unfold cobOf
  rw [g1]
  dsimp only
  rw [← b.isNode, a1]
  dsimp only
  rw [a2]

/-- C110.  If none of the sub-objects 0 to 6 of the mapping parameter and none of its entries is configured, the set-up of a PDO the device sends
leaves the device as it is, however it ends. -/
theorem C110_untouched (nr nw : Entry → List Byte → Contents → Option Nat) (mem : Mem) (junk : Vector Byte 8) (nrTx nrRx : Nat) (dict : Dict)
    (hn : dict.NodupKeys) (hk : KeysMatch dict) (node : BitVec 8) (e : Env Strict)
    (he : Reached (strictDev nr nw) mem junk nrTx nrRx dict node e) (com map : BitVec 16) (hnum : 0 < mappingCount dict map)
    (hcfg : ∀ s x, s ≤ 6 ∨ s ≤ mappingCount dict map → dict.get (sub map s) = some x → x.initVal.isEmpty = true) :
    (rpdoInit (strictDev nr nw) mem junk com map e).1.c.w.dev = e.c.w.dev := by
  have b := reached_base hn he
  obtain ⟨m, hm, hle⟩ : ∃ m, dict.get (sub map 0) = some m ∧ mapNum m = mappingCount dict map ∧ mapNum m ≤ 64 := by
    cases hm : dict.get (sub map 0) with
    | none => unfold mappingCount at hnum; rw [hm] at hnum; exact absurd hnum (by simp)
    | some m =>
      refine ⟨m, rfl, ?_⟩
      have hcount : mappingCount dict map = if 0 < mapNum m ∧ mapNum m ≤ 64 then mapNum m else 0 := by
        unfold mappingCount mapNum
        rw [hm]
        dsimp only
        cases m.value.getInt .u8 <;> rfl
      rw [hcount] at hnum ⊢
      by_cases hq : 0 < mapNum m ∧ mapNum m ≤ 64
      · rw [if_pos hq]; exact ⟨rfl, hq.2⟩
      · rw [if_neg hq] at hnum; omega
  have key := parse_untouched (nr := nr) (nw := nw) (com := com) mem true false (⟨b.cons, b.isDict, hk⟩ : Sound dict e) hm hle.2 (by
    intro s hs
    unfold hasInit
    cases hx : dict.get (sub map s) with
    | none => rfl
    | some x => dsimp only; rw [hcfg s x (hle.1 ▸ hs) hx]; rfl)
  rw [← key]
  unfold rpdoInit
  rw [bind_run]
  generalize parseAndSet (strictDev nr nw) mem com map true false e = r
  obtain ⟨e1, o1⟩ := r
  cases o1 with
  | throws _ => rfl
  | ub => rfl
  | ok v =>
    dsimp only
    refine (?_ : Keep (fun e' => e'.c.w.dev = e1.c.w.dev) _) e1 rfl
    refine keep_bind (keep_cobWord _) fun w => keep_ite (fun _ => keep_pure _) fun _ => ?_
    exact keep_bind (keep_dictAt _ _) fun x => keep_bind (fun _ h => h) fun t => keep_pure _

/-- the only PDO of the example -/
theorem sentDict_pairs (id count entry : HoldAny) (com map : BitVec 16) (hp : IsPair com map) (h : present (sentDict id count entry) com map = true) :
    com = 0x1800#16 ∧ map = 0x1A00#16 := by
  obtain ⟨f1, f2, f3, f4, f5, f6⟩ := pair_facts hp
  have key : ∀ i : BitVec 16, ((sentDict id count entry).get (sub i 0)).isSome = true → i = 0x1800#16 ∨ i = 0x1A00#16 := by
    intro i hi
    rw [Option.isSome_iff_exists] at hi
    obtain ⟨x, hx⟩ := hi
    have hk := (sentDict_keys id count entry _ _ hx).1
    have hm := get_mem hx
    simp only [sentDict, List.mem_cons, List.not_mem_nil, or_false, Prod.mk.injEq] at hm
    have hsub : (sub i 0).hasSub = true := Key.ofSub_hasSub _ _
    rw [Key.ofSub_index] at hk
    rcases hm with ⟨h1, rfl⟩ | ⟨h1, rfl⟩ | ⟨h1, rfl⟩ | ⟨h1, rfl⟩ | ⟨h1, rfl⟩ | ⟨h1, rfl⟩ | ⟨h1, rfl⟩ | ⟨h1, rfl⟩
    · exact .inl hk
    · exact .inl hk
    · exact .inl hk
    · exact .inr hk
    · exact .inr hk
    · exact .inr hk
    · rw [h1] at hsub; exact absurd hsub (by decide)
    · rw [h1] at hsub; exact absurd hsub (by decide)
  unfold present at h
  rw [Bool.or_eq_true] at h
  rcases h with h | h
  · rcases key _ h with rfl | rfl
    · refine ⟨rfl, ?_⟩
      rw [← BitVec.sub_add_cancel map 0x200#16, f5]
      rfl
    · exact absurd f1 (by decide)
  · rcases key _ h with rfl | rfl
    · exact absurd f2 (by decide)
    · exact ⟨f5.symm, rfl⟩

/-- the dictionary of the example with everything configured -/
def fullDict : Dict := sentDict (.val (.int .u32 0x182#32)) (.val (.int .u8 1#8)) (.val (.int .u32 0x60010008#32))

/-- all hypotheses are met by the example -/
example : Reached sentDev exampleMem zeros 1 0 fullDict 1#8 (Spec.fresh fullDict 1#8 sentDevice) ∧ fullDict.NodupKeys ∧ KeysMatch fullDict ∧
    ∀ com map, IsPair com map → present fullDict com map = true →
      Proper fullDict com map ∧ Plain (sub com 1) (sentSetUp fullDict).1 ∧ Plain (sub map 0) (sentSetUp fullDict).1 := by
  have plain : ∀ k, ((sentSetUp fullDict).1.s.data k).map (fun d => (d.rd, d.wr)) = some (.dev, .dev) → Plain k (sentSetUp fullDict).1 := by
    intro k h d hd
    rw [hd] at h
    simpa using h
  refine ⟨.start _, sentDict_nodup _ _ _, sentDict_keys _ _ _, fun com map hp hq => ?_⟩
  obtain ⟨rfl, rfl⟩ := sentDict_pairs _ _ _ com map hp hq
  exact ⟨sentDict_proper _ _ _, plain _ (by decide +kernel), plain _ (by decide +kernel)⟩

/-- the hypotheses are met; identifier, number and entry are configured, and they are on the device in the end -/
example : IsPair 0x1800#16 0x1A00#16 ∧ Configured fullDict 0x1A00#16 ∧
    succeeded (sentSetUp fullDict).2 = true ∧
    (let d := (sentSetUp fullDict).1.c.w.dev
     d.broken = false ∧ d.store.cob 0x1800#16 = 0x182#32 ∧ d.store 0x1A00#16 0 = [1#8] ∧ d.store 0x1A00#16 1 = [8#8, 0#8, 1#8, 0x60#8]) := by
  refine ⟨⟨0, by omega, .inl (by decide)⟩, ⟨1, _, _, by omega, by decide +kernel, rfl, rfl⟩, by decide +kernel, by decide +kernel⟩

/-- only the number of entries is configured: the hypothesis of `C110_identifier_applied` is met, and the device has the identifier -/
example : let dict := sentDict (.val (.int .u32 0x182#32)) (.val (.int .u8 1#8)) .none
    (∃ s x p, s ≤ 6 ∧ dict.get (sub 0x1A00#16 s) = some x ∧ x.initVal = .val p) ∧ succeeded (sentSetUp dict).2 = true ∧
    cobOf dict 1#8 0x1800#16 = some 0x182#32 ∧ (sentSetUp dict).1.c.w.dev.store.cob 0x1800#16 = 0x182#32 :=
  ⟨⟨0, _, _, by omega, rfl, rfl⟩, by decide +kernel, by decide +kernel, by decide +kernel⟩

/-- only the identifier is configured: the hypotheses of `C110_untouched` are met -/
example : let dict := sentDict (.val (.int .u32 0x182#32)) .none .none
    0 < mappingCount dict 0x1A00#16 ∧ (∀ s x, s ≤ 6 ∨ s ≤ mappingCount dict 0x1A00#16 → dict.get (sub 0x1A00#16 s) = some x → x.initVal.isEmpty = true) ∧
    (sentSetUp dict).1.c.w.dev.store.cob 0x1800#16 = 0x181#32 := by
  refine ⟨by decide +kernel, fun s x hs h => ?_, by decide +kernel⟩
  have hc : mappingCount (sentDict (.val (.int .u32 0x182#32)) .none .none) 0x1A00#16 = 2 := by decide +kernel
  rw [hc] at hs
  have hs' : s ≤ 6 := by omega
  have key : ∀ s : Fin 7, ∀ x, (sentDict (.val (.int .u32 0x182#32)) .none .none).get (sub 0x1A00#16 s.val) = some x → x.initVal.isEmpty = true := by
    intro s x hx
    have : ((sentDict (.val (.int .u32 0x182#32)) .none .none).get (sub 0x1A00#16 s.val)).all (fun x => x.initVal.isEmpty) = true := by
      revert s; intro s hx; clear hx; revert s; decide +kernel
    rw [hx] at this
    exact this
  exact key ⟨s, by omega⟩ x h

/-- C110 is false for what the set-up leaves to the initialisation of the objects (which follows it when a node is started,
canopen_master/src/node.cpp:188-191): if only the identifier of a PDO is configured, the set-up does not touch the PDO, since it looks for
configured values in the mapping parameter instead of the communication parameter (canopen_master/src/pdo.cpp:107), and the identifier is changed
while the PDO is switched on. -/
theorem C110_identifier_false : ∃ dict : Dict, dict.NodupKeys ∧ KeysMatch dict ∧ Proper dict 0x1800#16 0x1A00#16 ∧
    (Spec.fresh dict 1#8 sentDevice).c.w.dev.broken = false ∧ succeeded (sentSetUp dict).2 = true ∧ (sentSetUp dict).1.c.w.dev.broken = false ∧
    (sentSetUp dict).1.c.w.dev.store.cob 0x1800#16 ≠ 0x182#32 ∧ cobOf dict 1#8 0x1800#16 = some 0x182#32 ∧
    (uses sentDev exampleMem [.initAll] (sentSetUp dict).1).c.w.dev.broken = true :=
  ⟨sentDict (.val (.int .u32 0x182#32)) .none .none, sentDict_nodup _ _ _, sentDict_keys _ _ _, sentDict_proper _ _ _, rfl, by decide +kernel, by decide +kernel,
    by decide +kernel, by decide +kernel, by decide +kernel⟩

/-- C110 is false likewise if only the number of mapped objects is configured: it is written while the PDO is switched on. -/
theorem C110_count_false : ∃ dict : Dict, dict.NodupKeys ∧ KeysMatch dict ∧ Proper dict 0x1800#16 0x1A00#16 ∧
    (Spec.fresh dict 1#8 sentDevice).c.w.dev.broken = false ∧ succeeded (sentSetUp dict).2 = true ∧ (sentSetUp dict).1.c.w.dev.broken = false ∧
    (uses sentDev exampleMem [.initAll] (sentSetUp dict).1).c.w.dev.broken = true :=
  ⟨sentDict (.val (.int .u32 0x181#32)) (.val (.int .u8 1#8)) .none, sentDict_nodup _ _ _, sentDict_keys _ _ _, sentDict_proper _ _ _, rfl, by decide +kernel,
    by decide +kernel, by decide +kernel⟩

/-- C110 is false for a communication parameter that has 255 sub-objects, the most that CiA 301 allows: the set-up never gets to switching the PDO on again
(it goes round for ever; canopen_master/src/pdo.cpp:150, where the counter has 8 bits). -/
theorem C110_endless_false : ∃ dict : Dict, dict.NodupKeys ∧ Proper dict 0x1800#16 0x1A00#16 ∧ Configured dict 0x1A00#16 ∧
    (sentSetUp dict).1.c.w.dev.broken = false ∧ (match (sentSetUp dict).2 with | .ub => true | _ => false) = true :=
  ⟨(Key.ofSub 0x1800#16 0, exampleSub 0x1800#16 0 (.val (.int .u8 255#8)) .none) :: fullDict.tail, by unfold Dict.NodupKeys; decide +kernel,
    ⟨_, _, rfl, ⟨rfl, rfl, fun p hp => by cases hp; exact ⟨_, rfl⟩⟩, rfl, rfl⟩, ⟨1, _, _, by omega, by decide +kernel, rfl, rfl⟩, by decide +kernel,
    by decide +kernel⟩

end Verif.Props
