import Verif.Lemmas.PdoBus
import Verif.Props.PdoAgree
import Verif.Props.StorageBus

/-!
# C127: the set-up of PDOs over the bus
-/

namespace Verif.Props
open Verif Verif.OD Verif.PdoInit Verif.Spec Verif.Spec.Sdo Verif.Spec.Chan Verif.Spec.Wire Verif.Spec.PBus

/-- C127.  A node cannot tell the device at the other end of the bus from a memory, whatever it does with its PDOs.  Take any history of set-ups of all PDOs,
uses of the storage and changes on the device's side, with anything happening on the bus meanwhile.  If the accesses come to their end and are supported by the
client, then the results, the storage, the PDOs that are used, their buffers, the accesses made and the values on the device are those of a node that
reads and writes the device's memory directly. -/
theorem C127_same_as_memory (cfg : Config) (hcfg : cfg.Legal) (sid : Header) (mem : Mem) (junk : Vector Byte 8) (nrTx nrRx : Nat) (e : Env (Wire Unit)) (es : List Ev)
    (hw : Ready sid e.c.w.dev e.c.w.dev.server.store) :
    let real := history (overBus cfg sid) changeWire mem junk nrTx nrRx e es
    let ideal := history (inMemory cfg) changeMemory mem junk nrTx nrRx (e.on (memoryOf e.c.w.dev)) es
    real.1.c.w.dev.hung = false → ideal.1.c.w.dev.fair = true →
      real.2 = ideal.2 ∧ real.1.s = ideal.1.s ∧ real.1.rpdos = ideal.1.rpdos ∧ real.1.tpdos = ideal.1.tpdos ∧ real.1.c.log = ideal.1.c.log ∧
      real.1.c.w.heap = ideal.1.c.w.heap ∧ real.1.c.w.next = ideal.1.c.w.next ∧ real.1.c.w.bad = ideal.1.c.w.bad ∧
      real.1.c.w.dev.server.store = ideal.1.c.w.dev.store := by
  intro real ideal h1 h2
  have hc : Changes changeWire changeMemory (fun w => w.hung = true) (fun v => v.fair = false) (Match sid) :=
    ⟨fun _ _ _ h => h, fun _ _ _ h => h, fun o v d d' ⟨⟨a1, a2, a3, a4, a5, a6⟩, b, c⟩ =>
      ⟨⟨a1, a2, a3, a4, a5, by simp only [changeWire, changeMemory, a6]⟩, b, c⟩⟩
  have key := (history_alike (bus_memory cfg hcfg sid) hc mem junk nrTx nrRx es).2.2 e (e.on (memoryOf e.c.w.dev))
    ⟨rfl, ⟨⟨⟨hw, rfl, rfl⟩, rfl, rfl, rfl⟩, rfl⟩, rfl, rfl⟩
  rcases key with k | k | ⟨⟨k1, ⟨⟨⟨k2, -, -⟩, k3, k4, k5⟩, k6⟩, k7, k8⟩, k9⟩
  · have : real.1.c.w.dev.hung = true := k
    rw [h1] at this; cases this
  · have : ideal.1.c.w.dev.fair = false := k
    rw [h2] at this; cases this
  · exact ⟨k9, k1, k7, k8, k6, k3, k4, k5, k2.holds⟩

/-! ## all accesses come to their end -/

private theorem access_ample (cfg : Config) (hcfg : cfg.Legal) (sid : Header) (w : Wire Unit) (store : Sdo.Obj → List Byte) (hw : Ready sid w store)
    (o : Sdo.Obj) (data : List Byte) (up : Bool) (hs : supported cfg store o data up = true) (hh : w.hung = false) (hp : ∀ x ∈ w.plan, ample x) (hne : w.plan ≠ []) :
    (w.access cfg sid o data up).1.hung = false ∧ (w.access cfg sid o data up).1.plan = w.plan.tail := by
  constructor
  · cases hq : w.plan with
    | nil => exact absurd hq hne
    | cons x later =>
      obtain ⟨rounds, r1, r2, r3⟩ := hp x (by rw [hq]; exact List.mem_cons_self ..)
      have h1 := hw.holds
      subst h1
      have key := (C109_returns cfg hcfg sid w hw o data up hs rounds later r1 r2).1
      rw [← r3, ← hq] at key
      exact key.trans hh
  · unfold Wire.access
    dsimp only
    split <;> rfl

/-- the bus and a counted memory tell the same, and there is time for the rest -/
private def InTime (sid : Header) (n : Nat) (w : Wire Unit) (v : Memory Unit × Nat) : Prop :=
  Match sid w v.1 ∧ w.hung = false ∧ (∀ x ∈ w.plan, ample x) ∧ n ≤ w.plan.length + v.2

private theorem bus_counted (cfg : Config) (hcfg : cfg.Legal) (sid : Header) (n : Nat) :
    Similar (overBus cfg sid) (counting (inMemory cfg)) (fun _ => False) (fun v => v.1.fair = false ∨ n < v.2) (InTime sid n) where
  r _ _ _ h := h
  w _ _ _ h := h
  r' e b w h := h.imp (direct_read_unfair cfg nothing .dev e b w.1) (fun h => Nat.lt_succ_of_lt h)
  w' e b w h := h.imp (direct_write_unfair cfg nothing .dev e b w.1) (fun h => Nat.lt_succ_of_lt h)
  gr e b w v h := by
    obtain ⟨h1, h2, h3, h4⟩ := h
    refine Or.inr ?_
    by_cases hf : ((inMemory cfg).read e b v.1).1.fair = false
    · exact Or.inl (Or.inl hf)
    by_cases hn : n < v.2 + 1
    · exact Or.inl (Or.inr hn)
    have hs : supported cfg v.1.store (objOf e) b true = true := by
      have := h1.2.1
      simpa [inMemory, direct, this] using hf
    have hne : w.plan ≠ [] := by intro hx; rw [hx] at h4; simp at h4; omega
    obtain ⟨a1, a2⟩ := access_ample cfg hcfg sid w v.1.store h1.1 (objOf e) b true hs h2 h3 hne
    have hr : ((overBus cfg sid).read e b w).1 = (w.access cfg sid (objOf e) b true).1 := by
      simp only [overBus, wired]
      split <;> rfl
    rcases match_read cfg hcfg sid nothing .dev e b w v.1 h1 with k | k | ⟨k1, k2⟩
    · have : ((overBus cfg sid).read e b w).1.hung = true := k
      rw [hr, a1] at this; cases this
    · exact absurd k hf
    · refine Or.inr ⟨⟨k1, by rw [hr]; exact a1, ?_, ?_⟩, k2⟩
      · rw [hr, a2]; exact fun x hx => h3 x (List.mem_of_mem_tail hx)
      · rw [hr, a2, List.length_tail]
        show n ≤ w.plan.length - 1 + (v.2 + 1)
        omega
  gw e b w v h := by
    obtain ⟨h1, h2, h3, h4⟩ := h
    refine Or.inr ?_
    by_cases hf : ((inMemory cfg).write e b v.1).1.fair = false
    · exact Or.inl (Or.inl hf)
    by_cases hn : n < v.2 + 1
    · exact Or.inl (Or.inr hn)
    have hs : supported cfg v.1.store (objOf e) b false = true := by
      have := h1.2.1
      simpa [inMemory, direct, this] using hf
    have hne : w.plan ≠ [] := by intro hx; rw [hx] at h4; simp at h4; omega
    obtain ⟨a1, a2⟩ := access_ample cfg hcfg sid w v.1.store h1.1 (objOf e) b false hs h2 h3 hne
    have hr : ((overBus cfg sid).write e b w).1 = (w.access cfg sid (objOf e) b false).1 := by
      simp only [overBus, wired]
      split <;> rfl
    rcases match_write cfg hcfg sid nothing .dev e b w v.1 h1 with k | k | ⟨k1, k2⟩
    · have : ((overBus cfg sid).write e b w).1.hung = true := k
      rw [hr, a1] at this; cases this
    · exact absurd k hf
    · refine Or.inr ⟨⟨k1, by rw [hr]; exact a1, ?_, ?_⟩, k2⟩
      · rw [hr, a2]; exact fun x hx => h3 x (List.mem_of_mem_tail hx)
      · rw [hr, a2, List.length_tail]
        show n ≤ w.plan.length - 1 + (v.2 + 1)
        omega

private theorem counting_same {D : Type} (dv : Dev D) : Similar (counting dv) dv (fun _ => False) (fun _ => False) (fun w v => w.1 = v) where
  r _ _ _ h := h
  w _ _ _ h := h
  r' _ _ _ h := h
  w' _ _ _ h := h
  gr e b w v h := by subst h; exact Or.inr (Or.inr ⟨rfl, rfl⟩)
  gw e b w v h := by subst h; exact Or.inr (Or.inr ⟨rfl, rfl⟩)

/-- C127.  All accesses come to their end: if the client supports them and there is time for each of them - 256 answers of the server, each followed by a look of
the client -, none of them hangs, however the set-ups, the uses of the storage and the changes of the device follow each other. -/
theorem C127_returns (cfg : Config) (hcfg : cfg.Legal) (sid : Header) (mem : Mem) (junk : Vector Byte 8) (nrTx nrRx : Nat) (e : Env (Wire Unit)) (es : List Ev)
    (hw : Ready sid e.c.w.dev e.c.w.dev.server.store) (hh : e.c.w.dev.hung = false) (hp : ∀ x ∈ e.c.w.dev.plan, ample x) :
    let ideal := history (inMemory cfg) changeMemory mem junk nrTx nrRx (e.on (memoryOf e.c.w.dev)) es
    let accesses := (history (counting (inMemory cfg)) (changeCounted changeMemory) mem junk nrTx nrRx (e.on (memoryOf e.c.w.dev, 0)) es).1.c.w.dev.2
    ideal.1.c.w.dev.fair = true → accesses ≤ e.c.w.dev.plan.length →
      (history (overBus cfg sid) changeWire mem junk nrTx nrRx e es).1.c.w.dev.hung = false := by
  intro ideal accesses h1 h2
  have hc : Changes changeWire (changeCounted changeMemory) (fun _ => False) (fun v => v.1.fair = false ∨ e.c.w.dev.plan.length < v.2)
      (InTime sid e.c.w.dev.plan.length) :=
    ⟨fun _ _ _ h => h, fun _ _ _ h => h, fun o v d d' ⟨⟨⟨a1, a2, a3, a4, a5, a6⟩, b, c⟩, q⟩ =>
      ⟨⟨⟨a1, a2, a3, a4, a5, by simp only [changeWire, changeCounted, changeMemory, a6]⟩, b, c⟩, q⟩⟩
  have hc2 : Changes (changeCounted changeMemory) changeMemory (fun _ => False) (fun _ => False) (fun (w : Memory Unit × Nat) v => w.1 = v) :=
    ⟨fun _ _ _ h => h, fun _ _ _ h => h, fun o v d d' h => by subst h; rfl⟩
  have k1 := (history_alike (bus_counted cfg hcfg sid e.c.w.dev.plan.length) hc mem junk nrTx nrRx es).2.2 e (e.on (memoryOf e.c.w.dev, 0))
    ⟨rfl, ⟨⟨⟨⟨hw, rfl, rfl⟩, hh, hp, Nat.le_refl _⟩, rfl, rfl, rfl⟩, rfl⟩, rfl, rfl⟩
  have k2 := (history_alike (counting_same (inMemory cfg)) hc2 mem junk nrTx nrRx es).2.2 (e.on (memoryOf e.c.w.dev, 0)) (e.on (memoryOf e.c.w.dev))
    ⟨rfl, ⟨⟨rfl, rfl, rfl, rfl⟩, rfl⟩, rfl, rfl⟩
  rcases k2 with k2 | k2 | ⟨⟨-, ⟨⟨k2, -⟩, -⟩, -, -⟩, -⟩
  · exact k2.elim
  · exact k2.elim
  · rcases k1 with k1 | (k1 | k1) | ⟨⟨-, ⟨⟨⟨-, k1, -⟩, -⟩, -⟩, -, -⟩, -⟩
    · exact k1.elim
    · rw [k2] at k1
      have : ideal.1.c.w.dev.fair = false := k1
      rw [h1] at this; cases this
    · exact absurd k1 (by omega)
    · exact k1

/-- see `C127_accepted` -/
private theorem accepted127 (cfg : Config) (hcfg : cfg.Legal) (sid : Header) (mem : Mem) (junk : Vector Byte 8) (nrTx nrRx : Nat) (dict : Dict) (hn : dict.NodupKeys)
    (hk : KeysMatch dict) (node : BitVec 8) (e : Env (Wire Unit)) (hw : Ready sid e.c.w.dev e.c.w.dev.server.store)
    (he : Reached heedful mem junk nrTx nrRx dict node (e.on ⟨contents e.c.w.dev.server.store, false⟩))
    (real : Env (Wire Unit) × Outcome Err Bool) (ideal : Env Strict × Outcome Err Bool) (m : Env (Memory Unit) × Outcome Err Bool)
    (hreal : mapperInit (overBus cfg sid) mem junk nrTx nrRx e = real)
    (hid : mapperInit heedful mem junk nrTx nrRx (e.on ⟨contents e.c.w.dev.server.store, false⟩) = ideal)
    (hm : mapperInit (inMemory (exact cfg)) mem junk nrTx nrRx (e.on (memoryOf e.c.w.dev)) = m)
    (hp : ∀ com map, IsPair com map → present dict com map = true → Spec.Proper dict com map ∧ Plain (sub com 1) ideal.1 ∧ Plain (sub map 0) ideal.1)
    (h1 : real.1.c.w.dev.hung = false) (h2 : m.1.c.w.dev.fair = true) :
    ideal.1.c.w.dev.broken = false ∧ real.2 = ideal.2 ∧ real.1.s = ideal.1.s ∧ real.1.rpdos = ideal.1.rpdos ∧ real.1.tpdos = ideal.1.tpdos ∧
      real.1.c.log = ideal.1.c.log ∧ contents real.1.c.w.dev.server.store = ideal.1.c.w.dev.store := by
  have hb : ideal.1.c.w.dev.broken = false :=
    C110_accepted_partial (fun _ _ _ => none) (fun _ _ _ => none) mem junk nrTx nrRx dict hn hk node _ ideal.1 ideal.2 he rfl hid hp
  have k1 := (sim_mapperInit (bus_exact cfg hcfg sid) mem junk nrTx nrRx).same e (e.on (memoryOf e.c.w.dev))
    ⟨rfl, ⟨⟨⟨hw, rfl, rfl⟩, rfl, rfl, rfl⟩, rfl⟩, rfl, rfl⟩
  have k2 := (sim_mapperInit (heedful_memory cfg) mem junk nrTx nrRx).same (e.on ⟨contents e.c.w.dev.server.store, false⟩) (e.on (memoryOf e.c.w.dev))
    ⟨rfl, ⟨⟨⟨rfl, rfl, rfl⟩, rfl, rfl, rfl⟩, rfl⟩, rfl, rfl⟩
  rw [hreal, hm, h1, h2] at k1
  rw [hid, hm, hb, h2] at k2
  simp only [Bool.false_eq_true, reduceCtorEq, false_or] at k1 k2
  obtain ⟨⟨a1, ⟨⟨⟨a2, -, -⟩, -⟩, a3⟩, a4, a5⟩, a6⟩ := k1
  obtain ⟨⟨b1, ⟨⟨⟨b2, -, -⟩, -⟩, b3⟩, b4, b5⟩, b6⟩ := k2
  exact ⟨hb, a6.trans b6.symm, a1.trans b1.symm, a4.trans b4.symm, a5.trans b5.symm, a3.trans b3.symm, by rw [a2.holds, b2]⟩

/-- C127.  The set-up over the bus is the set-up with a device that follows the rules of CiA 301 for changes of PDO parameters: with what happened before not
being forbidden, the device is asked for nothing it has to refuse, and ends with the same contents.  (For every PDO the dictionary has,
identifier and number of entries can be set and are not themselves mapped.) -/
theorem C127_accepted (cfg : Config) (hcfg : cfg.Legal) (sid : Header) (mem : Mem) (junk : Vector Byte 8) (nrTx nrRx : Nat) (dict : Dict) (hn : dict.NodupKeys)
    (hk : KeysMatch dict) (node : BitVec 8) (e : Env (Wire Unit)) (hw : Ready sid e.c.w.dev e.c.w.dev.server.store)
    (he : Reached heedful mem junk nrTx nrRx dict node (e.on ⟨contents e.c.w.dev.server.store, false⟩)) :
    let real := mapperInit (overBus cfg sid) mem junk nrTx nrRx e
    let ideal := mapperInit heedful mem junk nrTx nrRx (e.on ⟨contents e.c.w.dev.server.store, false⟩)
    (∀ com map, IsPair com map → present dict com map = true → Spec.Proper dict com map ∧ Plain (sub com 1) ideal.1 ∧ Plain (sub map 0) ideal.1) →
    real.1.c.w.dev.hung = false → (mapperInit (inMemory (exact cfg)) mem junk nrTx nrRx (e.on (memoryOf e.c.w.dev))).1.c.w.dev.fair = true →
      ideal.1.c.w.dev.broken = false ∧ real.2 = ideal.2 ∧ real.1.s = ideal.1.s ∧ real.1.rpdos = ideal.1.rpdos ∧ real.1.tpdos = ideal.1.tpdos ∧
      real.1.c.log = ideal.1.c.log ∧ contents real.1.c.w.dev.server.store = ideal.1.c.w.dev.store := by
  intro real ideal hp h1 h2
  exact accepted127 cfg hcfg sid mem junk nrTx nrRx dict hn hk node e hw he real ideal _ (by rfl) (by rfl) rfl hp h1 h2

/-- C127 (partial: like C125, for PDOs with all entries of their mapping configured).  When the set-up of the PDOs over the bus ended normally, every PDO that the
node uses is one of the device with the same identifier and format, and the configured words are the mapping the device has, in their order. -/
theorem C127_agrees_partial (cfg : Config) (hcfg : cfg.Legal) (sid : Header) (mem : Mem) (junk : Vector Byte 8) (nrTx nrRx : Nat) (dict : Dict) (hn : dict.NodupKeys)
    (hk : KeysMatch dict) (node : BitVec 8) (e : Env (Wire Unit)) (hw : Ready sid e.c.w.dev e.c.w.dev.server.store)
    (he : Reached heedful mem junk nrTx nrRx dict node (e.on ⟨contents e.c.w.dev.server.store, false⟩)) :
    let real := mapperInit (overBus cfg sid) mem junk nrTx nrRx e
    let ideal := mapperInit heedful mem junk nrTx nrRx (e.on ⟨contents e.c.w.dev.server.store, false⟩)
    (∀ com map, IsPair com map → present dict com map = true → Spec.Proper dict com map ∧ AllPlain dict com map ideal.1) →
    real.1.c.w.dev.hung = false → (mapperInit (inMemory (exact cfg)) mem junk nrTx nrRx (e.on (memoryOf e.c.w.dev))).1.c.w.dev.fair = true →
    real.2 = .ok true →
    (∀ x ∈ real.1.rpdos, ∃ i < 512, x.com = (sends i).1 ∧ (AllConfigured dict (sends i).2 →
      (contents real.1.c.w.dev.server.store).owns (sends i).1 x.frame ∧
      (contents real.1.c.w.dev.server.store).words (sends i).2 = configuredWords dict (sends i).2)) ∧
    (∀ x ∈ real.1.tpdos, ∃ i < 512, x.com = (receives i).1 ∧ (AllConfigured dict (receives i).2 →
      (contents real.1.c.w.dev.server.store).owns (receives i).1 x.frame ∧
      (contents real.1.c.w.dev.server.store).words (receives i).2 = configuredWords dict (receives i).2)) := by
  intro real ideal hp h1 h2 h3
  have hid : mapperInit heedful mem junk nrTx nrRx (e.on ⟨contents e.c.w.dev.server.store, false⟩) = ideal := by rfl
  have hreal : mapperInit (overBus cfg sid) mem junk nrTx nrRx e = real := by rfl
  clear_value ideal real
  obtain ⟨-, a2, -, a4, a5, -, a7⟩ := accepted127 cfg hcfg sid mem junk nrTx nrRx dict hn hk node e hw he real ideal _ hreal hid rfl
    (fun com map q1 q2 => ⟨(hp com map q1 q2).1, (hp com map q1 q2).2.1, (hp com map q1 q2).2.2 0 (Nat.zero_le _)⟩) h1 h2
  have h4 : ideal = (ideal.1, .ok true) := Prod.ext rfl (a2.symm.trans h3)
  have key := C125_all_partial (fun _ _ _ => none) (fun _ _ _ => none) mem junk nrTx nrRx dict hn hk node _ ideal.1 he rfl (hid.trans h4) hp
  rw [a7, a4, a5]
  exact key

/-- the device of `both_meets` at the other end of the bus; every answer comes at once -/
private def wire127 : Wire Unit :=
  ⟨((Chan.State.fresh exampleClient).step (.init [] 1)).1, ⟨fun o => bothDevice.store o.index o.sub, .idle⟩,
   List.replicate 40 [.serve, .take, .serve, .take], false, ()⟩

private def env127 : Env (Wire Unit) := Spec.fresh bothDict 1#8 wire127

private def setUp127 : Env (Wire Unit) × Outcome Err Bool := mapperInit (overBus exampleCfg exampleSid) exampleMem zeros 4 4 env127

private theorem ready127 : Ready exampleSid env127.c.w.dev env127.c.w.dev.server.store := ⟨by decide, rfl, rfl, rfl, rfl, rfl⟩

/-- all hypotheses are met, over the bus a PDO is used in each direction, and the device has the configured words -/
example : Ready exampleSid env127.c.w.dev env127.c.w.dev.server.store ∧
    Reached heedful exampleMem zeros 4 4 bothDict 1#8 (env127.on ⟨contents env127.c.w.dev.server.store, false⟩) ∧
    (∀ com map, IsPair com map → present bothDict com map = true → Spec.Proper bothDict com map ∧
      AllPlain bothDict com map (mapperInit heedful exampleMem zeros 4 4 (env127.on ⟨contents env127.c.w.dev.server.store, false⟩)).1) ∧
    setUp127.1.c.w.dev.hung = false ∧ succeeded setUp127.2 = true ∧
    (mapperInit (inMemory (exact exampleCfg)) exampleMem zeros 4 4 (env127.on (memoryOf env127.c.w.dev))).1.c.w.dev.fair = true ∧
    setUp127.1.rpdos.map (·.com) = [0x1800#16] ∧ setUp127.1.tpdos.map (·.com) = [0x1400#16] ∧
    (contents setUp127.1.c.w.dev.server.store).words 0x1A00#16 = [0x60010010#32, 0x60000008#32] ∧
    (contents setUp127.1.c.w.dev.server.store).words 0x1600#16 = [0x60020010#32] := by
  refine ⟨ready127, .start bothDevice, both_meets.2.2.2.2.2.2.1, ?_⟩
  decide +kernel

example : (history (overBus exampleCfg exampleSid) changeWire exampleMem zeros 4 4 env127 [.setUp, .deviceChanges ⟨0x6005#16, 0⟩ [7], .use .initAll]).1.c.w.dev.hung = false ∧
    (history (inMemory exampleCfg) changeMemory exampleMem zeros 4 4 (env127.on (memoryOf env127.c.w.dev))
      [.setUp, .deviceChanges ⟨0x6005#16, 0⟩ [7], .use .initAll]).1.c.w.dev.fair = true := by
  decide +kernel

/-- for the same history, 40 accesses with much time for each are more than enough -/
private def slow127 : Wire Unit := { wire127 with plan := List.replicate 40 (List.replicate 256 [LEv.serve, .take]).flatten }

example : (∀ x ∈ slow127.plan, ample x) ∧ slow127.plan.length = 40 ∧
    (history (counting (inMemory exampleCfg)) (changeCounted changeMemory) exampleMem zeros 4 4 (env127.on (memoryOf slow127, 0))
      [.setUp, .deviceChanges ⟨0x6005#16, 0⟩ [7], .use .initAll]).1.c.w.dev.2 = 16 := by
  refine ⟨fun x hx => ⟨List.replicate 256 [.serve, .take], by rw [List.length_replicate]; exact Nat.le_refl _, fun r hr => ?_, (List.mem_replicate.1 hx).2⟩,
    List.length_replicate .., by decide +kernel⟩
  rw [(List.mem_replicate.1 hr).2]
  exact List.Sublist.refl _

end Verif.Props
