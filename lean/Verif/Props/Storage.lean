import Verif.Lemmas.Storage
import Verif.Props.Dict

/-!
# C28 - C31, C63: object storage
-/

set_option linter.unusedSimpArgs false

namespace Verif.Props
open Verif Verif.OD Verif.Spec

variable {W : Type}

/-- a dictionary with a read-only and a writable object, for the examples -/
def exampleEntry (i : BitVec 16) (r w : Bool) (dv iv : HoldAny) : Entry :=
  { objCode := 7, index := i, subIndex := 0, dataType := 7, constant := false, readable := r, writable := w, desc := [], defVal := dv, initVal := iv }

/-- see `exampleEntry` -/
def exampleDict : Dict :=
  [(Key.ofIndex 0x1000#16, exampleEntry 0x1000#16 true false (.empty (.int .u32)) (.empty (.int .u32))),
   (Key.ofIndex 0x6081#16, exampleEntry 0x6081#16 true true (.empty (.int .u32)) (.val (.int .u32 100#32)))]

/-- C28.  Whatever the device does and whatever is done with the storage (opening handles, reads, writes, init, reset, PDO mapping,
in any order, with any failures): every read from the device is of a readable object, every write to the device is to a writable
one. -/
theorem C28_device_accesses (bus : Bus W) (mem : Mem) (dict : Dict) (hn : dict.NodupKeys) (node : BitVec 8) (w : W) (ops : List SOp) :
    Lawful dict ((Storage.fresh dict node).run bus mem ⟨w, []⟩ ops).2.1.log := by
  have h := run_inv bus mem ops (s := Storage.fresh dict node) hn (fresh_inv dict node w)
  have e : ((Storage.fresh dict node).run bus mem ⟨w, []⟩ ops).1.dict = dict := h.2
  have := h.1.law
  rw [e] at this
  exact this

example : ((Storage.fresh exampleDict 1#8).run goodBus exampleMem ⟨[1#8, 0#8, 0#8, 0#8], []⟩
    [.open (Key.ofIndex 0x1000#16) (.int .u32), .get (Key.ofIndex 0x1000#16) false, .set (Key.ofIndex 0x1000#16) [2#8, 0#8, 0#8, 0#8], .initAll]).2.1.log =
    [.read .dev 0x1000#16 0#8, .write .dev 0x6081#16 0#8 [100#8, 0#8, 0#8, 0#8]] := by decide

/-- C28.  Calls without the right are refused and have no effect at all. -/
theorem C28_denied (bus : Bus W) (d : Data) (c : Ctx W) (v : List Byte) (cached : Bool) :
    (d.entry.readable = false → d.get bus cached c = (d, c, .throws .access)) ∧
    (d.entry.writable = false → (d.set bus v c).1 = d ∧ (d.set bus v c).2.1 = c ∧ (d.setCached bus v c).1 = d ∧ (d.setCached bus v c).2.1 = c ∧
      ((d.set bus v c).2.2 = .ok () → d.access = .ok v) ∧ ((d.setCached bus v c).2.2 = .ok () → d.access = .ok v)) := by
  constructor
  · intro h; simp [Data.get, h]
  · intro h
    have hs : d.set bus v c = (d, c, (d.set bus v c).2.2) := by
      unfold Data.set
      simp only [h, Bool.not_false, if_true]
      split
      · split <;> rfl
      · rfl
      · rfl
    have hsc : d.setCached bus v c = (d, c, (d.setCached bus v c).2.2) := by
      unfold Data.setCached
      simp only [h, Bool.not_false, if_true]
      split <;> rfl
    refine ⟨by rw [hs], by rw [hs], by rw [hsc], by rw [hsc], ?_, ?_⟩
    · unfold Data.set
      simp only [h, Bool.not_false, if_true]
      split
      · rename_i cur ha
        split
        · intro h; cases h
        · rename_i hne
          intro _; rw [ha]; simp at hne; rw [hne]
      · intro h; cases h
      · intro h; cases h
    · unfold Data.setCached Data.differs
      simp only [h, Bool.not_false, if_true]
      cases hv : d.valid with
      | false => simp
      | true =>
        cases ha : d.access with
        | ok cur =>
          by_cases hc : cur = v
          · simp [hc]
          · simp [hc]
        | throws e => simp
        | ub => simp

example : (exampleEntry 0x1000#16 true false .none .none).writable = false ∧
    ((Data.new (exampleEntry 0x1000#16 true false .none .none) (.int .u8)).set goodBus [5#8] ⟨[1#8], []⟩).2.1.log = [] := by
  refine ⟨rfl, by decide⟩

/-- C28.  The access codes of the file (in any letter case) are exactly the documented ones; anything else is rejected. -/
theorem C28_access_codes (a : Text) (r : Rights) :
    setAccess a = some r ↔ ∃ p ∈ accessTable, a.map Char.toLower = p.1.toList ∧ r = ⟨p.2.constant, p.2.readable, p.2.writable⟩ := by
  simp only [accessTable, List.mem_cons, List.not_mem_nil, or_false, exists_eq_or_imp, exists_eq_left]
  unfold setAccess lower
  dsimp only
  have d : ∀ x y : Text, x ≠ y → ∀ t : Text, t = x → t ≠ y := by intro x y h t h1 h2; exact h (h1.symm.trans h2)
  constructor
  · intro h
    repeat' split at h
    all_goals first
      | (rename_i h1; cases h; simp [h1])
      | cases h
  · rintro (⟨h, rfl⟩ | ⟨h, rfl⟩ | ⟨h, rfl⟩ | ⟨h, rfl⟩ | ⟨h, rfl⟩ | ⟨h, rfl⟩) <;> rw [h] <;> rfl

example : exampleDict.NodupKeys ∧ setAccess "RwW".toList = some ⟨false, true, true⟩ ∧ setAccess "rx".toList = none := by
  refine ⟨by unfold Dict.NodupKeys; decide, by decide, by decide⟩

/-- C29.  As long as the device answers (with values of the object's size), every history of `get`, `get_cached`, `set`, `set_cached`
and changes on the device's side gives the answers and the traffic of the specification, and leaves the device with the same
value. -/
theorem C29_storage_transparent (d : Data) (w : List Byte) (es : List ObjEvent) (hr : d.rd = .dev) (hw : d.wr = .dev)
    (hs : SizedFor d.ty d.buffer) (hw' : SizedFor d.ty w) (he : ∀ e ∈ es, EventSized d.ty e) :
    (evRun d ⟨w, []⟩ es).2.2 = (es.zip ((ObjState.mk w d.cache).run (rightsOf d.entry) es).2.1).map (fun p => shown p.1 p.2) ∧
    (evRun d ⟨w, []⟩ es).2.1.log = ((ObjState.mk w d.cache).run (rightsOf d.entry) es).2.2.map (accOf d.entry) ∧
    (evRun d ⟨w, []⟩ es).2.1.w = ((ObjState.mk w d.cache).run (rightsOf d.entry) es).1.dev := by
  have := evRun_ok es (d := d) (c := ⟨w, []⟩) (s := ⟨w, d.cache⟩) ⟨hr, hw, hs, rfl, hw', rfl⟩ he
  simpa using this

example : ∀ e ∈ [ObjEvent.getCached, .deviceChanges [8#8, 0#8], .get, .set [9#8, 0#8]], EventSized (.int .u16) e := by
  intro e he
  simp only [List.mem_cons, List.not_mem_nil, or_false] at he
  rcases he with rfl | rfl | rfl | rfl
  · trivial
  · exact fun _ => rfl
  · trivial
  · exact fun _ => rfl

/-- C29.  The two ways a handle's object comes into being meet the hypotheses: without default the cache is empty, with a default it is
the default. -/
theorem C29_initial (e : Entry) (ty : Ty) (v : List Byte) (hv : SizedFor ty v) :
    ((Data.new e ty).rd = .dev ∧ (Data.new e ty).wr = .dev ∧ SizedFor ty (Data.new e ty).buffer ∧ (Data.new e ty).cache = none) ∧
    ((Data.ofVal e ty v).rd = .dev ∧ (Data.ofVal e ty v).wr = .dev ∧ SizedFor ty (Data.ofVal e ty v).buffer ∧ (Data.ofVal e ty v).cache = some v) :=
  ⟨⟨rfl, rfl, fun _ => by simp [Data.new], rfl⟩, ⟨rfl, rfl, hv, rfl⟩⟩

example : (evRun (Data.new (exampleEntry 0x6081#16 true true .none .none) (.int .u16)) ⟨[7#8, 0#8], []⟩
    [.getCached, .deviceChanges [8#8, 0#8], .getCached, .get, .setCached [8#8, 0#8], .set [9#8, 0#8]]).2.1.log =
    [.read .dev 0x6081#16 0#8, .read .dev 0x6081#16 0#8, .write .dev 0x6081#16 0#8 [9#8, 0#8]] ∧
    SizedFor (.int .u16) [7#8, 0#8] := by
  refine ⟨by decide, fun _ => rfl⟩

/-- C30, first half is false: whenever the first read of an object fails (and leaves the buffer alone), the next cached read
succeeds with zeros nobody ever sent, without asking the device. -/
theorem C30_invented_value (bus : Bus W) (e : Entry) (t : IntTy) (hr : e.readable = true) (c : Ctx W) (code : Nat)
    (hfail : ∀ buf, (bus.read .dev e buf c.w).2 = (buf, some code)) :
    ∃ d1 c1, (Data.new e (.int t)).call bus c .get = (d1, c1, .value (.throws (.device code))) ∧
      d1.call bus c1 .getCached = (d1, c1, .value (.ok (List.replicate t.size 0#8))) := by
  have hal : (Data.new e (.int t)).allocate = { Data.new e (.int t) with buffer := List.replicate t.size 0#8, valid := true } := by
    unfold Data.allocate
    simp only [Data.new, reduceCtorEq, if_false, Bool.not_false, if_true, Ty.size]
    rw [show Txt.resize t.size (List.replicate t.size 0#8) = List.replicate t.size 0#8 by simp [Txt.resize]]
  refine ⟨{ Data.new e (.int t) with buffer := List.replicate t.size 0#8, valid := true },
    ⟨(bus.read .dev e (List.replicate t.size 0#8) c.w).1, c.log ++ [.read .dev e.index e.subIndex]⟩, ?_, ?_⟩
  · simp only [Data.call, Data.get, hal]
    simp [Data.new, hr, Data.callRead, hfail]
  · simp [Data.call, Data.get, Data.new, hr, Data.access, Ty.size]

/-- C30, second half is false: after a failed write of `v`, `set_cached v` reports success and nothing is sent. -/
theorem C30_lost_write (bus : Bus W) (d : Data) (c : Ctx W) (v : List Byte) (hw : d.entry.writable = true)
    (hs : SizedFor d.ty d.buffer) (hv : SizedFor d.ty v) (code : Nat) (hfail : (bus.write d.wr d.entry v c.w).2 = some code) :
    ∃ d1 c1, d.call bus c (.set v) = (d1, c1, .unit (.throws (.device code))) ∧ d1.call bus c1 (.setCached v) = (d1, c1, .flag (.ok true)) := by
  refine ⟨{ d with buffer := v, valid := true }, ⟨(bus.write d.wr d.entry v c.w).1, c.log ++ [.write d.wr d.entry.index d.entry.subIndex v]⟩, ?_, ?_⟩
  · simp [Data.call, Data.set, hw, Data.storeWrite, store_sized hs hv, Data.callWrite, hfail]
  · have ha : Data.access { d with buffer := v, valid := true } = .ok v := by
      rw [access_sized (d := { d with buffer := v, valid := true }) hv]; rfl
    simp only [Data.call, Data.setCached, Data.differs, ha]
    simp

/-- both failures occur: a device that always fails -/
example : ∃ (bus : Bus Unit), (∀ buf, (bus.read .dev (exampleEntry 1#16 true true .none .none) buf ()).2 = (buf, some 7)) ∧
    (bus.write .dev (exampleEntry 1#16 true true .none .none) [1#8] ()).2 = some 7 :=
  ⟨⟨fun _ _ b _ => ((), b, some 7), fun _ _ _ _ => ((), some 7)⟩, fun _ => rfl, rfl⟩

/-- C30, what holds: the call in which the device fails always reports it; after a failed `set` a repeated `set` reaches the device
again; after a failed `get` a further `get` asks the device again; and a value that was known before a failed read (that left the
buffer alone) is still the one a cached read returns.  Missing: objects not known before a failed read, and `set_cached` after a
failed write (both false, see above). -/
theorem C30_failed_access_partial (bus : Bus W) (d : Data) (c : Ctx W) (v : List Byte) (code : Nat)
    (hs : SizedFor d.ty d.buffer) (hv : SizedFor d.ty v) :
    (d.entry.readable = true → d.entry.constant = false → (bus.read d.rd d.entry d.allocate.buffer c.w).2.2 = some code →
      (d.call bus c .get).2.2 = .value (.throws (.device code)) ∧
      (∀ c', ((d.call bus c .get).1.call bus c' .get).2.1.log = c'.log ++ [.read d.rd d.entry.index d.entry.subIndex]) ∧
      (d.valid = true → d.ty ≠ .string → (bus.read d.rd d.entry d.buffer c.w).2.1 = d.buffer → ∀ c',
        ((d.call bus c .get).1.call bus c' .getCached) = (d, c', .value (.ok d.buffer)))) ∧
    (d.entry.writable = true → (bus.write d.wr d.entry v c.w).2 = some code →
      (d.call bus c (.set v)).2.2 = .unit (.throws (.device code)) ∧
      (∀ c' v', SizedFor d.ty v' → ((d.call bus c (.set v)).1.call bus c' (.set v')).2.1.log = c'.log ++ [.write d.wr d.entry.index d.entry.subIndex v']) ∧
      (d.cache ≠ some v → (d.call bus c (.setCached v)).2.2 = .flag (.ok false))) := by
  have hcr : ∀ (d : Data) (c : Ctx W), (d.callRead bus c).2.1.log = c.log ++ [.read d.rd d.entry.index d.entry.subIndex] := fun _ _ => rfl
  have ha := allocate_facts d
  constructor
  · intro hr hk hf
    have hf' : (d.allocate.callRead bus c).2.2 = some code := by
      simp only [Data.callRead, ha.2.1, allocate_entry]; exact hf
    have h1 : d.call bus c .get = ((d.allocate.callRead bus c).1, (d.allocate.callRead bus c).2.1, .value (.throws (.device code))) := by
      simp only [Data.call, Data.get, hr, hk, Bool.not_true, Bool.false_eq_true, if_false, Bool.or_self, Bool.not_false, Bool.or_true, if_true, hf']
    refine ⟨by rw [h1], ?_, ?_⟩
    · intro c'
      rw [h1]
      have he : ((d.allocate.callRead bus c).1).allocate.entry = d.entry := by
        rw [allocate_entry]; exact allocate_entry d
      have hr2 : ((d.allocate.callRead bus c).1).entry.readable = true := by
        show d.allocate.entry.readable = true
        rw [allocate_entry]; exact hr
      have hk2 : ((d.allocate.callRead bus c).1).entry.constant = false := by
        show d.allocate.entry.constant = false
        rw [allocate_entry]; exact hk
      simp only [Data.call, Data.get, hr2, hk2, Bool.not_true, Bool.false_eq_true, if_false, Bool.or_self, Bool.not_false, Bool.or_true, if_true]
      have hrd : ((d.allocate.callRead bus c).1).allocate.rd = d.rd := by
        rw [(allocate_facts _).2.1]; exact ha.2.1
      split <;> (rw [hcr, he, hrd])
    · intro hvd hty hb c'
      rw [h1]
      have hal : d.allocate = d := by
        unfold Data.allocate; simp [hty, hvd]
      have hcd : (d.allocate.callRead bus c).1 = d := by
        rw [hal]; simp only [Data.callRead, hb]
      rw [hcd]
      simp only [Data.call, Data.get, hr, hvd, Bool.not_true, Bool.false_eq_true, if_false, Bool.true_or, Bool.or_self]
      rw [access_sized hs, hvd]; rfl
  · intro hw hf
    have h1 : d.call bus c (.set v) = ({ d with buffer := v, valid := true }, ⟨(bus.write d.wr d.entry v c.w).1, c.log ++ [.write d.wr d.entry.index d.entry.subIndex v]⟩,
        .unit (.throws (.device code))) := by
      simp [Data.call, Data.set, hw, Data.storeWrite, store_sized hs hv, Data.callWrite, hf]
    refine ⟨by rw [h1], ?_, ?_⟩
    · intro c' v' hv'
      rw [h1]
      have := store_sized (d := { d with buffer := v, valid := true }) hv hv'
      simp only [Data.call, Data.set, hw, Bool.not_true, Bool.false_eq_true, if_false, Data.storeWrite, this]
      split <;> rfl
    · intro hc
      have hd : d.differs v = some true := by
        unfold Data.differs
        rw [access_sized hs]
        unfold Data.cache at hc
        cases hvd : d.valid with
        | false => simp
        | true =>
          rw [hvd] at hc
          simp only [if_true, ne_eq, Option.some.injEq] at hc
          simp [hc]
      simp [Data.call, Data.setCached, hd, hw, Data.storeWrite, store_sized hs hv, Data.callWrite, hf]

/-- C31.  In every state the storage can be in (any history of operations and failures before): `init_all` writes, in some order of
the objects, the configured value of exactly the objects that need it (`MustInit`), once each and to the place the object's writes
go to, and nothing else is read or written.  If a write fails init stops there and says so; otherwise afterwards every configured
value is the known one, unless the object had been given another value before. -/
theorem C31_init_writes (bus : Bus W) (mem : Mem) (dict : Dict) (hn : dict.NodupKeys) (node : BitVec 8) (w : W) (ops : List SOp)
    (s : Storage) (c : Ctx W) (hs : s = ((Storage.fresh dict node).run bus mem ⟨w, []⟩ ops).1)
    (hc : c = ((Storage.fresh dict node).run bus mem ⟨w, []⟩ ops).2.1) :
    ∃ done todo, dict = done ++ todo ∧ (s.initAll bus mem c).2.1.log = c.log ++ done.flatMap (initWrites mem s) ∧
      ((s.initAll bus mem c).2.2 = .ok () ∨ ∃ code, (s.initAll bus mem c).2.2 = .throws (.device code)) ∧
      ((s.initAll bus mem c).2.2 = .ok () → todo = [] ∧ ∀ k e p, (k, e) ∈ dict → e.initVal = .val p →
        (s.initAll bus mem c).1.cacheOf k = some (p.bytes mem) ∨
        (defaultOf mem e ≠ none ∧ s.cacheOf k ≠ none ∧ s.cacheOf k ≠ defaultOf mem e ∧ (s.initAll bus mem c).1.cacheOf k = s.cacheOf k)) := by
  have h := run_inv bus mem ops (s := Storage.fresh dict node) hn (fresh_inv dict node w)
  rw [← hs, ← hc] at h
  have hd : s.dict = dict := h.2
  have hl : ∀ p ∈ dict, s.dict.get p.1 = some p.2 := fun p hp => by rw [hd]; exact get_nodup hn hp
  obtain ⟨l1, l2, h1, h2, h3, h4, _⟩ := initAllFrom_writes bus mem dict hn h.1.cons hl c
  unfold Storage.initAll
  rw [hd]
  refine ⟨l1, l2, h1, h2, h3, fun hok => ⟨(h4 hok).1, fun k e p hm hp => (h4 hok).2 k e p hm hp⟩⟩

example : MustInit true [100#8] (some [0#8]) (some [0#8]) ∧ MustInit true [100#8] none none ∧ ¬ MustInit true [0#8] (some [0#8]) none ∧
    ¬ MustInit true [100#8] (some [0#8]) (some [5#8]) ∧ ¬ MustInit false [100#8] none none := by decide
example : exampleDict.flatMap (initWrites exampleMem (Storage.fresh exampleDict 1#8)) = [.write .dev 0x6081#16 0#8 [100#8, 0#8, 0#8, 0#8]] := by decide

/-- C63.  A `$NODEID` expression as configured value of a writable object: at init not the number but the 16 bytes of an internal
object are written, and afterwards the object cannot be opened as any integer type. -/
theorem C63_node_id_init (bus : Bus W) (mem : Mem) (dict : Dict) (node : BitVec 8) (k : Key) (e : Entry) (t : IntTy) (v : BitVec t.width)
    (hk : dict.get k = some e) (hi : e.initVal = .val (.offset t v)) (hw : e.writable = true) (hd : e.defVal.isEmpty = true) (c : Ctx W) :
    ∃ bs, ((Storage.fresh dict node).init bus mem k c).2.1.log = c.log ++ [.write .dev e.index e.subIndex bs] ∧ bs.length = 16 ∧
      (∀ x : BitVec t.width, bs ≠ leBytes t.size x) ∧
      ∀ t', ((((Storage.fresh dict node).init bus mem k c).1).entry mem k (.int t')).2 = .throws .badCast := by
  have hdv : ∀ p, e.defVal ≠ .val p := by
    intro p hp; rw [hp] at hd; simp [HoldAny.isEmpty] at hd
  have h1 := init_one bus mem (Data.new e (.offset t)) c (.offset t v) hi
  have hdf : defaultOf mem e = none := by
    unfold defaultOf
    split
    · rename_i p hp; exact absurd hp (hdv p)
    · rfl
  refine ⟨mem.offsetBytes t v, ?_, mem.offset_size t v, ?_, ?_⟩
  · simp only [Storage.init, Storage.fresh, hk, Storage.initNolock, hi, Option.getD_none]
    have hm : MustInit (Data.new e (.offset t)).entry.writable ((Payload.offset t v).bytes mem) (defaultOf mem (Data.new e (.offset t)).entry)
        (Data.new e (.offset t)).cache := by
      refine ⟨hw, ?_⟩
      show match defaultOf mem e with | some d => _ | none => _
      rw [hdf]
      simp [Data.new, Data.cache]
    rw [if_pos hm] at h1
    exact h1.1
  · intro x hx
    have := congrArg List.length hx
    rw [mem.offset_size] at this
    cases t <;> simp [leBytes, IntTy.size] at this
  · intro t'
    have : ∃ d, (((Storage.fresh dict node).init bus mem k c).1).data k = some d ∧ d.ty = .offset t := by
      simp only [Storage.init, Storage.fresh, hk, Storage.initNolock, hi, Option.getD_none, Storage.put, if_true]
      refine ⟨_, rfl, ?_⟩
      rw [init_ty]; rfl
    obtain ⟨d, h1, h2⟩ := this
    unfold Storage.entry
    simp [h1, h2]

example : (exampleEntry 0x1400#16 true true .none (.val (.offset .u32 0x200#32))).defVal.isEmpty = true ∧
    Dict.get [(Key.ofIndex 5#16, exampleEntry 0x1400#16 true true .none (.val (.offset .u32 0x200#32)))] (Key.ofIndex 5#16) ≠ none := by
  refine ⟨rfl, ?_⟩
  simp [Dict.get]

/-- C63.  As default value the expression works: a handle of the integer type holds literal plus node id, for every node. -/
theorem C63_node_id_default (mem : Mem) (dict : Dict) (node : BitVec 8) (k : Key) (e : Entry) (t : IntTy) (v : BitVec t.width)
    (hk : dict.get k = some e) (hd : e.defVal = .val (.offset t v)) :
    ∃ d, ((Storage.fresh dict node).entry mem k (.int t)).2 = .ok d ∧ d.cache = some (leBytes t.size (BitVec.ofNat t.width (node.toNat + v.toNat))) := by
  refine ⟨Data.ofVal e (.int t) (leBytes t.size (BitVec.ofNat t.width (node.toNat + v.toNat))), ?_, rfl⟩
  simp [Storage.entry, Storage.fresh, hk, Storage.make, hd, HoldAny.isEmpty, applyAny, applyOffset, HoldAny.type, Payload.ty, HoldAny.getOffset]

example : (exampleEntry 0x1400#16 true true (.val (.offset .u32 0x200#32)) .none).defVal = .val (.offset .u32 0x200#32) := rfl

end Verif.Props
