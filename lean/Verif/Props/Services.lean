import Verif.Lemmas.Services
import Verif.Props.ObjectText
import Verif.Props.StorageBus

/-!
# C120: reading and writing objects of devices by service
-/

namespace Verif.Props
open Verif Verif.OD Verif.Sdo Verif.Chan Verif.Spec Verif.Spec.Sdo Verif.Spec.Chan Verif.Spec.Wire Verif.Spec.Serv

variable {P : Type}

/-- two nodes with the objects of `exampleDict`; during the first access to `n` other traffic passes and the answer is late -/
private def nodes120 : Nodes := [("n".toList, Storage.fresh exampleDict 1#8), ("m".toList, Storage.fresh exampleDict 2#8)]

private def sid120 (name : Text) : Header := if name = "m".toList then { exampleSid with id := 0x582#29 } else exampleSid

private def wire120 (name : Text) : Wire Unit :=
  ⟨((State.fresh exampleClient).step (.init [] (if name = "m".toList then 2 else 1))).1, ⟨fun _ => [1, 2, 3, 4], .idle⟩,
   [[.take, .foreign { exampleFrame (shortFrame 0#8) with id := 0x583#29 }, .serve, .serve, .take, .take], [.serve, .take], [.serve, .take]], false, ()⟩

private def texts120 : Texts := ⟨noReals, noRealTexts, fun _ => []⟩

/-- requests between a write and a read of object 6081 of node `n` -/
private def mid120 : List Request :=
  [.get "n".toList "1000".toList false, .set "m".toList "6081".toList "7".toList false, .deviceChanges "n".toList ⟨0x1000#16, 0⟩ [9, 0, 0, 0],
   .set "n".toList "1000".toList "8".toList false, .get "m".toList "6081".toList true]

private def all120 : List Request := .set "n".toList "6081".toList " 0x12c ".toList false :: mid120 ++ [.get "n".toList "6081".toList false]

private theorem ready120 : AllReady sid120 wire120 := by
  intro n
  unfold sid120 wire120
  by_cases h : n = "m".toList
  · simp only [h, if_true]
    exact ⟨by decide, rfl, rfl, rfl, rfl, rfl⟩
  · simp only [h, if_false]
    exact ⟨by decide, rfl, rfl, rfl, rfl, rfl⟩

/-- C120.  Users of the services cannot tell the devices at the other ends of the bus from memories.  Take any history of `get_object` and `set_object` requests
for any nodes, objects and values, and of changes on the devices' side, with anything happening on the bus meanwhile.  If the accesses come to their end and are
supported by the client, then all answers, all storages and the values on all devices are those of services that read and write memories. -/
theorem C120_same_as_memory (cfg : Text → Config) (hcfg : ∀ n, (cfg n).Legal) (sid : Text → Header) (other : Text → Bus P) (t : Texts) (mem : Mem) (ns : Nodes)
    (w : Text → Wire P) (log : List Acc) (qs : List Request) (hw : AllReady sid w) :
    let real := overBus cfg sid other t mem ns ⟨w, log⟩ qs
    let ideal := onMemory cfg other t mem ns ⟨memories w, log⟩ qs
    (∀ n, (real.2.1.w n).hung = false) → (∀ n, (ideal.2.1.w n).fair = true) →
      real.2.2 = ideal.2.2 ∧ real.1 = ideal.1 ∧ (∀ n, (real.2.1.w n).server.store = (ideal.2.1.w n).store ∧ (real.2.1.w n).other = (ideal.2.1.w n).other) ∧
      AllReady sid real.2.1.w := by
  intro real ideal h1 h2
  have h := alike_serveAll cfg hcfg sid other t mem qs ns (c := ⟨w, log⟩) (c' := ⟨memories w, log⟩) ⟨fun n => ⟨hw n, rfl, rfl⟩, rfl⟩
  rcases h with ⟨n, h⟩ | ⟨n, h⟩ | ⟨h3, ⟨h4, -⟩, h5⟩
  · have : (real.2.1.w n).hung = true := h
    rw [h1] at this; cases this
  · have : (ideal.2.1.w n).fair = false := h
    rw [h2] at this; cases this
  · refine ⟨h5, h3, fun n => ⟨(h4 n).1.holds, (h4 n).2.2⟩, fun n => ?_⟩
    obtain ⟨a1, a2, a3, a4, a5, -⟩ := (h4 n).1
    exact ⟨a1, a2, a3, a4, a5, rfl⟩

/-- C120.  What is written is there.  A request writes a number, as a text, to an integer object of at least 16 bits that may be read and written.  After that
come any requests and changes by the devices that spare this object, and then a request that reads it, from the device or from the cache.  Then the first
answer reports success, the device holds the number, and the last answer shows it in decimal. -/
theorem C120_set_get (cfg : Text → Config) (hcfg : ∀ n, (cfg n).Legal) (sid : Text → Header) (other : Text → Bus P) (tx : Texts) (mem : Mem) (ns : Nodes)
    (w : Text → Wire P) (log : List Acc) (hw : AllReady sid w) (hc : Consistent ns) (node object : Text) (s s1 : Storage) (e : Entry) (t : IntTy) (d : Data)
    (ha : Addressed mem ns node object s e (.int t) s1 d) (h2 : 16 ≤ t.width) (hread : e.readable = true) (hwrite : e.writable = true) (hrd : d.rd = .dev)
    (hwr : d.wr = .dev) (hsz : SizedFor d.ty d.buffer) (a x b : Text) (v : Int) (hA : Blank a) (hB : Blank b) (hx : IntLit x v) (hf : FitsTy t v)
    (mid : List Request) (hmid : ∀ q ∈ mid, Spares ns node (objOf e) q) (cached : Bool) :
    let qs := .set node object (a ++ x ++ b) false :: mid ++ [.get node object cached]
    let real := overBus cfg sid other tx mem ns ⟨w, log⟩ qs
    (∀ n, (real.2.1.w n).hung = false) → (∀ n, ((onMemory cfg other tx mem ns ⟨memories w, log⟩ qs).2.1.w n).fair = true) →
      real.2.2.head? = some (some (some ⟨true, [], []⟩)) ∧ real.2.2.getLast? = some (some (some ⟨true, [], decimal v⟩)) ∧
      ∃ n : BitVec t.width, intValue t n = v ∧ (real.2.1.w node).server.store (objOf e) = leBytes t.size n := by
  intro qs real h3 h4
  obtain ⟨g1, g2, g3, -⟩ := C120_same_as_memory cfg hcfg sid other tx mem ns w log qs hw h3 h4
  have hgood : ∀ n s, ns.find n = some s → Good s := fun n s hn k d hd => hc n s k d hn hd
  have hdt : d.ty = .int t := entry_ty mem s s1 d _ _ ha.record
  obtain ⟨e1, e2, e3, e4⟩ := entry_good mem s (Key.fromText object) (.int t) (hgood node s ha.known)
  rw [ha.record] at e1 e2 e3 e4
  have hde : d.entry = e := by
    have := e4 d rfl
    rw [ha.listed] at this
    exact (Option.some.inj this).symm
  obtain ⟨n, hn, hset⟩ := C87_set_integer (directAll cfg other) tx.info mem tx.parse ns ⟨memories w, log⟩ node object s s1 e t d ha a x b v hA hB hx hf
  have hlen : (leBytes t.size n).length = t.size := leBytes_length t.size n
  -- the write on the memory
  have hst : ∃ d', d.store (leBytes t.size n) = some d' ∧ d'.entry = d.entry ∧ d'.ty = d.ty ∧ d'.rd = .dev ∧ d'.wr = .dev ∧ d'.valid = true ∧
      d'.buffer = leBytes t.size n := by
    have hal : d.allocate.ty = .int t ∧ d.allocate.buffer.length = t.size ∧ d.allocate.valid = true := by
      unfold Data.allocate
      rw [if_neg (by rw [hdt]; simp)]
      cases hv : d.valid with
      | false => simp [hdt, Ty.size, Txt.length_resize]
      | true =>
        have := hsz (by rw [hdt]; simp)
        rw [hdt] at this
        simp [hdt, hv, this, Ty.size]
    obtain ⟨a1, a2, a3⟩ := hal
    have hs : d.store (leBytes t.size n) = some { d.allocate with buffer := leBytes t.size n } := by
      unfold Data.store
      simp only [a1, a2]
      simp [Ty.size, a2]
    obtain ⟨b1, b2, b3, b4⟩ := allocate_same d
    exact ⟨_, hs, b1, b2, b3.trans hrd, b4.trans hwr, a3, rfl⟩
  obtain ⟨d', hst, f1, f2, f3, f4, f5, f6⟩ := hst
  have hres : d.set (directAll cfg other node) (leBytes t.size n) ⟨memories w, log⟩ = (d', (d'.callWrite (directAll cfg other node) ⟨memories w, log⟩).1, .ok ()) := by
    unfold Data.set
    rw [if_neg (by rw [hde, hwrite]; simp)]
    unfold Data.storeWrite
    rw [hst]
    have : (d'.callWrite (directAll cfg other node) ⟨memories w, log⟩).2 = none := by
      simp only [Data.callWrite, f4, directAll, Serv.of, direct]
    simp only [this]
  have hstay : Stays node s.dict (Key.fromText object) e t (leBytes t.size n)
      (serve (directAll cfg other) changeDirect tx mem ns ⟨memories w, log⟩ (.set node object (a ++ x ++ b) false)).1
      (serve (directAll cfg other) changeDirect tx mem ns ⟨memories w, log⟩ (.set node object (a ++ x ++ b) false)).2.1 := by
    simp only [serve, hset, hres]
    refine ⟨update_good ns node _ hgood (put_good s1 _ d' e1 (by rw [e2, ha.listed, f1, hde])) (by rw [ha.known]; rfl), ha.listed, ?_, ?_, hlen⟩
    · exact ⟨_, d', find_update_same ns node _ (by rw [ha.known]; rfl), e2, by simp [Storage.put], f2.trans hdt, f3, f5, f6⟩
    · simp only [Data.callWrite, f4, f6, f1, hde, directAll, Serv.of, direct, if_true]
  have hans : (serve (directAll cfg other) changeDirect tx mem ns ⟨memories w, log⟩ (.set node object (a ++ x ++ b) false)).2.2 = some (some ⟨true, [], []⟩) := by
    simp only [serve, hset, hres, Spec.answerTo]
  have hsp : ∀ q ∈ mid, SparesIn s.dict node (objOf e) q := by
    intro q hq
    have := hmid q hq
    cases q with
    | get _ _ _ => trivial
    | set m object' v' c' => exact fun hm e' he' => this hm s e' ha.known he'
    | deviceChanges m o v' => exact this
  have hmidS := stays_serveAll cfg other node s.dict (Key.fromText object) e t (leBytes t.size n) tx mem mid _ _ hstay hsp
  -- the history on the memory
  have hrun : onMemory cfg other tx mem ns ⟨memories w, log⟩ qs =
      let r0 := serve (directAll cfg other) changeDirect tx mem ns ⟨memories w, log⟩ (.set node object (a ++ x ++ b) false)
      let r1 := serveAll (directAll cfg other) changeDirect tx mem r0.1 r0.2.1 mid
      let r2 := serve (directAll cfg other) changeDirect tx mem r1.1 r1.2.1 (.get node object cached)
      (r2.1, r2.2.1, r0.2.2 :: (r1.2.2 ++ [r2.2.2])) := by
    simp only [qs, onMemory, List.cons_append, serveAll, serveAll_append]
  dsimp only at hrun
  generalize hr0 : serve (directAll cfg other) changeDirect tx mem ns ⟨memories w, log⟩ (.set node object (a ++ x ++ b) false) = r0 at *
  generalize hr1 : serveAll (directAll cfg other) changeDirect tx mem r0.1 r0.2.1 mid = r1 at *
  have hend := stays_serve cfg other node s.dict (Key.fromText object) e t (leBytes t.size n) tx mem r1.1 r1.2.1 (.get node object cached) hmidS trivial
  obtain ⟨s', d2, k1, k2, k3, k4, k5, k6, k7⟩ := hmidS.here
  have hshow : (serve (directAll cfg other) changeDirect tx mem r1.1 r1.2.1 (.get node object cached)).2.2 = some (some ⟨true, [], decimal v⟩) := by
    have he2 : d2.entry = e := by
      have := hmidS.good node s' k1 _ d2 k3
      rw [k2, ha.listed] at this
      exact (Option.some.inj this).symm
    have hadr : Addressed mem r1.1 node object s' e (.int t) s' d2 := by
      refine ⟨k1, by rw [k2]; exact ha.listed, ha.type, ?_⟩
      unfold Storage.entry
      rw [k3]
      simp only [k4, if_true]
    have hg := get_stays cfg other node t (leBytes t.size n) d2 r1.2.1 cached k4 k5 k6 k7 (by rw [he2]; exact hmidS.device) hlen
    obtain ⟨m, hm, hget⟩ := C87_get_integer (directAll cfg other) tx.info mem tx.print r1.1 r1.2.1
      (d2.get (directAll cfg other node) cached r1.2.1).2.1 node object cached s' s' e t d2 (d2.get (directAll cfg other node) cached r1.2.1).1 (leBytes t.size n) hadr h2
      (by rw [← hg.2.2 (by rw [he2]; exact hread)])
    have hnm : n = m := by
      apply BitVec.eq_of_toNat_eq
      rw [← leNat_leBytes, ← leNat_leBytes, hm]
    simp only [serve, hget]
    rw [← hnm, hn]
  refine ⟨?_, ?_, n, hn, ?_⟩
  · rw [show real.2.2 = _ from g1, hrun]
    simp [hans]
  · rw [show real.2.2 = _ from g1, hrun]
    simp only [hshow]
    rw [← List.cons_append, List.getLast?_append]
    simp
  · rw [show (real.2.1.w node).server.store = _ from (g3 node).1, hrun]
    exact hend.device

/-- C120.  A device and a storage that no request names stay as they are, whatever happens to the others. -/
theorem C120_others (cfg : Text → Config) (sid : Text → Header) (other : Text → Bus P) (t : Texts) (mem : Mem) (ns : Nodes) (c : Ctx (Text → Wire P))
    (qs : List Request) (n : Text) (h : ∀ q ∈ qs, ¬ Concerns n q) :
    (overBus cfg sid other t mem ns c qs).2.1.w n = c.w n ∧ (overBus cfg sid other t mem ns c qs).1.find n = ns.find n := by
  exact others_serveAll _ changeWired (fun n o v f m hm => by simp only [changeWired, hm, if_false]) t mem qs ns c n h

private theorem concerned120 (n : Text) (h : n ≠ "n".toList ∧ n ≠ "m".toList) : ∀ q ∈ all120, ¬ Concerns n q := by
  intro q hq
  have hn : ¬ "n".toList = n := fun e => h.1 e.symm
  have hm : ¬ "m".toList = n := fun e => h.2 e.symm
  simp only [all120, mid120, List.cons_append, List.nil_append, List.mem_cons, List.not_mem_nil, or_false] at hq
  rcases hq with rfl | rfl | rfl | rfl | rfl | rfl | rfl <;> first | exact hn | exact hm

/-- all accesses end and are supported; the answers of the example -/
example : (∀ n, ((overBus (fun _ => exampleCfg) sid120 (fun _ => noPdo) texts120 exampleMem nodes120 ⟨wire120, []⟩ all120).2.1.w n).hung = false) ∧
    (overBus (fun _ => exampleCfg) sid120 (fun _ => noPdo) texts120 exampleMem nodes120 ⟨wire120, []⟩ all120).2.2 =
      [some (some ⟨true, [], []⟩), some (some ⟨true, [], "67305985".toList⟩), some (some ⟨true, [], []⟩), none, some (some ⟨false, [], []⟩),
       some (some ⟨true, [], "7".toList⟩), some (some ⟨true, [], "300".toList⟩)] := by
  refine ⟨fun n => ?_, by decide +kernel⟩
  by_cases h : n = "n".toList ∨ n = "m".toList
  · rcases h with rfl | rfl <;> decide +kernel
  · rw [(C120_others _ _ _ _ _ _ _ all120 n (concerned120 n ⟨fun e => h (Or.inl e), fun e => h (Or.inr e)⟩)).1]
    rfl

example : ∀ n, ((onMemory (fun _ => exampleCfg) (fun _ => noPdo) texts120 exampleMem nodes120 ⟨memories wire120, []⟩ all120).2.1.w n).fair = true := by
  intro n
  by_cases h : n = "n".toList ∨ n = "m".toList
  · rcases h with rfl | rfl <;> decide +kernel
  · exact congrArg Memory.fair (others_serveAll _ changeDirect (fun n o v f m hm => by simp only [changeDirect, hm, if_false]) _ _ all120 _ _ n
      (concerned120 n ⟨fun e => h (Or.inl e), fun e => h (Or.inr e)⟩)).1

example : AllReady sid120 wire120 ∧ (∀ q ∈ mid120, Spares nodes120 "n".toList ⟨0x6081#16, 0⟩ q) ∧ Serv.Consistent nodes120 ∧
    let e := exampleEntry 0x6081#16 true true (.empty (.int .u32)) (.val (.int .u32 100#32))
    let d := Data.new e (.int .u32)
    Addressed exampleMem nodes120 "n".toList "6081".toList (Storage.fresh exampleDict 1#8) e (.int .u32)
      ((Storage.fresh exampleDict 1#8).put (Key.fromText "6081".toList) d) d ∧ e.readable = true ∧ e.writable = true ∧ d.rd = .dev ∧ d.wr = .dev ∧
      objOf e = ⟨0x6081#16, 0⟩ := by
  refine ⟨ready120, ?_, ?_, ⟨rfl, rfl, by decide +kernel, rfl⟩, rfl, rfl, rfl, rfl, rfl⟩
  · intro q hq
    simp only [mid120, List.mem_cons, List.not_mem_nil, or_false] at hq
    rcases hq with rfl | rfl | rfl | rfl | rfl
    · trivial
    · intro h; exact absurd h (by decide)
    · intro _; decide
    · intro _ s e hs he
      cases hs
      cases he
      decide
    · trivial
  · intro n s k d hn hd
    have : s.data k = none := by
      simp only [nodes120, Nodes.find] at hn
      grind [Storage.fresh]
    rw [this] at hd
    cases hd

/-- C120, the code does not keep it for writes with the flag `cached`: the device changed the object by itself, the value that was written before is written
again with success, and the device keeps its own. -/
theorem C120_cached_false :
    let r := overBus (fun _ => exampleCfg) sid120 (fun _ => noPdo) texts120 exampleMem nodes120 ⟨wire120, []⟩
      [.set "n".toList "6081".toList "300".toList false, .deviceChanges "n".toList ⟨0x6081#16, 0⟩ [5, 0, 0, 0],
       .set "n".toList "6081".toList "300".toList true, .get "n".toList "6081".toList false]
    r.2.2 = [some (some ⟨true, [], []⟩), none, some (some ⟨true, [], []⟩), some (some ⟨true, [], "5".toList⟩)] ∧
    (r.2.1.w "n".toList).server.store ⟨0x6081#16, 0⟩ = [5, 0, 0, 0] ∧ (r.2.1.w "n".toList).hung = false := by
  intro r
  refine ⟨by decide +kernel, by decide +kernel, by decide +kernel⟩

end Verif.Props
