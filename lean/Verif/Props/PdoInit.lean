import Verif.Lemmas.PdoReach
import Verif.Props.Storage
import Verif.Lemmas.PdoRx

/-!
# C77 - C80: setting up PDOs
-/

set_option linter.unusedSimpArgs false

namespace Verif.Props
open Verif Verif.OD Verif.Spec Verif.Pdo Verif.PdoInit

variable {D : Type}

/-- an object of the dictionaries of the examples -/
def exampleSub (i : BitVec 16) (s : BitVec 8) (dv iv : HoldAny) : Entry :=
  { objCode := 7, index := i, subIndex := s, dataType := 7, constant := false, readable := true, writable := true, desc := [], defVal := dv, initVal := iv }

/-- a device that accepts every write and leaves the buffer of every read alone; its state is the number of writes it will still accept -/
def countingDev : Dev Nat where
  read := fun _ b n => (n, b, none)
  write := fun _ _ n => match n with
    | 0 => (0, some 7)
    | n + 1 => (n, none)

/-- two PDOs with one mapped object each: the device sends 0x6000 and receives 0x6040; `id` is the identifier of the first one -/
def pdoDict (id : BitVec 32) : Dict :=
  [(Key.ofSub 0x1800#16 0, exampleSub 0x1800#16 0 (.val (.int .u8 2#8)) .none),
   (Key.ofSub 0x1800#16 1, exampleSub 0x1800#16 1 (.val (.int .u32 id)) .none),
   (Key.ofSub 0x1800#16 2, exampleSub 0x1800#16 2 (.val (.int .u8 255#8)) .none),
   (Key.ofSub 0x1A00#16 0, exampleSub 0x1A00#16 0 (.val (.int .u8 1#8)) .none),
   (Key.ofSub 0x1A00#16 1, exampleSub 0x1A00#16 1 (.val (.int .u32 0x60000008#32)) .none),
   (Key.ofSub 0x1400#16 0, exampleSub 0x1400#16 0 (.val (.int .u8 2#8)) .none),
   (Key.ofSub 0x1400#16 1, exampleSub 0x1400#16 1 (.val (.int .u32 0x201#32)) .none),
   (Key.ofSub 0x1400#16 2, exampleSub 0x1400#16 2 (.val (.int .u8 5#8)) .none),
   (Key.ofSub 0x1600#16 0, exampleSub 0x1600#16 0 (.val (.int .u8 1#8)) .none),
   (Key.ofSub 0x1600#16 1, exampleSub 0x1600#16 1 (.val (.int .u32 0x60400008#32)) (.val (.int .u32 0x60400010#32))),
   (Key.ofIndex 0x6000#16, exampleSub 0x6000#16 0 (.empty (.int .u8)) .none),
   (Key.ofIndex 0x6040#16, exampleSub 0x6040#16 0 (.empty (.int .u16)) .none)]

/-- bytes a frame is created with, in the examples -/
abbrev zeros : Vector Byte 8 := Vector.replicate 8 0#8

/-- the state before the set-up in the examples, and the two set-ups after one another -/
def pdoStart (id : BitVec 32) (writes : Nat) : Env Nat := Spec.fresh (pdoDict id) 1#8 writes
/-- see `pdoStart` -/
def pdoOnce (id : BitVec 32) (writes : Nat) : Env Nat × Outcome Err Bool := mapperInit countingDev exampleMem zeros 1 1 (pdoStart id writes)
/-- see `pdoStart` -/
def pdoTwice (id : BitVec 32) (writes : Nat) : Env Nat × Outcome Err Bool := mapperInit countingDev exampleMem zeros 1 1 (pdoOnce id writes).1

/-- the set-up succeeded -/
def succeeded : Outcome Err Bool → Bool
  | .ok b => b
  | _ => false

/-- the dictionary of the examples is proper -/
theorem pdoDict_keys (id : BitVec 32) : KeysMatch (pdoDict id) := by
  intro k e he
  have hm := get_mem he
  simp only [pdoDict, List.mem_cons, List.not_mem_nil, or_false, Prod.mk.injEq] at hm
  rcases hm with ⟨rfl, rfl⟩ | ⟨rfl, rfl⟩ | ⟨rfl, rfl⟩ | ⟨rfl, rfl⟩ | ⟨rfl, rfl⟩ | ⟨rfl, rfl⟩ | ⟨rfl, rfl⟩ | ⟨rfl, rfl⟩ | ⟨rfl, rfl⟩ | ⟨rfl, rfl⟩ | ⟨rfl, rfl⟩ | ⟨rfl, rfl⟩ <;>
    exact ⟨by rfl, fun _ => by first | rfl | contradiction⟩

/-- C77 (partial: the first set-up, and only if all PDOs the dictionary describes are switched on or empty).  After a successful set-up no use
of the storage, of whatever kind and in whatever order, touches a PDO buffer that does not exist any more. -/
theorem C77_no_destroyed_buffer_partial (dv : Dev D) (mem : Mem) (junk : Vector Byte 8) (nrTx nrRx : Nat) (dict : Dict) (hn : dict.NodupKeys) (node : BitVec 8)
    (d : D) (before after : List SOp) (hb : ∀ o ∈ before, IsUse o) (ha : ∀ o ∈ after, IsUse o) (e : Env D)
    (h1 : ∀ i < 512, present dict (sends i).1 (sends i).2 = true → NotDisabled dict node (sends i).1 (sends i).2)
    (h2 : ∀ i < 512, present dict (receives i).1 (receives i).2 = true → NotDisabled dict node (receives i).1 (receives i).2)
    (h : mapperInit dv mem junk nrTx nrRx (uses dv mem before (Spec.fresh dict node d)) = (e, .ok true)) :
    (uses dv mem after e).c.w.bad = false := by
  have b0 : Base dict node (uses dv mem before (Spec.fresh dict node d)) :=
    run_base dv mem dict hn node before hb _ (reached_base (junk := junk) (nrTx := nrTx) (nrRx := nrRx) hn (.start (dv := dv) (mem := mem) d))
  have l0 : Live (uses dv mem before (Spec.fresh dict node d)) :=
    run_live dv mem before hb _ ⟨rfl, fun _ _ => rfl, fun k d h => by simp [Spec.fresh, Storage.fresh] at h⟩
  have g := mapperInit_good dv mem junk nrTx nrRx _ _ ⟨l0, b0.cons, rfl, rfl⟩ rfl rfl (by rw [b0.isDict, b0.isNode]; exact h1)
    (by rw [b0.isDict, b0.isNode]; exact h2) h
  exact (run_live dv mem after ha _ g.live).bad

example : (pdoDict 0x181#32).NodupKeys ∧ succeeded (pdoOnce 0x181#32 100).2 = true ∧ (pdoOnce 0x181#32 100).1.c.w.next = 2 ∧
    (uses countingDev exampleMem [.get (Key.ofIndex 0x6000#16) false, .set (Key.ofIndex 0x6040#16) [3#8, 4#8], .reset, .initAll] (pdoOnce 0x181#32 100).1).c.w.bad = false ∧
    NotDisabled (pdoDict 0x181#32) 1#8 (sends 0).1 (sends 0).2 := by
  refine ⟨by unfold Dict.NodupKeys; decide +kernel, by decide +kernel, by decide +kernel, by decide +kernel, .inr ?_⟩
  intro y w h1 h2
  have : (pdoDict 0x181#32).get (sub (sends 0).1 1) = some (exampleSub 0x1800#16 1 (.val (.int .u32 0x181#32)) .none) := by rfl
  rw [this] at h1
  cases h1
  cases h2
  decide

/-- C77 is false for a PDO that the dictionary describes as switched off: the set-up succeeds, and the next read of the object it maps uses
a buffer that was destroyed with the PDO. -/
theorem C77_disabled_pdo_false : ∃ (dict : Dict) (e : Env Nat), dict.NodupKeys ∧ KeysMatch dict ∧
    mapperInit countingDev exampleMem zeros 1 1 (Spec.fresh dict 1#8 100) = (e, .ok true) ∧ e.c.w.bad = false ∧
    (uses countingDev exampleMem [.get (Key.ofIndex 0x6000#16) false] e).c.w.bad = true := by
  refine ⟨pdoDict 0x80000181#32, (pdoOnce 0x80000181#32 100).1, by unfold Dict.NodupKeys; decide +kernel, ?_, ?_, by decide +kernel, by decide +kernel⟩
  · exact pdoDict_keys _
  · have h : succeeded (pdoOnce 0x80000181#32 100).2 = true := by decide +kernel
    show pdoOnce 0x80000181#32 100 = _
    revert h
    generalize pdoOnce 0x80000181#32 100 = r
    obtain ⟨e, o⟩ := r
    cases o with
    | ok b => cases b <;> intro h <;> first | rfl | cases h
    | throws x => intro h; cases h
    | ub => intro h; cases h

/-- C77 is false for a second set-up that fails half-way (here the device stops accepting writes): the storage keeps delegates to the destroyed
buffers of the first one, and the next write to a mapped object uses them. -/
theorem C77_failed_repetition_false : succeeded (pdoOnce 0x181#32 6).2 = true ∧ succeeded (pdoTwice 0x181#32 6).2 = false ∧
    (pdoTwice 0x181#32 6).1.c.w.bad = false ∧
    (uses countingDev exampleMem [.set (Key.ofIndex 0x6040#16) [3#8, 4#8]] (pdoTwice 0x181#32 6).1).c.w.bad = true := by
  refine ⟨by decide +kernel, by decide +kernel, by decide +kernel, by decide +kernel⟩

/-- C78.  Whatever happened before, and however the set-up of a PDO ends: between its first and its last access to the device, the mapping is
written only while the PDO is switched off on the device, and its entries only while their number is 0.  (The identifier and the number of
entries must be writable and not themselves mapped into a PDO.) -/
theorem C78_order (dv : Dev D) (mem : Mem) (junk : Vector Byte 8) (nrTx nrRx : Nat) (dict : Dict) (hn : dict.NodupKeys) (hk : KeysMatch dict) (node : BitVec 8)
    (e : Env D) (he : Reached dv mem junk nrTx nrRx dict node e) (com map : BitVec 16) (hne : com ≠ map) (c m : Entry)
    (hc : dict.get (sub com 1) = some c) (hcw : c.writable = true) (hcd : Direct (sub com 1) e)
    (hm : dict.get (sub map 0) = some m) (hmw : m.writable = true) (hmd : Direct (sub map 0) e) :
    (∃ new, (rpdoInit dv mem junk com map e).1.c.log = e.c.log ++ new ∧ Disciplined com map new) ∧
    (∃ new, (tpdoInit dv mem junk com map e).1.c.log = e.c.log ++ new ∧ Disciplined com map new) := by
  have b := reached_base hn he
  have hs : Sound dict e := ⟨b.cons, b.isDict, hk⟩
  obtain ⟨-, n1, l1, s1⟩ := keep_at_rpdoInit dv mem junk dict _ com map hne hs rfl hc hcw hcd hm hmw hmd
  obtain ⟨-, n2, l2, s2⟩ := keep_at_tpdoInit dv mem junk dict _ com map hne hs rfl hc hcw hcd hm hmw hmd
  exact ⟨⟨n1, l1, s1.disc⟩, ⟨n2, l2, s2.disc⟩⟩

/-- a device that accepts everything and records the writes -/
def recordingDev : Dev (List (List Nat)) where
  read := fun _ b l => (l, b, none)
  write := fun e b l => (l ++ [e.index.toNat :: e.subIndex.toNat :: b.map (·.toNat)], none)

/-- set-up of the PDO the device receives in the example, whose mapping is configured -/
def received : Env (List (List Nat)) × Outcome Err (Option Rec) :=
  tpdoInit recordingDev exampleMem zeros 0x1400#16 0x1600#16 (Spec.fresh (pdoDict 0x181#32) 1#8 [])

/-- the hypotheses are met, and a mapping is written between switching the PDO off and on -/
example : Reached recordingDev exampleMem zeros 1 1 (pdoDict 0x181#32) 1#8 (Spec.fresh (pdoDict 0x181#32) 1#8 []) ∧ KeysMatch (pdoDict 0x181#32) ∧
    ((pdoDict 0x181#32).get (sub 0x1400#16 1)).map (·.writable) = some true ∧ ((pdoDict 0x181#32).get (sub 0x1600#16 0)).map (·.writable) = some true ∧
    Direct (sub 0x1400#16 1) (Spec.fresh (pdoDict 0x181#32) 1#8 ([] : List (List Nat))) ∧
    received.1.c.w.dev = [[0x1400, 1, 0x01, 0x02, 0, 0x80], [0x1600, 0, 0], [0x1600, 1, 0x10, 0, 0x40, 0x60], [0x1600, 0, 1], [0x1400, 1, 0x01, 0x02, 0, 0],
      [0x1400, 2, 1]] := by
  refine ⟨.start _, pdoDict_keys _, by decide +kernel, by decide +kernel, fun d h => by simp [Spec.fresh, Storage.fresh] at h, by decide +kernel⟩

/-- C78.  When the set-up of a PDO with a configured mapping ends normally, the last identifier the device was given is the one of the
dictionary (so it is switched on again, if that one is), and the last number of entries is the one of the dictionary. -/
theorem C78_restored (dv : Dev D) (mem : Mem) (junk : Vector Byte 8) (nrTx nrRx : Nat) (dict : Dict) (hn : dict.NodupKeys) (hk : KeysMatch dict) (node : BitVec 8)
    (e : Env D) (he : Reached dv mem junk nrTx nrRx dict node e) (com map : BitVec 16) (hne : com ≠ map) (c m : Entry)
    (hc : dict.get (sub com 1) = some c) (hcw : c.writable = true) (hm : dict.get (sub map 0) = some m) (hmw : m.writable = true)
    (hch : ∃ s x p, 1 ≤ s ∧ s ≤ mappingCount dict map ∧ dict.get (sub map s) = some x ∧ x.initVal = .val p)
    (read write : Bool) (e' : Env D) (r : Byte × List Nat) (h : parseAndSet dv mem com map read write e = (e', .ok r))
    (hcd : Direct (sub com 1) e') (hmd : Direct (sub map 0) e') :
    (∃ w rest, cobOf dict node com = some w ∧ lastWrite com 1 e'.c.log = some (leBytes 4 w ++ rest)) ∧
    (∃ rest, lastWrite map 0 e'.c.log = some (BitVec.ofNat 8 (mappingCount dict map) :: rest)) := by
  have b := reached_base hn he
  obtain ⟨s, x, p, h1, h2, h3, h4⟩ := hch
  obtain ⟨⟨v, rest, hv, hl⟩, q⟩ := parse_restored dv mem dict com map read write hne e e' r ⟨b.cons, b.isDict, hk⟩ h hc hcw hm hmw hcd hmd
    ⟨s, h1, h2, by unfold hasInit; rw [h3]; dsimp only; rw [h4]; rfl⟩
  refine ⟨⟨v, rest, ?_, hl⟩, q⟩
  unfold cobOf
  rw [hc]
  dsimp only
  rw [← b.isNode, hv]

/-- the configured mapping of the example: see the last writes of 0x1400:1 and 0x1600:0 above -/
example : mappingCount (pdoDict 0x181#32) 0x1600#16 = 1 ∧ (∃ x p, (pdoDict 0x181#32).get (sub 0x1600#16 1) = some x ∧ x.initVal = .val p) ∧
    ((pdoDict 0x181#32).get (sub 0x1400#16 1)).map (·.writable) = some true ∧
    (match (parseAndSet recordingDev exampleMem 0x1400#16 0x1600#16 false true (Spec.fresh (pdoDict 0x181#32) 1#8 [])).2 with | .ok _ => true | _ => false) = true := by
  refine ⟨by decide +kernel, ⟨_, _, by rfl, by rfl⟩, by decide +kernel, by decide +kernel⟩

/-- C79.  A PDO the device sends: its buffers and the objects read from them are as the mapping says. -/
theorem C79_sent (dv : Dev D) (mem : Mem) (junk : Vector Byte 8) (nrTx nrRx : Nat) (dict : Dict) (hn : dict.NodupKeys) (hk : KeysMatch dict) (node : BitVec 8)
    (e : Env D) (he : Reached dv mem junk nrTx nrRx dict node e) (com map : BitVec 16) (hne : com ≠ map) (e' : Env D) (x : Rec)
    (h : rpdoInit dv mem junk com map e = (e', .ok (some x))) : ∃ words, Layout dict map true e e' words x.bufs := by
  have b := reached_base hn he
  exact rpdoInit_layout dv mem junk dict com map hne e e' x ⟨b.cons, b.isDict, hk⟩ h

/-- C79.  A PDO the device receives: its buffers and the objects written to them are as the mapping says, and the frame has the length of
their values (modulo 256). -/
theorem C79_received (dv : Dev D) (mem : Mem) (junk : Vector Byte 8) (nrTx nrRx : Nat) (dict : Dict) (hn : dict.NodupKeys) (hk : KeysMatch dict) (node : BitVec 8)
    (e : Env D) (he : Reached dv mem junk nrTx nrRx dict node e) (com map : BitVec 16) (hne : com ≠ map) (e' : Env D) (x : Rec)
    (h : tpdoInit dv mem junk com map e = (e', .ok (some x))) :
    ∃ words, Layout dict map false e e' words x.bufs ∧ x.frame.dlc = BitVec.ofNat 8 ((words.map wordBytes).sum) := by
  have b := reached_base hn he
  exact tpdoInit_layout dv mem junk dict com map hne e e' x ⟨b.cons, b.isDict, hk⟩ h

/-- what a set-up returned -/
def madePdo : Outcome Err (Option Rec) → Option (Byte × Byte × List Nat)
  | .ok (some x) => some (x.frame.dlc, x.type, x.bufs)
  | _ => none

example : madePdo received.2 = some (2#8, 5#8, [0]) ∧ mappedKey (pdoDict 0x181#32) 0x60400010#32 = some (Key.ofIndex 0x6040#16) ∧
    wordBytes 0x60400010#32 = 2 ∧
    madePdo (rpdoInit recordingDev exampleMem zeros 0x1800#16 0x1A00#16 (Spec.fresh (pdoDict 0x181#32) 1#8 [])).2 = some (0#8, 255#8, [0]) := by
  refine ⟨by decide +kernel, by decide +kernel, by decide +kernel, by decide +kernel⟩

/-- C80.  A set-up that succeeds creates exactly the first PDOs (up to the numbers of the device information) of the 512 of each direction that
the dictionary has, that map objects and that are switched on, in this order. -/
theorem C80_which (dv : Dev D) (mem : Mem) (junk : Vector Byte 8) (nrTx nrRx : Nat) (dict : Dict) (hn : dict.NodupKeys) (node : BitVec 8) (e e' : Env D)
    (he : Reached dv mem junk nrTx nrRx dict node e) (h : mapperInit dv mem junk nrTx nrRx e = (e', .ok true)) :
    e'.rpdos.map (·.com) = (((List.range 512).filter fun i => usable dict node (sends i).1 (sends i).2).take nrTx).map (fun i => (sends i).1) ∧
    e'.tpdos.map (·.com) = (((List.range 512).filter fun i => usable dict node (receives i).1 (receives i).2).take nrRx).map (fun i => (receives i).1) :=
  mapperInit_list dv mem junk nrTx nrRx dict node e e' (reached_base hn he) h

example : succeeded (pdoOnce 0x181#32 100).2 = true ∧ (pdoOnce 0x181#32 100).1.rpdos.map (·.com) = [0x1800#16] ∧
    usable (pdoDict 0x181#32) 1#8 0x1800#16 0x1A00#16 = true ∧ usable (pdoDict 0x80000181#32) 1#8 0x1800#16 0x1A00#16 = false := by
  refine ⟨by decide +kernel, by decide +kernel, by decide +kernel, by decide +kernel⟩

theorem frameOf_header (w : BitVec 32) (b : Bool) (junk : Vector Byte 8) : FrameOf w b (Frame.ofHeader junk ((PdoId.mk w).header b)) := by
  refine ⟨?_, ?_, ?_, rfl⟩
  · show ((w &&& 0x1FFFFFFF#32).setWidth 29).toNat = _
    simp only [BitVec.toNat_setWidth, BitVec.toNat_and, BitVec.toNat_ofNat]
    rw [show (0x1FFFFFFF : Nat) % 2 ^ 32 = 2 ^ 29 - 1 by decide, Nat.and_two_pow_sub_one_eq_mod]
    omega
  · show (w &&& 0x20000000#32 != 0#32) = _
    exact bit_word w 29 (by omega)
  · show (b && !(w &&& 0x40000000#32 != 0#32)) = _
    rw [bit_word w 30 (by omega)]

/-- see `C80_frame` -/
theorem frame_base (dv : Dev D) (mem : Mem) (junk : Vector Byte 8) (dict : Dict) (node : BitVec 8) (e e' : Env D)
    (b : Base dict node e) (com map : BitVec 16) (hp : present dict com map = true) (o : Option Rec) :
    (rpdoInit dv mem junk com map e = (e', .ok o) → o.isSome = usable dict node com map ∧ ∀ x, o = some x → x.com = com ∧ ∃ w, cobOf dict node com = some w ∧
      FrameOf w true x.frame ∧ x.frame.dlc = 0 ∧ ∃ y, dict.get (sub com 2) = some y ∧ y.value.getInt .u8 = .ok x.type) ∧
    (tpdoInit dv mem junk com map e = (e', .ok o) → o.isSome = usable dict node com map ∧ ∀ x, o = some x → x.com = com ∧ ∃ w, cobOf dict node com = some w ∧
      FrameOf w false x.frame ∧ ∃ y, dict.get (sub com 2) = some y ∧ y.value.getInt .u8 = .ok x.type) := by
  constructor
  · intro h
    have := rpdoInit_result dv mem junk com map e e' o b.cons (by rw [b.isDict]; exact hp) h
    rw [b.isDict, b.isNode] at this
    refine ⟨this.1, fun x hx => ?_⟩
    obtain ⟨h1, w, h2, h3, h4⟩ := this.2 x hx
    exact ⟨h1, w, h2, by rw [h3]; exact frameOf_header w true junk, by rw [h3]; rfl, h4⟩
  · intro h
    have := tpdoInit_result dv mem junk com map e e' o b.cons (by rw [b.isDict]; exact hp) h
    rw [b.isDict, b.isNode] at this
    refine ⟨this.1, fun x hx => ?_⟩
    obtain ⟨h1, w, h2, n, h3, h4⟩ := this.2 x hx
    exact ⟨h1, w, h2, by rw [h3]; exact frameOf_header w false junk, h4⟩

/-- C80.  Identifier and kind of the frame of a PDO come from its identifier in the dictionary (with the node id where asked for), its
transmission type from the dictionary.  The frame of a PDO the device sends is created without payload. -/
theorem C80_frame (dv : Dev D) (mem : Mem) (junk : Vector Byte 8) (nrTx nrRx : Nat) (dict : Dict) (hn : dict.NodupKeys) (node : BitVec 8) (e e' : Env D)
    (he : Reached dv mem junk nrTx nrRx dict node e) (com map : BitVec 16) (hp : present dict com map = true) (o : Option Rec) :
    (rpdoInit dv mem junk com map e = (e', .ok o) → o.isSome = usable dict node com map ∧ ∀ x, o = some x → x.com = com ∧ ∃ w, cobOf dict node com = some w ∧
      FrameOf w true x.frame ∧ x.frame.dlc = 0 ∧ ∃ y, dict.get (sub com 2) = some y ∧ y.value.getInt .u8 = .ok x.type) ∧
    (tpdoInit dv mem junk com map e = (e', .ok o) → o.isSome = usable dict node com map ∧ ∀ x, o = some x → x.com = com ∧ ∃ w, cobOf dict node com = some w ∧
      FrameOf w false x.frame ∧ ∃ y, dict.get (sub com 2) = some y ∧ y.value.getInt .u8 = .ok x.type) :=
  frame_base dv mem junk dict node e e' (reached_base hn he) com map hp o

example : present (pdoDict 0x181#32) 0x1400#16 0x1600#16 = true ∧ (match received.2 with | .ok (some x) => x.frame.id == 0x201#29 && !x.frame.isRtr | _ => false) = true ∧
    cobOf (pdoDict 0x181#32) 1#8 0x1400#16 = some 0x201#32 := by
  refine ⟨by decide +kernel, by decide +kernel, by decide +kernel⟩

/-- C80.  If the dictionary has a synchronous transmission type other than 1 for a PDO the device receives, the set-up leaves type 1 on the device. -/
theorem C80_every_sync (dv : Dev D) (mem : Mem) (junk : Vector Byte 8) (nrTx nrRx : Nat) (dict : Dict) (hn : dict.NodupKeys) (hk : KeysMatch dict) (node : BitVec 8)
    (e e' : Env D) (he : Reached dv mem junk nrTx nrRx dict node e) (com map : BitVec 16) (x : Rec) (h : tpdoInit dv mem junk com map e = (e', .ok (some x)))
    (y : Entry) (t : BitVec 8) (hy : dict.get (sub com 2) = some y) (hw : y.writable = true) (ht : y.value.getInt .u8 = .ok t) (hd : Direct (sub com 2) e')
    (hp : present dict com map = true) (h1 : t ≠ 1) (h2 : t.toNat ≤ 240) : ∃ rest, lastWrite com 2 e'.c.log = some (1#8 :: rest) := by
  have b := reached_base hn he
  have := tpdoInit_result dv mem junk com map e e' _ b.cons (by rw [b.isDict]; exact hp) h
  rw [b.isDict] at this
  obtain ⟨-, w, -, n, -, z, hz, htz⟩ := this.2 x rfl
  rw [hy] at hz
  cases hz
  rw [ht] at htz
  have : t = x.type := by injection htz
  subst this
  exact tpdo_type dv mem junk dict com map e e' x ⟨b.cons, b.isDict, hk⟩ h hy hw hd h1 h2

/-- type 5 in the dictionary of the example, see the last write above -/
example : madePdo received.2 = some (2#8, 5#8, [0]) ∧ received.1.c.w.dev.getLast? = some [0x1400, 2, 1] ∧
    ((pdoDict 0x181#32).get (sub 0x1400#16 2)).map (·.writable) = some true := by
  refine ⟨by decide +kernel, by decide +kernel, by decide +kernel⟩

end Verif.Props
