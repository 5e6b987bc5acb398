import Verif.Spec.BcmSocket
import Verif.Lemmas.TextFrame

/-! # Lemmas about the messages to the broadcast manager -/

namespace Verif.BcmS
open Verif Verif.Txt Verif.Spec.BcmS

theorem leBytes_length (k v : Nat) : (leBytes k v).length = k := by
  induction k generalizing v with
  | zero => rfl
  | succ k ih => simp [leBytes, ih]

theorem leVal_leBytes (k v : Nat) : leVal (leBytes k v) = v % 256 ^ k := by
  induction k generalizing v with
  | zero => simp [leBytes, leVal, Nat.mod_one]
  | succ k ih =>
    simp only [leBytes, leVal, ih, BitVec.toNat_ofNat]
    rw [Nat.pow_succ (n := 256), Nat.mul_comm (256 ^ k) 256, Nat.mod_mul]

theorem put_at {mem a old b bs : List Byte} {off : Nat} (hm : mem = a ++ (old ++ b)) (ha : a.length = off) (ho : old.length = bs.length) :
    put mem off bs = .ok (a ++ (bs ++ b)) := by
  subst hm ha
  unfold put
  rw [if_pos (by simp; omega)]
  congr 1
  rw [List.take_left, show a.length + bs.length = (a ++ old).length from by simp [ho], ← List.append_assoc a old b, List.drop_left]
  simp

theorem field_at {mem a x b : List Byte} {off w : Nat} (hm : mem = a ++ (x ++ b)) (ha : a.length = off) (hw : x.length = w) :
    field mem off w = leVal x := by
  subst hm ha hw
  unfold field
  rw [List.drop_left, List.take_left]

/-- the message as a whole -/
structure Parts where
  op : List Byte
  flags : List Byte
  zero : List Byte
  sec : List Byte
  usec : List Byte
  can : List Byte
  num : List Byte

def Parts.Ok (p : Parts) : Prop :=
  p.op.length = 4 ∧ p.flags.length = 4 ∧ p.zero.length = 24 ∧ p.sec.length = 8 ∧ p.usec.length = 8 ∧ p.can.length = 4 ∧ p.num.length = 4

def Parts.mem (p : Parts) (F : List Byte) : List Byte :=
  p.op ++ (p.flags ++ (p.zero ++ (p.sec ++ (p.usec ++ (p.can ++ (p.num ++ F))))))

theorem Parts.length (p : Parts) (h : p.Ok) (F : List Byte) : (p.mem F).length = 56 + F.length := by
  obtain ⟨h1, h2, h3, h4, h5, h6, h7⟩ := h
  simp only [Parts.mem, List.length_append, *]; omega

theorem Parts.put_op (p : Parts) (h : p.Ok) (F bs : List Byte) (hb : bs.length = 4) :
    put (p.mem F) 0 bs = .ok ({ p with op := bs }.mem F) :=
  put_at (a := []) (old := p.op) (by simp [Parts.mem]) rfl (by rw [hb, h.1])

theorem Parts.put_flags (p : Parts) (h : p.Ok) (F bs : List Byte) (hb : bs.length = 4) :
    put (p.mem F) 4 bs = .ok ({ p with flags := bs }.mem F) :=
  put_at (a := p.op) (old := p.flags) rfl h.1 (by rw [hb, h.2.1])

theorem Parts.put_sec (p : Parts) (h : p.Ok) (F bs : List Byte) (hb : bs.length = 8) :
    put (p.mem F) 32 bs = .ok ({ p with sec := bs }.mem F) := by
  obtain ⟨h1, h2, h3, h4, h5, h6, h7⟩ := h
  rw [put_at (a := p.op ++ (p.flags ++ p.zero)) (old := p.sec) (b := p.usec ++ (p.can ++ (p.num ++ F))) (by simp [Parts.mem]) (by simp [*]) (by rw [hb, h4])]
  simp [Parts.mem]

theorem Parts.put_usec (p : Parts) (h : p.Ok) (F bs : List Byte) (hb : bs.length = 8) :
    put (p.mem F) 40 bs = .ok ({ p with usec := bs }.mem F) := by
  obtain ⟨h1, h2, h3, h4, h5, h6, h7⟩ := h
  rw [put_at (a := p.op ++ (p.flags ++ (p.zero ++ p.sec))) (old := p.usec) (b := p.can ++ (p.num ++ F)) (by simp [Parts.mem]) (by simp [*]) (by rw [hb, h5])]
  simp [Parts.mem]

theorem Parts.put_can (p : Parts) (h : p.Ok) (F bs : List Byte) (hb : bs.length = 4) :
    put (p.mem F) 48 bs = .ok ({ p with can := bs }.mem F) := by
  obtain ⟨h1, h2, h3, h4, h5, h6, h7⟩ := h
  rw [put_at (a := p.op ++ (p.flags ++ (p.zero ++ (p.sec ++ p.usec)))) (old := p.can) (b := p.num ++ F) (by simp [Parts.mem]) (by simp [*]) (by rw [hb, h6])]
  simp [Parts.mem]

theorem Parts.put_num (p : Parts) (h : p.Ok) (F bs : List Byte) (hb : bs.length = 4) :
    put (p.mem F) 52 bs = .ok ({ p with num := bs }.mem F) := by
  obtain ⟨h1, h2, h3, h4, h5, h6, h7⟩ := h
  rw [put_at (a := p.op ++ (p.flags ++ (p.zero ++ (p.sec ++ (p.usec ++ p.can))))) (old := p.num) (b := F) (by simp [Parts.mem]) (by simp [*]) (by rw [hb, h7])]
  simp [Parts.mem]

theorem Parts.put_frames (p : Parts) (h : p.Ok) (a old b bs : List Byte) (ho : old.length = bs.length) (off : Nat) (ha : off = 56 + a.length) :
    put (p.mem (a ++ (old ++ b))) off bs = .ok (p.mem (a ++ (bs ++ b))) := by
  have hl := p.length h a
  rw [put_at (a := p.mem a) (old := old) (b := b) (by simp [Parts.mem]) (by omega) ho]
  simp [Parts.mem]

theorem Parts.get_can (p : Parts) (h : p.Ok) (F : List Byte) : ((p.mem F).drop 48).take 4 = p.can := by
  obtain ⟨h1, h2, h3, h4, h5, h6, h7⟩ := h
  have : p.mem F = (p.op ++ (p.flags ++ (p.zero ++ (p.sec ++ p.usec)))) ++ (p.can ++ (p.num ++ F)) := by simp [Parts.mem]
  rw [this, show (48 : Nat) = (p.op ++ (p.flags ++ (p.zero ++ (p.sec ++ p.usec)))).length from by simp [*], List.drop_left, ← h6, List.take_left]

/-- the 16 bytes of a frame -/
def frameBytes (can : List Byte) (f : Frame) : List Byte :=
  can ++ ([f.dlc] ++ (List.replicate 3 0 ++ (payload f ++ List.replicate (8 - f.dlc.toNat) 0)))

theorem payload_length (f : Frame) (h : f.dlc.toNat ≤ 8) : (payload f).length = f.dlc.toNat := by
  simp [payload]; omega

theorem frameBytes_length (can : List Byte) (f : Frame) (hc : can.length = 4) (h : f.dlc.toNat ≤ 8) : (frameBytes can f).length = 16 := by
  simp only [frameBytes, List.length_append, payload_length f h, hc, List.length_replicate, List.length_singleton]; omega

theorem putFrame_eq (p : Parts) (h : p.Ok) (i : Nat) (done rest : List Byte) (hd : done.length = 16 * i) (f : Frame) (hf : f.dlc.toNat ≤ 8) :
    putFrame (p.mem (done ++ (List.replicate 16 0 ++ rest))) i f = .ok (p.mem (done ++ (frameBytes p.can f ++ rest))) := by
  have hc : p.can.length = 4 := h.2.2.2.2.2.1
  have hp := payload_length f hf
  unfold putFrame headSize frameSize
  have e1 : put (p.mem (done ++ (List.replicate 16 0 ++ rest))) (56 + 16 * i + 4) [f.dlc] =
      .ok (p.mem (done ++ (List.replicate 4 0 ++ ([f.dlc] ++ (List.replicate 11 0 ++ rest))))) := by
    have := p.put_frames h (done ++ List.replicate 4 0) (List.replicate 1 0) (List.replicate 11 0 ++ rest) [f.dlc] rfl (56 + 16 * i + 4)
      (by simp; omega)
    simp only [List.append_assoc] at this
    rw [← this]
    congr 2
  rw [e1]
  simp only [andThen]
  rw [p.get_can h]
  have e2 : put (p.mem (done ++ (List.replicate 4 0 ++ ([f.dlc] ++ (List.replicate 11 0 ++ rest))))) (56 + 16 * i) p.can =
      .ok (p.mem (done ++ (p.can ++ ([f.dlc] ++ (List.replicate 11 0 ++ rest))))) :=
    p.put_frames h done (List.replicate 4 0) _ p.can (by simp [hc]) _ (by omega)
  rw [e2]
  dsimp only
  rw [if_pos hf]
  have := p.put_frames h (done ++ (p.can ++ ([f.dlc] ++ List.replicate 3 0))) (List.replicate f.dlc.toNat 0) (List.replicate (8 - f.dlc.toNat) 0 ++ rest)
    (payload f) (by simp [hp]) (56 + 16 * i + 8) (by simp [hc]; omega)
  simp only [List.append_assoc] at this
  have hr : (List.replicate 11 (0 : Byte)) = List.replicate 3 0 ++ (List.replicate f.dlc.toNat 0 ++ List.replicate (8 - f.dlc.toNat) 0) := by
    rw [List.replicate_append_replicate, List.replicate_append_replicate]; congr 1; omega
  rw [hr]
  simp only [List.append_assoc]
  rw [show f.data.toList.take f.dlc.toNat = payload f from rfl, this]
  simp [frameBytes]

theorem putFrames_eq (p : Parts) (h : p.Ok) (pre : List Frame) (fs : List Frame) (hf : ∀ f ∈ fs, f.dlc.toNat ≤ 8) (done : List Byte)
    (hd : done.length = 16 * pre.length) (post : List Frame) :
    putFrames (pre ++ (fs ++ post)) fs.length pre.length (p.mem (done ++ List.replicate (16 * fs.length) 0)) =
      .ok (p.mem (done ++ fs.flatMap (frameBytes p.can))) := by
  induction fs generalizing pre done with
  | nil => simp [putFrames]
  | cons f fs ih =>
    rw [List.length_cons, putFrames]
    have hg : (pre ++ (f :: fs ++ post))[pre.length]? = some f := by simp
    rw [hg]
    dsimp only
    have hr : List.replicate (16 * (fs.length + 1)) (0 : Byte) = List.replicate 16 0 ++ List.replicate (16 * fs.length) 0 := by
      rw [List.replicate_append_replicate]; congr 1; omega
    rw [hr, putFrame_eq p h _ _ _ hd f (hf f (by simp))]
    simp only [andThen]
    have hl := frameBytes_length p.can f h.2.2.2.2.2.1 (hf f (by simp))
    have := ih (pre ++ [f]) (fun g hg => hf g (by simp [hg])) (done ++ frameBytes p.can f) (by simp [hd, hl]; omega)
    simp only [List.append_assoc, List.length_append, List.length_singleton] at this
    simpa using this

/-- the identifier of a job -/
def key (h : Header) : Nat := (h.id.setWidth 32 ||| (if h.isExtended then 0x80000000#32 else 0)).toNat

theorem key_eq (h : Header) : key h = jobNumber h := by
  have hid := h.id.isLt
  unfold key jobNumber
  cases h.isExtended with
  | false => simp; omega
  | true =>
    simp only [if_true, BitVec.toNat_or, BitVec.toNat_setWidth]
    rw [Nat.mod_eq_of_lt (by omega), show (0x80000000#32).toNat = 2 ^ 31 * 1 from by decide, Nat.or_comm, ← Nat.two_pow_add_eq_or_of_lt (by omega)]
    omega

theorem jobNumber_bits (h : Header) : (jobNumber h).testBit 31 = h.isExtended ∧ (jobNumber h).testBit 30 = false ∧ jobNumber h % 2 ^ 29 = h.id.toNat ∧
    jobNumber h < 2 ^ 32 := by
  have hid := h.id.isLt
  unfold jobNumber
  cases h.isExtended with
  | false =>
    simp only [Bool.false_eq_true, if_false, Nat.add_zero]
    exact ⟨Nat.testBit_lt_two_pow (by omega), Nat.testBit_lt_two_pow (by omega), by omega, by omega⟩
  | true =>
    simp only [if_true]
    refine ⟨?_, ?_, by omega, by omega⟩
    · rw [Nat.testBit_eq_decide_div_mod_eq]; simp; omega
    · rw [Nat.testBit_eq_decide_div_mod_eq]; simp; omega

def zeros (n : Nat) : Parts :=
  { op := List.replicate 4 0, flags := List.replicate 4 0, zero := List.replicate 24 0, sec := List.replicate 8 0, usec := List.replicate 8 0,
    can := List.replicate 4 0, num := leBytes 4 n }

theorem zeros_ok (n : Nat) : (zeros n).Ok := by simp [zeros, Parts.Ok, leBytes_length]

theorem newMsg_eq (nd : Bool) (n : Nat) (h : n ≤ 256 ∨ nd = true) : newMsg nd n = .ok ((zeros n).mem (List.replicate (16 * n) 0)) := by
  unfold newMsg
  rw [if_neg (by rintro ⟨h1, h2⟩; rcases h with h | h; exact absurd h2 (by omega); simp [h] at h1)]
  have := ({ zeros n with num := List.replicate 4 0 } : Parts).put_num (by simp [zeros, Parts.Ok]) (List.replicate (16 * n) 0) (leBytes 4 n) (leBytes_length _ _)
  rw [show ({ zeros n with num := leBytes 4 n } : Parts) = zeros n from rfl] at this
  rw [← this]
  congr 1
  simp only [zeros, Parts.mem, headSize, frameSize, List.replicate_append_replicate]
  congr 1; omega

/-- the head of a transmission -/
def setupParts (usec : Int) (h : Header) (n : Nat) : Parts :=
  { op := leBytes 4 1, flags := leBytes 4 3, zero := List.replicate 24 0, sec := leLong (usec.tdiv 1000000), usec := leLong (usec.tmod 1000000),
    can := leBytes 4 (key h), num := leBytes 4 n }

theorem leLong_length (v : Int) : (leLong v).length = 8 := leBytes_length _ _

theorem setupParts_ok (usec : Int) (h : Header) (n : Nat) : (setupParts usec h n).Ok := by
  simp [setupParts, Parts.Ok, leBytes_length, leLong_length]

theorem txMsg_eq (nd : Bool) (usec : Int) (h : Header) (fs post : List Frame) (hn : fs.length ≤ 256 ∨ nd = true) (hf : ∀ f ∈ fs, f.dlc.toNat ≤ 8) :
    txMsg nd usec h fs.length (fs ++ post) = .ok ((setupParts usec h fs.length).mem (fs.flatMap (frameBytes (leBytes 4 (key h))))) := by
  unfold txMsg
  rw [newMsg_eq nd _ hn]
  simp only [andThen]
  unfold setHeader
  rw [Parts.put_can _ (zeros_ok _) _ _ (leBytes_length _ _)]
  dsimp only
  unfold setIVal2
  rw [Parts.put_sec _ (by simp [zeros, Parts.Ok, leBytes_length]) _ _ (leLong_length _)]
  simp only [andThen]
  rw [Parts.put_usec _ (by simp [zeros, Parts.Ok, leBytes_length, leLong_length]) _ _ (leLong_length _)]
  dsimp only
  rw [Parts.put_op _ (by simp [zeros, Parts.Ok, leBytes_length, leLong_length]) _ _ (leBytes_length _ _)]
  dsimp only
  rw [Parts.put_flags _ (by simp [zeros, Parts.Ok, leBytes_length, leLong_length]) _ _ (leBytes_length _ _)]
  dsimp only
  exact putFrames_eq (setupParts usec h fs.length) (setupParts_ok _ _ _) [] fs hf [] rfl post

theorem delMsg_eq (nd : Bool) (h : Header) : delMsg nd h = .ok (({ zeros 0 with op := leBytes 4 2, can := leBytes 4 (key h) } : Parts).mem []) := by
  unfold delMsg
  rw [newMsg_eq nd 0 (by omega)]
  simp only [andThen]
  rw [Parts.put_op _ (zeros_ok _) _ _ (leBytes_length _ _)]
  dsimp only
  unfold setHeader
  rw [Parts.put_can _ (by simp [zeros, Parts.Ok, leBytes_length]) _ _ (leBytes_length _ _)]
  rfl

theorem Parts.fields (p : Parts) (h : p.Ok) (F : List Byte) :
    field (p.mem F) 0 4 = leVal p.op ∧ field (p.mem F) 4 4 = leVal p.flags ∧ field (p.mem F) 8 4 = leVal (p.zero.take 4) ∧
    field (p.mem F) 32 8 = leVal p.sec ∧ field (p.mem F) 40 8 = leVal p.usec ∧ field (p.mem F) 48 4 = leVal p.can ∧ field (p.mem F) 52 4 = leVal p.num := by
  obtain ⟨h1, h2, h3, h4, h5, h6, h7⟩ := h
  refine ⟨field_at (a := []) (x := p.op) (b := p.flags ++ (p.zero ++ (p.sec ++ (p.usec ++ (p.can ++ (p.num ++ F)))))) rfl rfl h1, field_at (a := p.op) (x := p.flags) rfl h1 h2, ?_, ?_, ?_, ?_, ?_⟩
  · refine field_at (a := p.op ++ p.flags) (x := p.zero.take 4) (b := p.zero.drop 4 ++ (p.sec ++ (p.usec ++ (p.can ++ (p.num ++ F))))) ?_ (by simp [*]) (by simp [*])
    rw [← List.append_assoc (p.zero.take 4), List.take_append_drop]; simp [Parts.mem]
  · exact field_at (a := p.op ++ (p.flags ++ p.zero)) (x := p.sec) (b := p.usec ++ (p.can ++ (p.num ++ F))) (by simp [Parts.mem]) (by simp [*]) h4
  · exact field_at (a := p.op ++ (p.flags ++ (p.zero ++ p.sec))) (x := p.usec) (b := p.can ++ (p.num ++ F)) (by simp [Parts.mem]) (by simp [*]) h5
  · exact field_at (a := p.op ++ (p.flags ++ (p.zero ++ (p.sec ++ p.usec)))) (x := p.can) (b := p.num ++ F) (by simp [Parts.mem]) (by simp [*]) h6
  · exact field_at (a := p.op ++ (p.flags ++ (p.zero ++ (p.sec ++ (p.usec ++ p.can))))) (x := p.num) (b := F) (by simp [Parts.mem]) (by simp [*]) h7

theorem leVal_leLong (v : Int) (h : -2 ^ 63 ≤ v ∧ v < 2 ^ 63) : (BitVec.ofNat 64 (leVal (leLong v))).toInt = v := by
  unfold leLong
  rw [leVal_leBytes, Nat.mod_eq_of_lt (by have := (BitVec.ofInt 64 v).isLt; omega), BitVec.ofNat_toNat, BitVec.setWidth_eq, BitVec.toInt_ofInt]
  rw [Int.bmod_def]; omega

theorem wire_frame (p : Parts) (h : p.Ok) (pre fs : List Frame) (f : Frame) (hf : ∀ g ∈ pre ++ f :: fs, g.dlc.toNat ≤ 8) (can : List Byte) (hc : can.length = 4) :
    wire (p.mem ((pre ++ f :: fs).flatMap (frameBytes can))) (56 + 16 * pre.length) =
      { id := if (leVal can).testBit 31 then leVal can % 2 ^ 29 else leVal can % 2 ^ 11, extended := (leVal can).testBit 31,
        remote := (leVal can).testBit 30, data := payload f } := by
  have hpre : (pre.flatMap (frameBytes can)).length = 16 * pre.length := by
    have : ∀ g ∈ pre, g.dlc.toNat ≤ 8 := fun g hg => hf g (by simp [hg])
    clear hf
    induction pre with
    | nil => rfl
    | cons a l ih =>
      simp only [List.flatMap_cons, List.length_append, List.length_cons, frameBytes_length can a hc (this a (by simp)),
        ih (fun g hg => this g (by simp [hg]))]
      omega
  have hp := payload_length f (hf f (by simp))
  have hb := p.length h (pre.flatMap (frameBytes can))
  have hm : ∀ X, p.mem ((pre ++ f :: fs).flatMap (frameBytes can) ++ X) =
      p.mem (pre.flatMap (frameBytes can)) ++ (can ++ ([f.dlc] ++ (List.replicate 3 0 ++ (payload f ++ (List.replicate (8 - f.dlc.toNat) 0 ++ (fs.flatMap (frameBytes can) ++ X)))))) := by
    intro X; simp [Parts.mem, frameBytes]
  have hm := hm []
  rw [List.append_nil, List.append_nil] at hm
  generalize hM : p.mem ((pre ++ f :: fs).flatMap (frameBytes can)) = M at hm
  generalize hA : p.mem (pre.flatMap (frameBytes can)) = A at hm hb
  have f1 : field M (56 + 16 * pre.length) 4 = leVal can := field_at (a := A) hm (by omega) hc
  have f2 : field M (56 + 16 * pre.length + 4) 1 = f.dlc.toNat := by
    rw [field_at (w := 1) (a := A ++ can) (x := [f.dlc]) (b := List.replicate 3 0 ++ (payload f ++ (List.replicate (8 - f.dlc.toNat) 0 ++ fs.flatMap (frameBytes can))))
      (by rw [hm]; simp) (by simp [hc]; omega) rfl]
    simp [leVal]
  have f3 : (M.drop (56 + 16 * pre.length + 8)).take f.dlc.toNat = payload f := by
    have : M = (A ++ (can ++ ([f.dlc] ++ List.replicate 3 0))) ++ (payload f ++ (List.replicate (8 - f.dlc.toNat) 0 ++ fs.flatMap (frameBytes can))) := by
      rw [hm]; simp
    rw [this, show 56 + 16 * pre.length + 8 = (A ++ (can ++ ([f.dlc] ++ List.replicate 3 0))).length from by simp [hc]; omega, List.drop_left,
      ← hp, List.take_left]
  unfold wire
  rw [f1, f2, f3]

theorem flat_length (can : List Byte) (hc : can.length = 4) (fs : List Frame) (hf : ∀ g ∈ fs, g.dlc.toNat ≤ 8) :
    (fs.flatMap (frameBytes can)).length = 16 * fs.length := by
  induction fs with
  | nil => rfl
  | cons a l ih =>
    simp only [List.flatMap_cons, List.length_append, List.length_cons, frameBytes_length can a hc (hf a (by simp)),
      ih (fun g hg => hf g (by simp [hg]))]
    omega

/-- what the kernel reads from the message of a transmission -/
theorem decode_setup (usec : Int) (h : Header) (fs : List Frame) (hn : 1 ≤ fs.length ∧ fs.length ≤ 256) (hf : ∀ f ∈ fs, f.dlc.toNat ≤ 8)
    (hv : h.isValid = true) (hu : 0 ≤ usec ∧ usec < 2 ^ 63) :
    decode ((setupParts usec h fs.length).mem (fs.flatMap (frameBytes (leBytes 4 (key h))))) =
      some (.setup (jobNumber h) { period := usec, frames := fs.map fun f => { Wire.of h (payload f) with remote := false } }) := by
  obtain ⟨b1, b2, b3, b4⟩ := jobNumber_bits h
  have hok := setupParts_ok usec h fs.length
  obtain ⟨g1, g2, g3, g4, g5, g6, g7⟩ := (setupParts usec h fs.length).fields hok (fs.flatMap (frameBytes (leBytes 4 (key h))))
  have hlen := (setupParts usec h fs.length).length hok (fs.flatMap (frameBytes (leBytes 4 (key h))))
  rw [flat_length _ (leBytes_length _ _) fs hf] at hlen
  have hw : ∀ i, i < fs.length → wire ((setupParts usec h fs.length).mem (fs.flatMap (frameBytes (leBytes 4 (key h))))) (56 + 16 * i) =
      (fs[i]?.map fun f => ({ Wire.of h (payload f) with remote := false } : Wire)).getD ⟨0, false, false, []⟩ := by
    intro i hi
    have hsplit : fs = fs.take i ++ fs[i] :: fs.drop (i + 1) := by simp
    have := wire_frame (setupParts usec h fs.length) hok (fs.take i) (fs.drop (i + 1)) fs[i] (by rw [← hsplit]; exact hf) (leBytes 4 (key h)) (leBytes_length _ _)
    rw [← hsplit, List.length_take, Nat.min_eq_left (by omega)] at this
    rw [this, List.getElem?_eq_getElem hi]
    simp only [Option.map_some, Option.getD_some, Wire.of]
    rw [leVal_leBytes, Nat.mod_eq_of_lt (by rw [key_eq]; omega), key_eq, b1, b2, b3]
    have hid : (if h.isExtended = true then h.id.toNat else jobNumber h % 2 ^ 11) = h.id.toNat := by
      cases hx : h.isExtended with
      | true => simp
      | false =>
        have : h.id.toNat < 2 ^ 11 := by simpa [Header.isValid, hx] using hv
        simp only [jobNumber, hx, Bool.false_eq_true, if_false]; omega
    rw [hid]
  generalize hM : (setupParts usec h fs.length).mem (fs.flatMap (frameBytes (leBytes 4 (key h)))) = M at g1 g2 g3 g4 g5 g6 g7 hlen hw
  simp only [setupParts, leVal_leBytes] at g1 g2 g6 g7
  have hdiv : usec.tdiv 1000000 = usec / 1000000 := Int.tdiv_eq_ediv_of_nonneg hu.1
  have hmod : usec.tmod 1000000 = usec % 1000000 := Int.tmod_eq_emod_of_nonneg hu.1
  have l1 : long M 32 = usec / 1000000 := by
    unfold long; rw [g4]; simp only [setupParts]; rw [leVal_leLong _ (by rw [hdiv]; omega), hdiv]
  have l2 : long M 40 = usec % 1000000 := by
    unfold long; rw [g5]; simp only [setupParts]; rw [leVal_leLong _ (by rw [hmod]; omega), hmod]
  have n1 : field M 52 4 = fs.length := by rw [g7]; omega
  have k1 : field M 48 4 = jobNumber h := by rw [g6, key_eq]; omega
  have z1 : field M 8 4 = 0 := by rw [g3]; simp [setupParts, leVal]
  unfold decode
  simp only [n1, k1, l1, l2, z1]
  rw [if_neg (by omega), if_pos (by refine ⟨by rw [g1], by rw [g2], trivial, hn.1, hn.2, ?_, ?_, ?_⟩ <;> omega)]
  congr 3
  · omega
  · apply List.ext_getElem (by simp)
    intro i h1 h2
    simp only [List.getElem_map, List.getElem_range]
    have hi : i < fs.length := by simpa using h1
    rw [hw i hi, List.getElem?_eq_getElem hi]
    rfl

/-- what the kernel reads from the message that ends a transmission -/
theorem decode_delete (h : Header) : decode (({ zeros 0 with op := leBytes 4 2, can := leBytes 4 (key h) } : Parts).mem []) = some (.delete (jobNumber h)) := by
  have b4 := (jobNumber_bits h).2.2.2
  have hok : ({ zeros 0 with op := leBytes 4 2, can := leBytes 4 (key h) } : Parts).Ok := by simp [zeros, Parts.Ok, leBytes_length]
  obtain ⟨g1, g2, g3, g4, g5, g6, g7⟩ := Parts.fields _ hok []
  have hlen := Parts.length _ hok []
  generalize ({ zeros 0 with op := leBytes 4 2, can := leBytes 4 (key h) } : Parts).mem [] = M at *
  simp only [zeros, leVal_leBytes] at g1 g6 g7
  unfold decode
  have k1 : field M 48 4 = jobNumber h := by rw [g6, key_eq]; omega
  simp only [k1]
  rw [if_neg (by rw [hlen, g7]; simp), if_neg (by rw [g1]; omega), if_pos (by rw [g1])]

theorem after_append (k : Kernel) (a b : List Call) : k.after (a ++ b) = (k.after a).after b := List.foldl_append

theorem run_append (s : Sock) (nd : Bool) (a b : List Op) : s.run nd (a ++ b) =
    andThen (s.run nd a) fun r => andThen (r.1.run nd b) fun q => .ok (q.1, r.2.1 ++ q.2.1, r.2.2 ++ q.2.2) := by
  induction a generalizing s with
  | nil =>
    simp only [List.nil_append, Sock.run, andThen]
    cases s.run nd b <;> rfl
  | cons op a ih =>
    simp only [List.cons_append, Sock.run]
    cases s.step nd op with
    | ok r =>
      simp only [andThen, ih]
      cases r.1.run nd a with
      | ok q =>
        dsimp only
        cases q.1.run nd b with
        | ok t => simp
        | throws e => rfl
        | ub => rfl
      | throws e => rfl
      | ub => rfl
    | throws e => rfl
    | ub => rfl

theorem andThen_ok {α β : Type} {a : Outcome Err α} {f : α → Outcome Err β} {y : β} (h : andThen a f = .ok y) : ∃ x, a = .ok x ∧ f x = .ok y := by
  cases a with
  | ok x => exact ⟨x, rfl, h⟩
  | throws e => exact absurd h (by simp [andThen])
  | ub => exact absurd h (by simp [andThen])

/-- an invariant of object and kernel holds after every history -/
theorem run_inv {nd : Bool} (P : Sock → Kernel → Prop)
    (hstep : ∀ s k op s' b cs, P s k → s.step nd op = .ok (s', b, cs) → P s' (k.after cs)) :
    ∀ (ops : List Op) (s : Sock) (k : Kernel) s' rs cs, P s k → s.run nd ops = .ok (s', rs, cs) → P s' (k.after cs) := by
  intro ops
  induction ops with
  | nil =>
    intro s k s' rs cs h hr
    simp only [Sock.run] at hr
    cases hr
    exact h
  | cons op ops ih =>
    intro s k s' rs cs h hr
    rw [Sock.run] at hr
    obtain ⟨⟨s1, b1, c1⟩, h1, hr⟩ := andThen_ok hr
    obtain ⟨⟨s2, b2, c2⟩, h2, hr⟩ := andThen_ok hr
    cases hr
    rw [after_append]
    exact ih _ _ _ _ _ (hstep _ _ _ _ _ _ h h1) h2

theorem step_start {nd : Bool} {s s' : Sock} {usec h num fs ret b cs} (hs : s.step nd (.start usec h num fs ret) = .ok (s', b, cs)) :
    s' = s ∧ ∃ m, txMsg nd usec h num fs = .ok m ∧ b = decide (0 < ret) ∧ cs = [.write s.fd m ret] := by
  obtain ⟨m, hm, hr⟩ := andThen_ok hs
  cases hr
  exact ⟨rfl, m, hm, rfl, rfl⟩

theorem step_stop {nd : Bool} {s s' : Sock} {h ret b cs} (hs : s.step nd (.stop h ret) = .ok (s', b, cs)) :
    s' = s ∧ ∃ m, delMsg nd h = .ok m ∧ b = decide (0 < ret) ∧ cs = [.write s.fd m ret] := by
  obtain ⟨m, hm, hr⟩ := andThen_ok hs
  cases hr
  exact ⟨rfl, m, hm, rfl, rfl⟩

theorem write_isSome (k : Kernel) (fd : Int) (m : List Byte) (ret : Int) (x : Int) : ((k.after [.write fd m ret]) x).isSome = (k x).isSome := by
  simp only [Kernel.after, List.foldl_cons, List.foldl_nil, Kernel.apply]
  by_cases h : 0 < ret
  · rw [if_pos h]
    split <;> simp
  · rw [if_neg h]

/-- what `init` does to the object and the kernel -/
theorem init_cases {s s' : Sock} {d a b cs} (hs : s.init d a = .ok (s', b, cs)) (k : Kernel) :
    (a.socket < 0 ∧ b = false ∧ s'.fd = a.socket ∧ k.after cs = k) ∨
    (0 ≤ a.socket ∧ b = true ∧ opens a ∧ s'.fd = a.socket ∧ k.after cs = fun x => if x = a.socket then some (fun _ => none) else k x) ∨
    (0 < a.socket ∧ b = false ∧ ¬ opens a ∧ s'.fd = -1 ∧ k.after cs = fun x => if x = a.socket then none else k x) ∨
    (a.socket = 0 ∧ b = false ∧ ¬ opens a ∧ s'.fd = 0 ∧ k.after cs = fun x => if x = a.socket then some (fun _ => none) else k x) := by
  unfold Sock.init at hs
  dsimp only at hs
  by_cases h0 : a.socket < 0
  · rw [if_pos h0] at hs
    cases hs
    left
    refine ⟨h0, rfl, rfl, ?_⟩
    simp only [Kernel.after, List.foldl_cons, List.foldl_nil, Kernel.apply]
    rw [if_neg (by omega)]
  · rw [if_neg h0] at hs
    by_cases h1 : 16 ≤ d.length
    · rw [if_pos h1] at hs; cases hs
    · rw [if_neg h1] at hs
      have hsh : ∀ mid : List Call, (∀ c ∈ mid, ∀ k : Kernel, k.apply c = k) → ¬ opens a →
          (s' = (Sock.shutdown { s with fd := a.socket }).1 ∧ b = false ∧ cs = [.socket a.socket] ++ mid ++ (Sock.shutdown { s with fd := a.socket }).2) →
          (0 < a.socket ∧ b = false ∧ ¬ opens a ∧ s'.fd = -1 ∧ k.after cs = fun x => if x = a.socket then none else k x) ∨
          (a.socket = 0 ∧ b = false ∧ ¬ opens a ∧ s'.fd = 0 ∧ k.after cs = fun x => if x = a.socket then some (fun _ => none) else k x) := by
        rintro mid hmid hno ⟨e1, e2, e3⟩
        have hm : ∀ k : Kernel, k.after mid = k := by
          clear e3
          intro k
          unfold Kernel.after
          induction mid with
          | nil => rfl
          | cons c l ih => rw [List.foldl_cons, hmid c (by simp), ih (fun c hc => hmid c (by simp [hc]))]
        by_cases hp : 0 < a.socket
        · left
          refine ⟨hp, e2, hno, ?_, ?_⟩
          · rw [e1]; unfold Sock.shutdown; rw [if_pos hp]
          · rw [e3, after_append, after_append, hm]
            unfold Sock.shutdown
            rw [if_pos hp]
            simp only [Kernel.after, List.foldl_cons, List.foldl_nil, Kernel.apply]
            rw [if_pos (by omega)]
            funext x
            by_cases hx : x = a.socket <;> simp [hx]
        · right
          refine ⟨by omega, e2, hno, ?_, ?_⟩
          · rw [e1]; unfold Sock.shutdown; rw [if_neg hp]; dsimp only; omega
          · rw [e3, after_append, after_append, hm]
            unfold Sock.shutdown
            rw [if_neg hp]
            simp only [Kernel.after, List.foldl_cons, List.foldl_nil, Kernel.apply]
            rw [if_pos (by omega)]
      by_cases h2 : a.ifindex ≠ 0
      · rw [if_pos h2] at hs
        cases hs
        right; right
        exact hsh [.ifindex a.socket d a.ifindex] (by intro c hc k; simp at hc; subst hc; rfl) (fun h => h2 h.2.1) ⟨rfl, rfl, rfl⟩
      · rw [if_neg h2] at hs
        by_cases h3 : a.connect < 0
        · rw [if_pos h3] at hs
          cases hs
          right; right
          exact hsh [.ifindex a.socket d a.ifindex, .connect a.socket a.connect] (by intro c hc k; simp at hc; rcases hc with rfl | rfl <;> rfl)
            (fun h => by have := h.2.2; omega) ⟨rfl, rfl, rfl⟩
        · rw [if_neg h3] at hs
          cases hs
          right; left
          refine ⟨by omega, rfl, ⟨by omega, by simpa using h2, by omega⟩, rfl, ?_⟩
          simp only [Kernel.after, List.foldl_cons, List.foldl_nil, Kernel.apply]
          rw [if_pos (by omega)]

/-- the object's descriptor is open -/
theorem open_inv {nd : Bool} (s : Sock) (k : Kernel) (op : Op) (s' : Sock) (b : Bool) (cs : List Call) (hk : 0 ≤ s.fd → (k s.fd).isSome = true)
    (hs : s.step nd op = .ok (s', b, cs)) : 0 ≤ s'.fd → ((k.after cs) s'.fd).isSome = true := by
  intro h
  cases op with
  | init d a =>
    rcases init_cases (s := s) hs k with ⟨h1, _, h2, h3⟩ | ⟨h1, _, _, h2, h3⟩ | ⟨h1, _, _, h2, h3⟩ | ⟨h1, _, _, h2, h3⟩
    · omega
    · rw [h3, h2]; simp
    · omega
    · rw [h3, h2]; simp [h1]
  | start usec hd num fs ret =>
    obtain ⟨e1, m, _, _, e2⟩ := step_start hs
    rw [e2, write_isSome, e1]
    exact hk (e1 ▸ h)
  | stop hd ret =>
    obtain ⟨e1, m, _, _, e2⟩ := step_stop hs
    rw [e2, write_isSome, e1]
    exact hk (e1 ▸ h)
  | shutdown =>
    simp only [Sock.step] at hs
    unfold Sock.shutdown at hs
    by_cases hp : 0 < s.fd
    · rw [if_pos hp] at hs
      cases hs
      exact absurd (show (0 : Int) ≤ -1 from h) (by decide)
    · rw [if_neg hp] at hs
      cases hs
      exact hk h

end Verif.BcmS
