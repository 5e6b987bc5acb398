import Verif.Spec.Sdo

/-! # Lemmas about the SDO client: bytes and frames -/

set_option linter.unusedSimpArgs false

namespace Verif.Sdo
open Verif Verif.Spec.Sdo

/-! ## one byte -/

theorem byte_cs : ∀ b : Byte, b.toNat / 32 = (b >>> 5).toNat := by decide +kernel
theorem byte_f0 : ∀ b : Byte, (b.toNat % 2 == 1) = b.getLsbD 0 := by decide +kernel
theorem byte_f1 : ∀ b : Byte, (b.toNat / 2 % 2 == 1) = b.getLsbD 1 := by decide +kernel
theorem byte_f4 : ∀ b : Byte, (b.toNat / 16 % 2 == 1) = b.getLsbD 4 := by decide +kernel
theorem byte_n2 : ∀ b : Byte, b.toNat / 4 % 4 = ((b >>> 2) &&& 3#8).toNat := by decide +kernel
theorem byte_n3 : ∀ b : Byte, b.toNat / 2 % 8 = ((b >>> 1) &&& 7#8).toNat := by decide +kernel

theorem command_eq (d : Bytes8) : command d = (cs d).toNat := byte_cs _
theorem toggle_eq (d : Bytes8) : toggle d = flag d 4 := byte_f4 _
theorem segDone_eq (d : Bytes8) : segDone d = flag d 0 := byte_f0 _
theorem sizeIndicated_eq (d : Bytes8) : sizeIndicated d = flag d 0 := byte_f0 _
theorem expedited_eq (d : Bytes8) : expedited d = flag d 1 := byte_f1 _

theorem toList8 (d : Bytes8) : d.toList = [d[0], d[1], d[2], d[3], d[4], d[5], d[6], d[7]] := by
  apply List.ext_getElem
  · simp
  · intro i h1 h2
    simp at h1
    match i, h1 with
    | 0, _ => rfl
    | 1, _ => rfl
    | 2, _ => rfl
    | 3, _ => rfl
    | 4, _ => rfl
    | 5, _ => rfl
    | 6, _ => rfl
    | 7, _ => rfl

theorem payload4_eq (d : Bytes8) : payload4 d = d.toList.drop 4 := by rw [toList8]; rfl
theorem payload7_eq (d : Bytes8) : payload7 d = d.toList.drop 1 := by rw [toList8]; rfl
theorem segSize_eq (d : Bytes8) : segSize d = (segmentBytes d).length := by
  unfold segSize segmentBytes segNum
  rw [byte_n3]
  simp [toList8]
theorem segSize_le (d : Bytes8) : segSize d ≤ 7 := by unfold segSize; omega
theorem payload7_take (d : Bytes8) : (payload7 d).take (segSize d) = segmentBytes d := by
  unfold segSize segmentBytes segNum
  rw [byte_n3, payload7_eq]

theorem mux_eq (d : Bytes8) : mux d = ⟨index d, subIndex d⟩ := rfl

theorem index_split (i : BitVec 16) : i.extractLsb' 8 8 ++ i.extractLsb' 0 8 = i := by
  apply BitVec.eq_of_getLsbD_eq
  intro k hk
  simp only [BitVec.getLsbD_append, BitVec.getLsbD_extractLsb']
  by_cases h : k < 8
  · simp [h]
  · simp [h]
    rw [show 8 + (k - 8) = k from by omega]
    have : k - 8 < 8 := by omega
    simp [this]

theorem lo_eq (i : BitVec 16) : lo i = i.extractLsb' 0 8 := by
  apply BitVec.eq_of_getLsbD_eq
  intro k hk
  simp [lo, hk, BitVec.getLsbD_extractLsb']

theorem hi_eq (i : BitVec 16) : hi i = i.extractLsb' 8 8 := by
  apply BitVec.eq_of_getLsbD_eq
  intro k hk
  simp [hi, hk, BitVec.getLsbD_extractLsb']

theorem mux_initFrame (b : Byte) (o : Obj) (p : List Byte) : mux (initFrame b o p) = o := by
  have := index_split o.index
  show Obj.mk _ _ = o
  show (⟨o.index.extractLsb' 8 8 ++ o.index.extractLsb' 0 8, o.sub⟩ : Obj) = o
  rw [this]

theorem cs_initFrame (b : Byte) (o : Obj) (p : List Byte) : cs (initFrame b o p) = b >>> 5 := rfl
theorem flag_initFrame (b : Byte) (o : Obj) (p : List Byte) (i : Nat) : flag (initFrame b o p) i = b.getLsbD i := rfl
theorem cs_shortFrame (b : Byte) : cs (shortFrame b) = b >>> 5 := rfl
theorem flag_shortFrame (b : Byte) (i : Nat) : flag (shortFrame b) i = b.getLsbD i := rfl

/-! ## lists of at most seven bytes -/

theorem cases4 {P : List Byte → Prop} (h0 : P []) (h1 : ∀ a, P [a]) (h2 : ∀ a b, P [a, b]) (h3 : ∀ a b c, P [a, b, c])
    (h4 : ∀ a b c d, P [a, b, c, d]) : ∀ l : List Byte, l.length ≤ 4 → P l
  | [], _ => h0
  | [a], _ => h1 a
  | [a, b], _ => h2 a b
  | [a, b, c], _ => h3 a b c
  | [a, b, c, d], _ => h4 a b c d
  | _ :: _ :: _ :: _ :: _ :: _, h => by simp at h

theorem cases7 {P : List Byte → Prop} (h0 : P []) (h1 : ∀ a, P [a]) (h2 : ∀ a b, P [a, b]) (h3 : ∀ a b c, P [a, b, c])
    (h4 : ∀ a b c d, P [a, b, c, d]) (h5 : ∀ a b c d e, P [a, b, c, d, e]) (h6 : ∀ a b c d e f, P [a, b, c, d, e, f])
    (h7 : ∀ a b c d e f g, P [a, b, c, d, e, f, g]) : ∀ l : List Byte, l.length ≤ 7 → P l
  | [], _ => h0
  | [a], _ => h1 a
  | [a, b], _ => h2 a b
  | [a, b, c], _ => h3 a b c
  | [a, b, c, d], _ => h4 a b c d
  | [a, b, c, d, e], _ => h5 a b c d e
  | [a, b, c, d, e, f], _ => h6 a b c d e f
  | [a, b, c, d, e, f, g], _ => h7 a b c d e f g
  | _ :: _ :: _ :: _ :: _ :: _ :: _ :: _ :: _, h => by simp at h

/-! ## segments -/

theorem segByte_bits : ∀ (t last : Bool) (m : Fin 8),
    let b := (0#8 ||| bitAt t 4 ||| (BitVec.ofNat 8 (7 - m.val) <<< 1) ||| bitAt last 0)
    b >>> 5 = 0#8 ∧ b.getLsbD 4 = t ∧ b.getLsbD 0 = last ∧ ((b >>> 1) &&& 7#8).toNat = 7 - m.val := by decide +kernel

theorem segFrame_parse (t last : Bool) (p : List Byte) (hp : p.length ≤ 7) :
    cs (segFrame 0#8 t p last) = 0#8 ∧ flag (segFrame 0#8 t p last) 4 = t ∧ flag (segFrame 0#8 t p last) 0 = last ∧
      segmentBytes (segFrame 0#8 t p last) = p := by
  obtain ⟨h1, h2, h3, h4⟩ := segByte_bits t last ⟨p.length, by omega⟩
  refine ⟨h1, h2, h3, ?_⟩
  have e : segmentBytes (segFrame 0#8 t p last) =
      [pad p 0, pad p 1, pad p 2, pad p 3, pad p 4, pad p 5, pad p 6].take (7 - (7 - p.length)) := by
    unfold segmentBytes
    rw [toList8]
    congr 1
    rw [← h4]
    rfl
  rw [e]
  clear e h1 h2 h3 h4
  revert hp
  apply cases7 (P := fun p => [pad p 0, pad p 1, pad p 2, pad p 3, pad p 4, pad p 5, pad p 6].take (7 - (7 - p.length)) = p) <;> intros <;> rfl

theorem memWrite_zeros7 (src : List Byte) (hs : src.length ≤ 7) :
    memWrite [0, 0, 0, 0, 0, 0, 0] 0 src = some [pad src 0, pad src 1, pad src 2, pad src 3, pad src 4, pad src 5, pad src 6] := by
  revert hs
  apply cases7 (P := fun src => memWrite [0, 0, 0, 0, 0, 0, 0] 0 src =
    some [pad src 0, pad src 1, pad src 2, pad src 3, pad src 4, pad src 5, pad src 6]) <;> intros <;> simp [memWrite, pad]

theorem memWrite_zeros4 (src : List Byte) (hs : src.length ≤ 4) :
    memWrite [0, 0, 0, 0] 0 src = some [pad src 0, pad src 1, pad src 2, pad src 3] := by
  revert hs
  apply cases4 (P := fun src => memWrite [0, 0, 0, 0] 0 src =
    some [pad src 0, pad src 1, pad src 2, pad src 3]) <;> intros <;> simp [memWrite, pad]

theorem segByte_fin : ∀ (dn tg : Bool) (m : Fin 8), segByte dn (7 - m.val) tg 0 =
    (0#8 ||| bitAt tg 4 ||| (BitVec.ofNat 8 (7 - m.val) <<< 1) ||| bitAt dn 0) := by decide +kernel

theorem segByte_eq (dn tg : Bool) (m : Nat) (hm : m ≤ 7) : segByte dn (7 - m) tg 0 =
    (0#8 ||| bitAt tg 4 ||| (BitVec.ofNat 8 (7 - m) <<< 1) ||| bitAt dn 0) := segByte_fin dn tg ⟨m, by omega⟩

theorem downloadSegment_eq (h : Header) (tg : Bool) (buffer : List Byte) (offset : Nat) (ho : offset ≤ buffer.length) :
    downloadSegment h tg buffer offset =
      some (frame h (segFrame 0#8 tg ((buffer.drop offset).take 7) (decide ((buffer.drop offset).length ≤ 7))),
        offset + ((buffer.drop offset).take 7).length) := by
  generalize hl : buffer.drop offset = l
  have hlen : buffer.length - offset = l.length := by rw [← hl]; simp
  unfold downloadSegment
  have key : ∀ (src : List Byte) (dn : Bool), src.length ≤ 7 →
      (match memWrite [0, 0, 0, 0, 0, 0, 0] 0 src with
        | some [p0, p1, p2, p3, p4, p5, p6] => some (frame h #v[segByte dn (7 - src.length) tg 0, p0, p1, p2, p3, p4, p5, p6], offset + src.length)
        | _ => none) = some (frame h (segFrame 0#8 tg src dn), offset + src.length) := by
    intro src dn hs
    rw [memWrite_zeros7 src hs, segByte_eq dn tg src.length hs]
    rfl
  have hm : memRead buffer offset (segSplit (buffer.length - offset)).1 = some (l.take 7) := by
    unfold memRead segSplit
    rw [hlen]
    by_cases h7 : l.length > 7
    · rw [if_pos h7, if_pos (by omega), hl]
    · rw [if_neg h7, if_pos (by omega), hl, List.take_of_length_le (by omega), List.take_of_length_le (by omega)]
  have hs1 : (segSplit (buffer.length - offset)).1 = (l.take 7).length := by
    unfold segSplit
    rw [hlen]
    simp
    split <;> simp <;> omega
  have hs2 : (segSplit (buffer.length - offset)).2 = decide (l.length ≤ 7) := by
    unfold segSplit
    rw [hlen]
    by_cases h7 : l.length > 7
    · simp [h7]
    · simp [h7]; omega
  dsimp only
  rw [hm, hs2]
  have := key (l.take 7) (decide (l.length ≤ 7)) (by simp; omega)
  rw [← this, hs1]
  rfl

/-! ## turns of a conversation -/

/-- a frame of the server -/
def reply (sid : Header) (d : Bytes8) : Frame := { toHeader := sid, data := d, dlc := 8 }

theorem turn_one {cfg : Config} {sid : Header} {c c' : Client} {s s' : Server} {req : Frame} {rd : List Frame} {d : Bytes8} {b : Bool}
    (hd : c.done = false) (hs : s.recv cfg req.data = (s', some d)) (hp : c.processFrame (reply sid d) = .ok (c', b)) :
    Talk.turn cfg sid ⟨c, s, [req], [], rd⟩ = some ⟨c', s', c'.sent.drop c.sent.length, [], rd ++ [reply sid d]⟩ := by
  unfold Talk.turn
  simp only [hd, Server.serve, hs, Option.toList, List.map, List.append_nil, List.nil_append]
  simp only [reply, BitVec.ofNat_eq_ofNat] at hp ⊢
  simp [hp]

theorem loop_cons_true {c c' : Client} {f : Frame} {fs : List Frame} (hd : c.done = false) (hp : c.processFrame f = .ok (c', true)) :
    c.loop (f :: fs) = c'.loop fs := by
  simp [Client.loop, hd, hp]

theorem loop_done {c : Client} (hd : c.done = true) (fs : List Frame) : c.loop fs = .ok c := by
  cases fs <;> simp [Client.loop, hd]

/-! ## download -/

theorem segConfirm_bits : ∀ t : Bool, (0x20#8 ||| bitAt t 4) >>> 5 = 1#8 ∧ (0x20#8 ||| bitAt t 4).getLsbD 4 = t := by decide

/-- the client's answer to a segment confirmation with the right toggle bit -/
theorem process_segConfirm {c : Client} {sid : Header} {tg : Bool} {p : List Byte} {last : Bool} {cid : Header} (hp : p.length ≤ 7)
    (hl : c.lastMsg = frame cid (segFrame 0#8 tg p last)) :
    c.processFrame (reply sid (shortFrame (0x20#8 ||| bitAt tg 4))) = c.nextDownload (!tg) := by
  obtain ⟨h1, h2, -, -⟩ := segFrame_parse tg last p hp
  obtain ⟨b1, b2⟩ := segConfirm_bits tg
  have hc : command (shortFrame (0x20#8 ||| bitAt tg 4)) = 1 := by rw [command_eq, cs_shortFrame, b1]; rfl
  have ht : toggle (shortFrame (0x20#8 ||| bitAt tg 4)) = tg := by rw [toggle_eq, flag_shortFrame, b2]
  have hc' : command c.lastMsg.data = 0 := by rw [hl, command_eq]; show (cs (segFrame 0#8 tg p last)).toNat = 0; rw [h1]; rfl
  have ht' : toggle c.lastMsg.data = tg := by rw [hl, toggle_eq]; exact h2
  unfold Client.processFrame reply testDownloadSegment
  simp [hc, ht, hc', ht']

theorem recv_segment (cfg : Config) (s : Server) (o : Obj) (ann : Option Nat) (got p : List Byte) (tg last : Bool) (hp : p.length ≤ 7)
    (hph : s.phase = .down o ann got tg) (hst : last = true → cfg.strict = true → ann.isSome = true → ann = some (got ++ p).length) :
    s.recv cfg (segFrame 0#8 tg p last) =
      (if last then s.put o (got ++ p) else { s with phase := .down o ann (got ++ p) (!tg) }, some (shortFrame (0x20#8 ||| bitAt tg 4))) := by
  obtain ⟨h1, h2, h3, h4⟩ := segFrame_parse tg last p hp
  unfold Server.recv
  rw [h1, h2, h3, h4]
  simp only [hph]
  cases last with
  | false => simp
  | true =>
    have := hst rfl
    simp only [if_true, show (0#8 = 1#8) = False from by simp, if_false]
    rw [if_neg]
    rintro ⟨a, b, c⟩
    exact c (this a b)

theorem down_talk (cfg : Config) (sid : Header) (o : Obj) (data : List Byte) (ann : Option Nat)
    (hann : cfg.strict = true → ann.isSome = true → ann = some data.length) :
    ∀ (n : Nat) (off0 : Nat) (c : Client) (s : Server) (tg : Bool) (rd base : List Frame), (data.drop off0).length = n → off0 < data.length →
      c.buffer = data → c.total = data.length → c.done = false →
      c.lastMsg = frame c.clientId (segFrame 0#8 tg ((data.drop off0).take 7) (decide ((data.drop off0).length ≤ 7))) →
      c.offset = off0 + ((data.drop off0).take 7).length → c.sent = base ++ [c.lastMsg] →
      s.phase = .down o ann (data.take off0) tg →
      ∃ (c' : Client) (extra : List Frame), Reaches cfg sid ⟨c, s, [c.lastMsg], [], rd⟩ ⟨c', s.put o data, [], [], rd ++ extra⟩ ∧
        c'.done = true ∧ c'.offset = data.length ∧ c'.total = data.length ∧ c'.buffer = data ∧
        c'.sent = base ++ (segments tg (data.drop off0)).map (frame c.clientId) ∧ c.loop extra = .ok c' ∧ 7 * extra.length ≤ (data.drop off0).length + 6 := by
  intro n
  induction n using Nat.strongRecOn with
  | _ n ih =>
  intro off0 c s tg rd base hn hlt hb ht hd hl ho hsent hph
  generalize hrest : data.drop off0 = rest at *
  have hrl : rest.length = data.length - off0 := by rw [← hrest]; simp
  have hlen7 : (rest.take 7).length ≤ 7 := by simp; omega
  have htake : data.take off0 ++ rest = data := by rw [← hrest]; simp
  have hproc := process_segConfirm (sid := sid) hlen7 hl
  by_cases hlast : rest.length ≤ 7
  · have hd7 : decide (rest.length ≤ 7) = true := by simp [hlast]
    rw [hd7] at hl
    have htk : rest.take 7 = rest := List.take_of_length_le hlast
    have hrecv := recv_segment cfg s o ann (data.take off0) (rest.take 7) tg true hlen7 hph
      (fun _ h1 h2 => by rw [htk, htake]; exact hann h1 h2)
    rw [htk, htake] at hrecv
    rw [htk] at hl ho
    have hoff : c.offset = data.length := by rw [ho]; omega
    have hnext : c.nextDownload (!tg) = .ok ({ c with done := true }, true) := by
      unfold Client.nextDownload
      rw [if_neg (by omega)]
    rw [hnext] at hproc
    refine ⟨{ c with done := true }, [reply sid (shortFrame (0x20#8 ||| bitAt tg 4))], ?_, rfl, hoff, ht, hb, ?_, ?_, by simp; omega⟩
    · refine Reaches.step (turn_one hd (req := c.lastMsg) (by rw [hl]; exact hrecv) hproc) ?_
      simp
      exact Reaches.refl _
    · show c.sent = _
      rw [hsent, hl, segments]
      simp [hlast]
    · rw [loop_cons_true hd hproc]
      rfl
  · have hd7 : decide (rest.length ≤ 7) = false := by simp; omega
    rw [hd7] at hl
    have hrecv := recv_segment cfg s o ann (data.take off0) (rest.take 7) tg false hlen7 hph (fun h => by simp at h)
    have h7 : (rest.take 7).length = 7 := by simp; omega
    have hoff : c.offset = off0 + 7 := by rw [ho, h7]
    have hdrop : data.drop (off0 + 7) = rest.drop 7 := by rw [← hrest, List.drop_drop]
    have htake7 : data.take off0 ++ rest.take 7 = data.take (off0 + 7) := by
      rw [← hrest, List.take_add]
    rw [htake7] at hrecv
    have hseg := downloadSegment_eq c.clientId (!tg) data (off0 + 7) (by omega)
    rw [hdrop] at hseg
    have hnext : c.nextDownload (!tg) = .ok (({ c with offset := off0 + 7 + ((rest.drop 7).take 7).length } : Client).post
        (frame c.clientId (segFrame 0#8 (!tg) ((rest.drop 7).take 7) (decide ((rest.drop 7).length ≤ 7)))), true) := by
      unfold Client.nextDownload
      rw [if_pos (by omega), hb, hoff, hseg]
    rw [hnext] at hproc
    generalize hc1 : (({ c with offset := off0 + 7 + ((rest.drop 7).take 7).length } : Client).post
        (frame c.clientId (segFrame 0#8 (!tg) ((rest.drop 7).take 7) (decide ((rest.drop 7).length ≤ 7))))) = c1 at hproc
    have e1 : c1.clientId = c.clientId := by rw [← hc1]; rfl
    have e2 : c1.lastMsg = frame c.clientId (segFrame 0#8 (!tg) ((rest.drop 7).take 7) (decide ((rest.drop 7).length ≤ 7))) := by rw [← hc1]; rfl
    have e3 : c1.sent = c.sent ++ [c1.lastMsg] := by rw [e2, ← hc1]; rfl
    obtain ⟨c', extra, r1, r2, r3, r4, r5, r6, r7, r8⟩ := ih ((data.drop (off0 + 7)).length) (by rw [hdrop]; simp; omega) (off0 + 7) c1
      { s with phase := .down o ann (data.take (off0 + 7)) (!tg) } (!tg) (rd ++ [reply sid (shortFrame (0x20#8 ||| bitAt tg 4))]) c.sent rfl
      (by omega) (by rw [← hc1]; exact hb) (by rw [← hc1]; exact ht) (by rw [← hc1]; exact hd) (by rw [e1, e2, hdrop])
      (by rw [hdrop, ← hc1]; rfl) e3 rfl
    refine ⟨c', reply sid (shortFrame (0x20#8 ||| bitAt tg 4)) :: extra, ?_, r2, r3, r4, r5, ?_, ?_, by rw [hdrop] at r8; simp at r8 ⊢; omega⟩
    · refine Reaches.step (turn_one hd (req := c.lastMsg) (by rw [hl]; exact hrecv) hproc) ?_
      have : c1.sent.drop c.sent.length = [c1.lastMsg] := by rw [e3]; simp
      rw [this]
      have e : Server.put { s with phase := .down o ann (data.take (off0 + 7)) (!tg) } o data = s.put o data := rfl
      rw [e] at r1
      simpa using r1
    · rw [r6, hsent, hl, e1, hdrop]
      conv => rhs; rw [segments]
      simp [hlast]
    · rw [loop_cons_true hd hproc]
      exact r7

/-- command byte of an expedited download -/
def expByte (n : Nat) : Byte := 0x23#8 ||| (BitVec.ofNat 8 (4 - n) <<< 2)

theorem expByte_fin : ∀ m : Fin 4, initByte true true (4 - (m.val + 1)) 1 = expByte (m.val + 1) ∧ expByte (m.val + 1) >>> 5 = 1#8 ∧
    (expByte (m.val + 1)).getLsbD 1 = true ∧ (expByte (m.val + 1)).getLsbD 0 = true ∧
    ((expByte (m.val + 1) >>> 2) &&& 3#8).toNat = 4 - (m.val + 1) := by decide +kernel

theorem expByte_eq (n : Nat) (h1 : 1 ≤ n) (h4 : n ≤ 4) : initByte true true (4 - n) 1 = expByte n ∧ expByte n >>> 5 = 1#8 ∧
    (expByte n).getLsbD 1 = true ∧ (expByte n).getLsbD 0 = true ∧ ((expByte n >>> 2) &&& 3#8).toNat = 4 - n := by
  have := expByte_fin ⟨n - 1, by omega⟩
  rw [show (⟨n - 1, by omega⟩ : Fin 4).val + 1 = n from by simp; omega] at this
  exact this

theorem downloadInit_short (h : Header) (o : Obj) (data : List Byte) (h1 : 1 ≤ data.length) (h4 : data.length ≤ 4) :
    downloadInit h o data = some (frame h (initFrame (expByte data.length) o data), data.length) := by
  unfold downloadInit
  rw [if_neg (by omega)]
  have : memRead data 0 data.length = some data := by simp [memRead]
  rw [this]
  dsimp only
  rw [memWrite_zeros4 data h4, (expByte_eq data.length h1 h4).1, lo_eq, hi_eq]
  rfl

theorem downloadInit_long (h : Header) (o : Obj) (data : List Byte) (h4 : data.length > 4) :
    downloadInit h o data =
      some (frame h (initFrame 0x21#8 o [BitVec.ofNat 8 data.length, 0, 0, BitVec.ofNat 8 (data.length / 256)]), 0) := by
  unfold downloadInit
  rw [if_pos h4, lo_eq, hi_eq]
  rfl

theorem expeditedBytes_init (b : Byte) (o : Obj) (p : List Byte) (n : Nat) (h0 : b.getLsbD 0 = true) (hn : ((b >>> 2) &&& 3#8).toNat = 4 - n)
    (h4 : n ≤ 4) (hp : p.length = n) : expeditedBytes (initFrame b o p) = p := by
  have e : expeditedBytes (initFrame b o p) = [pad p 0, pad p 1, pad p 2, pad p 3].take (4 - (4 - p.length)) := by
    unfold expeditedBytes
    rw [flag_initFrame, h0, toList8]
    simp only [if_true]
    rw [hp, ← hn]
    rfl
  rw [e]
  have h4' : p.length ≤ 4 := by omega
  clear e hn hp
  revert h4'
  apply cases4 (P := fun p => [pad p 0, pad p 1, pad p 2, pad p 3].take (4 - (4 - p.length)) = p) <;> intros <;> rfl

theorem process_initConfirm {c : Client} {sid cid : Header} {o : Obj} {b : Byte} {p : List Byte} (hb : b >>> 5 = 1#8)
    (hl : c.lastMsg = frame cid (initFrame b o p)) :
    c.processFrame (reply sid (initFrame 0x60#8 o [])) = c.nextDownload false := by
  have hm : mux c.lastMsg.data = o := by rw [hl]; exact mux_initFrame _ _ _
  have hm2 : mux (initFrame 0x60#8 o []) = o := mux_initFrame _ _ _
  have e : index (initFrame 0x60#8 o []) = index c.lastMsg.data ∧ subIndex (initFrame 0x60#8 o []) = subIndex c.lastMsg.data := by
    have h := hm2.trans hm.symm
    rw [mux_eq, mux_eq, Obj.mk.injEq] at h
    exact h
  have hc : command (initFrame 0x60#8 o []) = 3 := by rw [command_eq, cs_initFrame]; rfl
  have hc' : command c.lastMsg.data = 1 := by rw [hl, command_eq]; show (cs (initFrame b o p)).toNat = 1; rw [cs_initFrame, hb]; rfl
  unfold Client.processFrame reply testDownloadInit
  simp [hc, hc', e.1, e.2]

/-- The whole download. -/
theorem download_talk (cfg : Config) (sid : Header) (c0 : Client) (s : Server) (o : Obj) (data : List Byte) (hne : data ≠ [])
    (hs : cfg.strict = true → data.length < 256) :
    ∃ (c1 c' : Client) (first : Bytes8) (frames : List Frame), c0.begin o data false = .ok c1 ∧
      Reaches cfg sid (opening c1 s) ⟨c', s.put o data, [], [], frames⟩ ∧ c'.done = true ∧ c'.offset = data.length ∧ c'.total = data.length ∧
      c'.buffer = data ∧
      cs first = 1#8 ∧ mux first = o ∧ (data.length < 256 → data.length > 4 → (word first).toNat = data.length) ∧
      c'.sent = c0.sent ++ (first :: (if data.length ≤ 4 then [] else segments false data)).map (frame c0.clientId) ∧
      c1.loop frames = .ok c' ∧ frames.length ≤ 1 + (data.length + 6) / 7 := by
  have hpos : 1 ≤ data.length := by
    cases data with
    | nil => exact absurd rfl hne
    | cons a l => simp
  by_cases h4 : data.length ≤ 4
  · obtain ⟨b1, b2, b3, b4, b5⟩ := expByte_eq data.length hpos h4
    generalize hc1 : (Client.post { c0 with buffer := data, offset := data.length, total := data.length, current := some o, done := false }
      (frame c0.clientId (initFrame (expByte data.length) o data))) = c1
    have hbegin : c0.begin o data false = .ok c1 := by
      unfold Client.begin
      simp only [Bool.false_eq_true, if_false]
      rw [downloadInit_short _ _ _ hpos h4, ← hc1]
    have hl : c1.lastMsg = frame c0.clientId (initFrame (expByte data.length) o data) := by rw [← hc1]; rfl
    have hrecv : s.recv cfg c1.lastMsg.data = (s.put o data, some (initFrame 0x60#8 o [])) := by
      rw [hl]
      show s.recv cfg (initFrame (expByte data.length) o data) = _
      unfold Server.recv
      rw [cs_initFrame, b2, flag_initFrame, b3, mux_initFrame, expeditedBytes_init _ _ _ _ b4 b5 h4 rfl]
      simp
    have hproc := process_initConfirm (sid := sid) b2 hl
    have hd : c1.done = false := by rw [← hc1]; rfl
    have ho : c1.offset = data.length := by rw [← hc1]; rfl
    have ht : c1.total = data.length := by rw [← hc1]; rfl
    have hbf : c1.buffer = data := by rw [← hc1]; rfl
    have hsent : c1.sent = c0.sent ++ [c1.lastMsg] := by rw [hl, ← hc1]; rfl
    have hnext : c1.nextDownload false = .ok ({ c1 with done := true }, true) := by
      unfold Client.nextDownload
      rw [if_neg (by omega)]
    rw [hnext] at hproc
    refine ⟨c1, { c1 with done := true }, initFrame (expByte data.length) o data, [reply sid (initFrame 0x60#8 o [])], hbegin, ?_, rfl, ho, ht, hbf,
      by rw [cs_initFrame]; exact b2, mux_initFrame _ _ _, fun _ h => absurd h (by omega), ?_, ?_, by simp⟩
    · refine Reaches.step (turn_one hd hrecv hproc) ?_
      simp
      exact Reaches.refl _
    · show c1.sent = _
      rw [hsent, hl]
      simp [h4]
    · rw [loop_cons_true hd hproc]
      rfl
  · generalize hfirst : initFrame 0x21#8 o [BitVec.ofNat 8 data.length, 0, 0, BitVec.ofNat 8 (data.length / 256)] = first
    have hfm : mux first = o := by rw [← hfirst]; exact mux_initFrame _ _ _
    have hword : (word first).toNat = data.length % 256 + 16777216 * (data.length / 256 % 256) := by
      rw [← hfirst]
      unfold word initFrame
      have e0 : (0#8 : BitVec 8).toNat = 0 := rfl
      show (((BitVec.ofNat 8 (data.length / 256)) ++ (0#8 : BitVec 8) ++ (0#8 : BitVec 8) ++ (BitVec.ofNat 8 data.length) : BitVec 32)).toNat = _
      simp only [BitVec.toNat_append, e0, BitVec.toNat_ofNat]
      simp only [Nat.or_zero]
      rw [← Nat.shiftLeft_add_eq_or_of_lt (by omega)]
      simp only [Nat.shiftLeft_eq]
      omega
    generalize hc1 : (Client.post { c0 with buffer := data, offset := 0, total := data.length, current := some o, done := false }
      (frame c0.clientId first)) = c1
    have hbegin : c0.begin o data false = .ok c1 := by
      unfold Client.begin
      simp only [Bool.false_eq_true, if_false]
      rw [downloadInit_long _ _ _ (by omega), ← hc1, hfirst]
    have hl : c1.lastMsg = frame c0.clientId first := by rw [← hc1]; rfl
    have hcs : cs first = 1#8 := by rw [← hfirst, cs_initFrame]; decide
    have hf1 : flag first 1 = false := by rw [← hfirst, flag_initFrame]; decide
    have hf0 : flag first 0 = true := by rw [← hfirst, flag_initFrame]; decide
    generalize hs1 : ({ s with phase := .down o (some (word first).toNat) [] false } : Server) = s1
    have hrecv : s.recv cfg c1.lastMsg.data = (s1, some (initFrame 0x60#8 o [])) := by
      rw [hl]
      show s.recv cfg first = _
      unfold Server.recv
      rw [hcs, hf1, hf0, hfm, ← hs1]
      simp
    have hd : c1.done = false := by rw [← hc1]; rfl
    have ho : c1.offset = 0 := by rw [← hc1]; rfl
    have ht : c1.total = data.length := by rw [← hc1]; rfl
    have hbf : c1.buffer = data := by rw [← hc1]; rfl
    have hsent : c1.sent = c0.sent ++ [c1.lastMsg] := by rw [hl, ← hc1]; rfl
    have hcid : c1.clientId = c0.clientId := by rw [← hc1]; rfl
    have hproc : c1.processFrame (reply sid (initFrame 0x60#8 o [])) = c1.nextDownload false :=
      process_initConfirm (b := 0x21#8) (p := [BitVec.ofNat 8 data.length, 0, 0, BitVec.ofNat 8 (data.length / 256)]) rfl (by rw [hl, ← hfirst])
    have hseg := downloadSegment_eq c1.clientId false data 0 (by omega)
    have hnext : c1.nextDownload false = .ok (({ c1 with offset := 0 + ((data.drop 0).take 7).length } : Client).post
        (frame c1.clientId (segFrame 0#8 false ((data.drop 0).take 7) (decide ((data.drop 0).length ≤ 7)))), true) := by
      unfold Client.nextDownload
      rw [if_pos (by omega), hbf, ho, hseg]
    rw [hnext] at hproc
    generalize hc2 : (({ c1 with offset := 0 + ((data.drop 0).take 7).length } : Client).post
        (frame c1.clientId (segFrame 0#8 false ((data.drop 0).take 7) (decide ((data.drop 0).length ≤ 7))))) = c2 at hproc
    have e1 : c2.clientId = c1.clientId := by rw [← hc2]; rfl
    have e2 : c2.lastMsg = frame c1.clientId (segFrame 0#8 false ((data.drop 0).take 7) (decide ((data.drop 0).length ≤ 7))) := by rw [← hc2]; rfl
    have e3 : c2.sent = c1.sent ++ [c2.lastMsg] := by rw [e2, ← hc2]; rfl
    obtain ⟨c', extra, r1, r2, r3, r4, r5, r6, r7, r8⟩ := down_talk cfg sid o data (some (word first).toNat)
      (fun h _ => by rw [hword]; have := hs h; congr 1; omega) _ 0 c2 s1 false [reply sid (initFrame 0x60#8 o [])] c1.sent rfl
      (by omega) (by rw [← hc2]; exact hbf) (by rw [← hc2]; exact ht) (by rw [← hc2]; exact hd) (by rw [e2, e1]) (by rw [← hc2]; rfl) e3
      (by rw [← hs1]; rfl)
    refine ⟨c1, c', first, reply sid (initFrame 0x60#8 o []) :: extra, hbegin, ?_, r2, r3, r4, r5, hcs, hfm, fun h _ => by rw [hword]; omega, ?_, ?_, by simp at r8 ⊢; omega⟩
    · refine Reaches.step (turn_one hd hrecv hproc) ?_
      have : c2.sent.drop c1.sent.length = [c2.lastMsg] := by rw [e3]; simp
      rw [this]
      have e : s1.put o data = s.put o data := by rw [← hs1]; rfl
      rw [e] at r1
      simpa using r1
    · rw [r6, hsent, hl, e1, hcid]
      simp [h4]
    · rw [loop_cons_true hd hproc]
      exact r7

end Verif.Sdo
