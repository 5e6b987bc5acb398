import Verif.Lemmas.SdoDown

/-! # Lemmas about the SDO client: size field, refused and truncated transfers, accesses -/

set_option linter.unusedSimpArgs false

namespace Verif.Sdo
open Verif Verif.Spec.Sdo

/-! ## the size field -/

theorem word_toNat (d : Bytes8) : (word d).toNat = d[4].toNat + 256 * (d[5].toNat + 256 * (d[6].toNat + 256 * d[7].toNat)) := by
  show ((d[7] ++ d[6] ++ d[5] ++ d[4] : BitVec 32)).toNat = _
  have h4 := d[4].isLt
  have h5 := d[5].isLt
  have h6 := d[6].isLt
  rw [BitVec.toNat_append, BitVec.toNat_append, BitVec.toNat_append]
  rw [← Nat.shiftLeft_add_eq_or_of_lt h6, ← Nat.shiftLeft_add_eq_or_of_lt h5, ← Nat.shiftLeft_add_eq_or_of_lt h4]
  simp only [Nat.shiftLeft_eq]
  omega

/-- the client's reading of the size field agrees with the standard for sizes below 256 -/
theorem heard_eq (d : Bytes8) (h : (word d).toNat < 256) : heard d = (word d).toNat := by
  unfold heard
  rw [word_toNat] at h ⊢
  omega

theorem announced_eq (d : Bytes8) (h : (word d).toNat < 256) : announced d = announces d := by
  unfold announced announces
  rw [heard_eq d h]

theorem heard_le32' (b : Byte) (o : Obj) (n : Nat) (hn : n < 2 ^ 24) : heard (initFrame b o (le32 (BitVec.ofNat 32 n))) = n % 256 := by
  have e4 : (initFrame b o (le32 (BitVec.ofNat 32 n)))[4] = (BitVec.ofNat 32 n).extractLsb' 0 8 := rfl
  have e7 : (initFrame b o (le32 (BitVec.ofNat 32 n)))[7] = (BitVec.ofNat 32 n).extractLsb' 24 8 := rfl
  unfold heard
  rw [e4, e7]
  simp only [BitVec.extractLsb'_toNat, BitVec.toNat_ofNat, Nat.shiftRight_eq_div_pow]
  omega

/-! ## a download refused at the end -/

theorem recv_segment_refused (cfg : Config) (s : Server) (o : Obj) (n : Nat) (got p : List Byte) (tg : Bool) (hp : p.length ≤ 7)
    (hph : s.phase = .down o (some n) got tg) (hst : cfg.strict = true) (hn : n ≠ (got ++ p).length) :
    s.recv cfg (segFrame 0#8 tg p true) = ({ s with phase := .idle }, some (abortFrame o 0x06070010#32)) := by
  obtain ⟨h1, h2, h3, h4⟩ := segFrame_parse tg true p hp
  unfold Server.recv
  rw [h1, h2, h3, h4]
  simp only [hph]
  simp only [if_true, show (0#8 = 1#8) = False from by simp, if_false]
  rw [if_pos]
  exact ⟨hst, rfl, by simpa using hn⟩

theorem nextDownload_seg' {cid : Header} {o : Obj} {data : List Byte} {c : Client} {tg : Bool} (hb : c.buffer = data) (ht : c.total = data.length)
    (hcur : c.current = some o) (hd : c.done = false) (hcid : c.clientId = cid) (hlt : c.offset < data.length) :
    ∃ c', c.nextDownload tg = .ok (c', true) ∧ WDownSeg cid o data tg c.offset c' ∧
      c'.sent = c.sent ++ [c'.lastMsg] ∧
      c'.lastMsg = frame cid (segFrame 0#8 tg ((data.drop c.offset).take 7) (decide ((data.drop c.offset).length ≤ 7))) := by
  have hseg := downloadSegment_eq c.clientId tg data c.offset (by omega)
  refine ⟨({ c with offset := c.offset + ((data.drop c.offset).take 7).length } : Client).post
        (frame c.clientId (segFrame 0#8 tg ((data.drop c.offset).take 7) (decide ((data.drop c.offset).length ≤ 7)))), ?_, ?_, rfl, ?_⟩
  · unfold Client.nextDownload
    rw [if_pos (by omega), hb, hseg]
  · exact ⟨hb, hlt, rfl, ht, hcur, hd, hcid, ⟨decide ((data.drop c.offset).length ≤ 7), by rw [← hcid]; rfl⟩, ⟨c.sent, rfl⟩⟩
  · rw [← hcid]; rfl

theorem down_refused (cfg : Config) (sid cid : Header) (o : Obj) (data : List Byte) (n : Nat) (hstr : cfg.strict = true) (hn : n ≠ data.length) :
    ∀ (k : Nat) (off0 : Nat) (c : Client) (s : Server) (tg : Bool) (rd : List Frame), (data.drop off0).length = k →
      WDownSeg cid o data tg off0 c →
      c.lastMsg = frame cid (segFrame 0#8 tg ((data.drop off0).take 7) (decide ((data.drop off0).length ≤ 7))) →
      s.phase = .down o (some n) (data.take off0) tg →
      ∃ (c' : Client) (extra : List Frame), Reaches cfg sid ⟨c, s, [c.lastMsg], [], rd⟩ ⟨c', { s with phase := .idle }, [], [], rd ++ extra⟩ ∧
        c'.offset = 0 ∧ c.loop extra = .ok c' := by
  intro k
  induction k using Nat.strongRecOn with
  | _ k ih =>
  intro off0 c s tg rd hk h hl hph
  have hlt := h.lt
  generalize hrest : data.drop off0 = rest at *
  have hrl : rest.length = data.length - off0 := by rw [← hrest]; simp
  have hlen7 : (rest.take 7).length ≤ 7 := by simp; omega
  have htake : data.take off0 ++ rest = data := by rw [← hrest]; simp
  by_cases hlast : rest.length ≤ 7
  · have hd7 : decide (rest.length ≤ 7) = true := by simp [hlast]
    rw [hd7] at hl
    have htk : rest.take 7 = rest := List.take_of_length_le hlast
    have hrecv := recv_segment_refused cfg s o n (data.take off0) (rest.take 7) tg hlen7 hph hstr (by rw [htk, htake]; exact hn)
    have hproc := h.process (reply sid (abortFrame o 0x06070010#32))
    have h4 : cs (reply sid (abortFrame o 0x06070010#32)).data = 4#8 := abort_cs sid o _
    rw [if_neg (by simp [reply]), if_pos h4] at hproc
    refine ⟨{ c with offset := 0 }, [reply sid (abortFrame o 0x06070010#32)], ?_, rfl, loop_cons_false h.ndone hproc⟩
    refine Reaches.step (turn_one h.ndone (req := c.lastMsg) (by rw [hl]; exact hrecv) hproc) ?_
    simp
    exact Reaches.refl _
  · have hd7 : decide (rest.length ≤ 7) = false := by simp; omega
    rw [hd7] at hl
    have hrecv := recv_segment cfg s o (some n) (data.take off0) (rest.take 7) tg false hlen7 hph (fun h => by simp at h)
    have h7 : (rest.take 7).length = 7 := by simp; omega
    have hoff : c.offset = off0 + 7 := by rw [h.off, hrest, h7]
    have hdrop : data.drop (off0 + 7) = rest.drop 7 := by rw [← hrest, List.drop_drop]
    have htake7 : data.take off0 ++ rest.take 7 = data.take (off0 + 7) := by
      rw [← hrest, List.take_add]
    rw [htake7] at hrecv
    have hproc := process_segConfirm (sid := sid) hlen7 hl
    obtain ⟨c1, n1, n2, n3, n4⟩ := nextDownload_seg' (tg := !tg) h.buf h.tot h.cur h.ndone h.hcid (by omega)
    rw [n1] at hproc
    rw [hoff] at n2 n4
    obtain ⟨c', extra, r1, r2, r3⟩ := ih ((data.drop (off0 + 7)).length) (by rw [hdrop]; simp; omega) (off0 + 7) c1
      { s with phase := .down o (some n) (data.take (off0 + 7)) (!tg) } (!tg) (rd ++ [reply sid (shortFrame (0x20#8 ||| bitAt tg 4))]) rfl n2
      n4 rfl
    refine ⟨c', reply sid (shortFrame (0x20#8 ||| bitAt tg 4)) :: extra, ?_, r2, ?_⟩
    · refine Reaches.step (turn_one h.ndone (req := c.lastMsg) (by rw [hl]; exact hrecv) hproc) ?_
      have : c1.sent.drop c.sent.length = [c1.lastMsg] := by rw [n3]; simp
      rw [this]
      simpa using r1
    · rw [loop_cons_true h.ndone hproc]
      exact r3

theorem download_refused (cfg : Config) (sid : Header) (c0 : Client) (s : Server) (o : Obj) (data : List Byte)
    (hstr : cfg.strict = true) (hlong : 256 ≤ data.length) :
    ∃ (c1 c' : Client) (frames : List Frame), c0.begin o data false = .ok c1 ∧
      Reaches cfg sid (opening c1 s) ⟨c', { s with phase := .idle }, [], [], frames⟩ ∧ c'.offset = 0 ∧ c1.loop frames = .ok c' := by
  generalize hfirst : initFrame 0x21#8 o [BitVec.ofNat 8 data.length, 0, 0, BitVec.ofNat 8 (data.length / 256)] = first
  have hfm : mux first = o := by rw [← hfirst]; exact mux_initFrame _ _ _
  have hword : (word first).toNat = data.length % 256 + 16777216 * (data.length / 256 % 256) := by
    rw [word_toNat, ← hfirst]
    have e4 : (initFrame 0x21#8 o [BitVec.ofNat 8 data.length, 0, 0, BitVec.ofNat 8 (data.length / 256)])[4] = BitVec.ofNat 8 data.length := rfl
    have e5 : (initFrame 0x21#8 o [BitVec.ofNat 8 data.length, 0, 0, BitVec.ofNat 8 (data.length / 256)])[5] = 0#8 := rfl
    have e6 : (initFrame 0x21#8 o [BitVec.ofNat 8 data.length, 0, 0, BitVec.ofNat 8 (data.length / 256)])[6] = 0#8 := rfl
    have e7 : (initFrame 0x21#8 o [BitVec.ofNat 8 data.length, 0, 0, BitVec.ofNat 8 (data.length / 256)])[7] =
      BitVec.ofNat 8 (data.length / 256) := rfl
    rw [e4, e5, e6, e7]
    simp only [BitVec.toNat_ofNat]
    omega
  obtain ⟨c1, b1, b2, b3⟩ := begin_download c0 o data
  have hl : c1.lastMsg = frame c0.clientId first := by
    unfold Client.begin at b1
    simp only [Bool.false_eq_true, if_false] at b1
    rw [downloadInit_long _ _ _ (by omega)] at b1
    simp only [Outcome.ok.injEq] at b1
    rw [← b1, ← hfirst]; rfl
  have hcs : cs first = 1#8 := by rw [← hfirst, cs_initFrame]; decide
  have hf1 : flag first 1 = false := by rw [← hfirst, flag_initFrame]; decide
  have hf0 : flag first 0 = true := by rw [← hfirst, flag_initFrame]; decide
  generalize hs1 : ({ s with phase := .down o (some (word first).toNat) [] false } : Server) = s1
  have hrecv : s.recv cfg c1.lastMsg.data = (s1, some (initFrame 0x60#8 o [])) := by
    rw [hl]
    show s.recv cfg first = _
    unfold Server.recv
    rw [hcs, hf1, hf0, hfm, ← hs1]
    simp
  have ho : c1.offset = 0 := by rw [b2.off, if_neg (by omega)]
  have hproc : c1.processFrame (reply sid (initFrame 0x60#8 o [])) = c1.nextDownload false :=
    process_initConfirm (b := 0x21#8) (p := [BitVec.ofNat 8 data.length, 0, 0, BitVec.ofNat 8 (data.length / 256)]) rfl (by rw [hl, ← hfirst])
  obtain ⟨c2, n1, n2, n3, n4⟩ := nextDownload_seg' (tg := false) b2.buf b2.tot b2.cur b2.ndone b2.hcid (by rw [ho]; omega)
  rw [n1] at hproc
  rw [ho] at n2 n4
  obtain ⟨c', extra, r1, r2, r3⟩ := down_refused cfg sid c0.clientId o data (word first).toNat hstr (by omega) _ 0 c2 s1 false
    [reply sid (initFrame 0x60#8 o [])] rfl n2 n4 (by rw [← hs1]; rfl)
  refine ⟨c1, c', reply sid (initFrame 0x60#8 o []) :: extra, b1, ?_, r2, ?_⟩
  · refine Reaches.step (turn_one b2.ndone hrecv hproc) ?_
    have : c2.sent.drop c1.sent.length = [c2.lastMsg] := by rw [n3]; simp
    rw [this]
    rw [← hs1] at r1 ⊢
    simpa using r1
  · rw [loop_cons_true b2.ndone hproc]
    exact r3

/-! ## an upload taken for complete too early -/

theorem upload_truncated (cfg : Config) (sid : Header) (c0 : Client) (s : Server) (o : Obj) (p : List Byte) (rest : List (List Byte))
    (hind : cfg.indicate = true) (hlong : 256 ≤ (s.store o).length) (hmax : (s.store o).length < 2 ^ 24)
    (hsplit : cfg.split (s.store o) = p :: rest) (hp1 : 1 ≤ p.length) (hp7 : p.length ≤ 7) (hpn : p.length = (s.store o).length % 256)
    (hrest : rest ≠ []) :
    ∃ (c1 c' : Client) (frames : List Frame), c0.begin o [] true = .ok c1 ∧
      Reaches cfg sid (opening c1 s) ⟨c', { s with phase := .up o rest true }, [], [], frames⟩ ∧ c'.done = true ∧ c'.offset = c'.total ∧
      c'.total ≠ 0 ∧ c'.buffer = p ∧ c1.loop frames = .ok c' := by
  obtain ⟨c1, b0, hw, hsent⟩ := begin_upload_wait c0 o []
  have he : ¬ (cfg.expedite = true ∧ 1 ≤ (s.store o).length ∧ (s.store o).length ≤ 4) := by omega
  have hrecv0 := recv_upInit_seg cfg s o he
  generalize hd : initFrame (if cfg.indicate then 0x41#8 else 0x40#8) o
    (if cfg.indicate then le32 (BitVec.ofNat 32 (s.store o).length) else []) = d at *
  rw [hind] at hd
  simp only [if_true] at hd
  have hcs : cs d = 2#8 := by rw [← hd, cs_initFrame]; decide
  have hm : mux d = o := by rw [← hd]; exact mux_initFrame _ _ _
  have hf1 : flag d 1 = false := by rw [← hd, flag_initFrame]; decide
  have hf0 : flag d 0 = true := by rw [← hd, flag_initFrame]; decide
  have hann : announced d = p.length := by
    unfold announced
    rw [hf0, hf1, hpn, ← hd]
    exact heard_le32' _ _ _ hmax
  obtain ⟨c2, p1, p2, p3⟩ := init_step hw (f := reply sid d) rfl hcs hm (fun h => h.2.1 rfl) (fun h => absurd h.2 (by simp))
  have hsz : sizeAfter ([] : List Byte).length (reply sid d).data = p.length := by
    exact hann
  rw [hsz] at p2
  rcases p3 with ⟨hx, -⟩ | ⟨-, w2, ws⟩
  · rw [show flag (reply sid d).data 1 = flag d 1 from rfl, hf1] at hx; cases hx
  have hoff2 : c2.offset = 0 := by rw [w2.inv.off]; rfl
  obtain ⟨g1, g2, g3, g4⟩ := segFrame_parse false false p hp7
  have hss : segSize (segFrame 0#8 false p false) = p.length := seg_of_server _ _ _ hp7
  have hss' : segSize (reply sid (segFrame 0#8 false p false)).data = p.length := hss
  obtain ⟨c3, q1, q2, q3⟩ := segment_step w2 (f := reply sid (segFrame 0#8 false p false)) rfl g1 g2
    (Or.inr (by rw [hoff2, p2, hss']; omega))
  have hre : rest.isEmpty = false := by cases rest with
    | nil => exact absurd rfl hrest
    | cons a l => rfl
  generalize hs1 : ({ s with phase := .up o (cfg.split (s.store o)) false } : Server) = s1 at *
  have hrecv : s.recv cfg c1.lastMsg.data = (s1, some d) := by
    rw [hw.last]
    exact hrecv0
  have hrecv2 : s1.recv cfg c2.lastMsg.data = ({ s with phase := .up o rest true }, some (segFrame 0#8 false p false)) := by
    rw [w2.last]
    have := recv_upSegment cfg s1 o p rest false (by rw [← hs1, hsplit])
    rw [hre] at this
    refine Eq.trans this ?_
    rw [← hs1]; rfl
  have hgb : segmentBytes (reply sid (segFrame 0#8 false p false)).data = p := g4
  rw [hgb, List.nil_append, q2, p2] at q3
  have hdone : c3.done = true ∧ c3.offset = p.length ∧ c3.buffer = p ∧ c3.sent = c2.sent := by
    rcases q3 with ⟨d1, d3, d4, d2⟩ | ⟨w1, -⟩
    · exact ⟨d1, d3, d4 d3, d2⟩
    · exfalso
      have h1 := w1.part
      rw [w1.inv.off, q2, p2] at h1
      omega
  obtain ⟨d1, d3, d4, d2⟩ := hdone
  refine ⟨c1, c3, [reply sid d, reply sid (segFrame 0#8 false p false)], b0, ?_, d1, by rw [d3, q2, p2], by rw [q2, p2]; omega, d4, ?_⟩
  · refine Reaches.step (turn_one hw.ndone hrecv p1) ?_
    have : c2.sent.drop c1.sent.length = [c2.lastMsg] := by rw [ws]; simp
    rw [this]
    refine Reaches.step (turn_one w2.ndone hrecv2 q1) ?_
    rw [d2]
    simp
    exact Reaches.refl _
  · rw [loop_cons_true hw.ndone p1, loop_cons_true w2.ndone q1, loop_done d1]

/-! ## accesses -/

theorem access_of_loop {c0 c1 c2 : Client} {up : Bool} {o : Obj} {data : List Byte} {frames : List Frame} (hb : c0.begin o data up = .ok c1)
    (hl : c1.loop frames = .ok c2) :
    (access c0 up o data frames).1 = c2 ∧
      (access c0 up o data frames).2 = (if c2.offset = 0 ∨ c2.offset ≠ c2.total then .throws .timeout else .ok ()) := by
  have ht : c0.transmit o data up frames = (c2, if c2.offset = 0 ∨ c2.offset ≠ c2.total then .throws .timeout else .ok c2.buffer) := by
    unfold Client.transmit Client.finish
    rw [hb]
    simp only [hl]
    by_cases h : c2.offset = 0 ∨ c2.offset ≠ c2.total
    · rw [if_pos h, if_pos]; simpa using h
    · rw [if_neg h, if_neg]; simpa using h
  unfold access
  cases up with
  | true =>
    simp only [if_true, Client.read, ht]
    by_cases h : c2.offset = 0 ∨ c2.offset ≠ c2.total
    · simp only [if_pos h]; exact ⟨trivial, trivial⟩
    · simp only [if_neg h]; exact ⟨trivial, trivial⟩
  | false =>
    simp only [Bool.false_eq_true, if_false, if_true, Client.write, ht]
    by_cases h : c2.offset = 0 ∨ c2.offset ≠ c2.total
    · simp only [if_pos h]; exact ⟨trivial, trivial⟩
    · simp only [if_neg h]; exact ⟨trivial, trivial⟩

theorem begin_waiting (c0 : Client) (up : Bool) (o : Obj) (data : List Byte) :
    ∃ c1, c0.begin o data up = .ok c1 ∧ Waiting c0.clientId o data c1 ∧ (up = true → WUpInit c0.clientId o data c1) := by
  cases up with
  | true =>
    obtain ⟨c1, b, w, -⟩ := begin_upload_wait c0 o data
    exact ⟨c1, b, .upInit w, fun _ => w⟩
  | false =>
    obtain ⟨c1, b, w, -⟩ := begin_download c0 o data
    exact ⟨c1, b, .downInit w, fun h => absurd h (by simp)⟩

theorem loop_ok {cid : Header} {o : Obj} {data : List Byte} {c : Client} (h : Waiting cid o data c) (frames : List Frame) :
    ∃ c2, c.loop frames = .ok c2 := by
  induction frames generalizing c with
  | nil => exact ⟨_, loop_nil h.facts.2.1⟩
  | cons f fs ih =>
    obtain ⟨c', b, hp, hcase⟩ := h.step f
    cases b with
    | false => exact ⟨c', loop_cons_false h.facts.2.1 hp⟩
    | true =>
      rw [loop_cons_true h.facts.2.1 hp]
      rcases hcase with ⟨-, hw⟩ | ⟨hd, -⟩
      · exact ih hw
      · exact ⟨c', loop_done (by simpa using hd) _⟩

/-- a client that waits after `pre`, and what follows -/
theorem waitsOn_fed {c0 : Client} {up : Bool} {o : Obj} {data : List Byte} {pre sent : List Frame} {req : Frame}
    (h : WaitsOn c0 up o data pre sent req) :
    ∃ c1 c', c0.begin o data up = .ok c1 ∧ Fed c1 pre c' ∧ Waiting c0.clientId o data c' ∧ c'.sent = sent ++ [req] ∧ c'.lastMsg = req ∧
      (up = true → WUpInit c0.clientId o data c1) := by
  obtain ⟨c1, hb, hw, hu⟩ := begin_waiting c0 up o data
  obtain ⟨c2, hl⟩ := loop_ok hw pre
  unfold WaitsOn at h
  rw [(access_of_loop hb hl).1] at h
  obtain ⟨c', f1, f2, f3, f4⟩ := fed_of_timeout pre c1 c2 sent req hw hl h
  exact ⟨c1, c', hb, f1, f2, f3, f4, hu⟩

theorem access_refused {c0 c1 c' : Client} {up : Bool} {o : Obj} {data : List Byte} {pre rest sent : List Frame} {req f : Frame} {rs : BitVec 32}
    (hb : c0.begin o data up = .ok c1) (hf : Fed c1 pre c') (hw : Waiting c0.clientId o data c') (hs : c'.sent = sent ++ [req])
    (hp : c'.processFrame f = .ok (c'.refuse rs)) :
    (access c0 up o data (pre ++ f :: rest)).2 = .throws .timeout ∧
      (access c0 up o data (pre ++ f :: rest)).1.sent = sent ++ [req, abortOf c0.clientId o rs] := by
  obtain ⟨x1, x2, x3, -⟩ := refuse_sent hw.facts.1 rs
  have hp' : c'.processFrame f = .ok ((c'.refuse rs).1, false) := by rw [hp, ← x2]
  obtain ⟨a1, a2⟩ := access_of_loop hb (hf.loop_append (f :: rest) ▸ loop_cons_false hw.facts.2.1 hp')
  rw [a1, a2]
  refine ⟨by rw [if_pos (Or.inl x3)], ?_⟩
  rw [x1, hs, hw.facts.2.2.1, List.append_assoc]
  rfl

end Verif.Sdo
