import Verif.Lemmas.SdoUp

/-! # Lemmas about the SDO client: arbitrary servers -/

set_option linter.unusedSimpArgs false

namespace Verif.Sdo
open Verif Verif.Spec.Sdo

/-! ## the four situations in which the client waits -/

structure WUpInit (cid : Header) (o : Obj) (data : List Byte) (c : Client) : Prop where
  buf : c.buffer = data
  off : c.offset = 0
  tot : c.total = data.length
  cur : c.current = some o
  ndone : c.done = false
  hcid : c.clientId = cid
  last : c.lastMsg = frame cid (initFrame 0x40#8 o [])
  sent : ∃ s, c.sent = s ++ [c.lastMsg]

structure WUpSeg (cid : Header) (o : Obj) (tg : Bool) (got : List Byte) (c : Client) : Prop where
  inv : UpInv c got
  part : c.offset = 0 ∨ c.offset ≠ c.total
  cur : c.current = some o
  ndone : c.done = false
  hcid : c.clientId = cid
  last : c.lastMsg = frame cid (shortFrame (0x60#8 ||| bitAt tg 4))
  sent : ∃ s, c.sent = s ++ [c.lastMsg]

structure WDownInit (cid : Header) (o : Obj) (data : List Byte) (c : Client) : Prop where
  buf : c.buffer = data
  off : c.offset = if data.length ≤ 4 then data.length else 0
  tot : c.total = data.length
  cur : c.current = some o
  ndone : c.done = false
  hcid : c.clientId = cid
  last : ∃ (b : Byte) (p : List Byte), b >>> 5 = 1#8 ∧ c.lastMsg = frame cid (initFrame b o p)
  sent : ∃ s, c.sent = s ++ [c.lastMsg]

structure WDownSeg (cid : Header) (o : Obj) (data : List Byte) (tg : Bool) (off0 : Nat) (c : Client) : Prop where
  buf : c.buffer = data
  lt : off0 < data.length
  off : c.offset = off0 + ((data.drop off0).take 7).length
  tot : c.total = data.length
  cur : c.current = some o
  ndone : c.done = false
  hcid : c.clientId = cid
  last : ∃ l, c.lastMsg = frame cid (segFrame 0#8 tg ((data.drop off0).take 7) l)
  sent : ∃ s, c.sent = s ++ [c.lastMsg]

theorem abortRequest_eq (h : Header) (o : Obj) (rs : BitVec 32) : abortRequest h o.index o.sub rs = abortOf h o rs := by
  have hs : ∀ k : Nat, (rs >>> k).setWidth 8 = rs.extractLsb' k 8 := by
    intro k
    apply BitVec.eq_of_getLsbD_eq
    intro i hi
    simp [hi, BitVec.getLsbD_extractLsb']
  have h0 : rs.setWidth 8 = rs.extractLsb' 0 8 := by
    apply BitVec.eq_of_getLsbD_eq
    intro i hi
    simp [hi, BitVec.getLsbD_extractLsb']
  unfold abortRequest abortOf abortFrame initFrame
  simp only [lo_eq, hi_eq, h0, hs, le32, pad]
  rfl

theorem abort_eq {c : Client} {o : Obj} (h : c.current = some o) (rs : BitVec 32) : c.abort rs = c.post (abortOf c.clientId o rs) := by
  unfold Client.abort
  rw [h]
  dsimp only
  rw [abortRequest_eq]

theorem refuse_sent {c : Client} {o : Obj} (h : c.current = some o) (rs : BitVec 32) :
    (c.refuse rs).1.sent = c.sent ++ [abortOf c.clientId o rs] ∧ (c.refuse rs).2 = false ∧ (c.refuse rs).1.offset = 0 ∧
      (c.refuse rs).1.current = some o ∧ (c.refuse rs).1.total = c.total ∧ (c.refuse rs).1.done = c.done := by
  unfold Client.refuse
  rw [abort_eq h]
  exact ⟨rfl, rfl, rfl, h, rfl, rfl⟩

/-! ## downloads: what the client makes of a frame -/

theorem process_wait_downInit {c : Client} {o : Obj} {cid : Header} {b : Byte} {p : List Byte} (hb : b >>> 5 = 1#8)
    (hl : c.lastMsg = frame cid (initFrame b o p)) (f : Frame) :
    c.processFrame f =
      if f.dlc ≠ 8 then .ok (c, false)
      else if cs f.data = 4#8 then .ok ({ c with offset := 0 }, false)
      else if 5 ≤ (cs f.data).toNat then .ok (c, true)
      else if cs f.data ≠ 3#8 ∨ mux f.data ≠ o then .ok (c.refuse 0x08000000#32)
      else c.nextDownload false := by
  have hlc : command c.lastMsg.data = 1 := by
    rw [hl, command_eq]; show (cs (initFrame _ _ _)).toNat = 1; rw [cs_initFrame, hb]; rfl
  have hlm : mux c.lastMsg.data = o := by rw [hl]; exact mux_initFrame _ _ _
  unfold Client.processFrame testDownloadInit testDownloadSegment testUploadInit testUploadSegment
  rw [hlc, command_eq]
  by_cases h8 : f.dlc = 8
  · have h8' : (f.dlc != 8) = false := by simp [h8]
    simp only [h8', Bool.false_eq_true, if_false]
    rw [if_neg (show ¬ f.dlc ≠ 8 from by simp [h8])]
    rcases cs_cases f.data with h | h | h | h | h | h
    · simp [h]
    · simp [h]
    · simp [h]
    · have hm : (1 == 1 && index f.data == index c.lastMsg.data && subIndex f.data == subIndex c.lastMsg.data) = decide (mux f.data = o) := by
        rw [← hlm]
        simp only [beq_self_eq_true, Bool.true_and]
        rw [Bool.eq_iff_iff]
        simp only [Bool.and_eq_true, beq_iff_eq, decide_eq_true_eq]
        exact same_mux _ _
      rw [hm]
      by_cases hmx : mux f.data = o <;> simp [h, hmx]
    · simp [h]
    · have a1 : ¬ (cs f.data).toNat = 3 := by omega
      have a2 : ¬ (cs f.data).toNat = 1 := by omega
      have a3 : ¬ (cs f.data).toNat = 2 := by omega
      have a4 : ¬ (cs f.data).toNat = 0 := by omega
      have a5 : ¬ (cs f.data).toNat = 4 := by omega
      have a6 : ¬ cs f.data = 4#8 := fun e => a5 (by rw [e]; rfl)
      simp only [a1, a2, a3, a4, a5, a6, h, if_false, if_true]
  · have h8' : (f.dlc != 8) = true := bne_iff_ne.mpr h8
    rw [if_pos h8', if_pos h8]

theorem process_wait_downSeg {c : Client} {cid : Header} {tg l : Bool} {p : List Byte} (hp : p.length ≤ 7)
    (hl : c.lastMsg = frame cid (segFrame 0#8 tg p l)) (f : Frame) :
    c.processFrame f =
      if f.dlc ≠ 8 then .ok (c, false)
      else if cs f.data = 4#8 then .ok ({ c with offset := 0 }, false)
      else if 5 ≤ (cs f.data).toNat then .ok (c, true)
      else if cs f.data ≠ 1#8 then .ok (c.refuse 0x08000000#32)
      else if flag f.data 4 ≠ tg then .ok (c.refuse 0x05030000#32)
      else c.nextDownload (!tg) := by
  obtain ⟨h1, h2, -, -⟩ := segFrame_parse tg l p hp
  have hlc : command c.lastMsg.data = 0 := by
    rw [hl, command_eq]; show (cs (segFrame _ _ _ _)).toNat = 0; rw [h1]; rfl
  have hlt : toggle c.lastMsg.data = tg := by rw [hl, toggle_eq]; exact h2
  unfold Client.processFrame testDownloadInit testDownloadSegment testUploadInit testUploadSegment
  rw [hlc, hlt, command_eq, toggle_eq]
  by_cases h8 : f.dlc = 8
  · have h8' : (f.dlc != 8) = false := by simp [h8]
    simp only [h8', Bool.false_eq_true, if_false]
    rw [if_neg (show ¬ f.dlc ≠ 8 from by simp [h8])]
    rcases cs_cases f.data with h | h | h | h | h | h
    · simp [h]
    · by_cases ht : flag f.data 4 = tg
      · simp [h, ht]
      · simp [h, ht]
    · simp [h]
    · simp [h]
    · simp [h]
    · have a1 : ¬ (cs f.data).toNat = 3 := by omega
      have a2 : ¬ (cs f.data).toNat = 1 := by omega
      have a3 : ¬ (cs f.data).toNat = 2 := by omega
      have a4 : ¬ (cs f.data).toNat = 0 := by omega
      have a5 : ¬ (cs f.data).toNat = 4 := by omega
      have a6 : ¬ cs f.data = 4#8 := fun e => a5 (by rw [e]; rfl)
      simp only [a1, a2, a3, a4, a5, a6, h, if_false, if_true]
  · have h8' : (f.dlc != 8) = true := bne_iff_ne.mpr h8
    rw [if_pos h8', if_pos h8]

/-- the next segment -/
theorem nextDownload_seg {cid : Header} {o : Obj} {data : List Byte} {c : Client} {tg : Bool} (hb : c.buffer = data) (ht : c.total = data.length)
    (hcur : c.current = some o) (hd : c.done = false) (hcid : c.clientId = cid) (hlt : c.offset < data.length) :
    ∃ c', c.nextDownload tg = .ok (c', true) ∧ WDownSeg cid o data tg c.offset c' ∧
      c'.sent = c.sent ++ [c'.lastMsg] := by
  have hseg := downloadSegment_eq c.clientId tg data c.offset (by omega)
  refine ⟨({ c with offset := c.offset + ((data.drop c.offset).take 7).length } : Client).post
        (frame c.clientId (segFrame 0#8 tg ((data.drop c.offset).take 7) (decide ((data.drop c.offset).length ≤ 7)))), ?_, ?_, rfl⟩
  · unfold Client.nextDownload
    rw [if_pos (by omega), hb, hseg]
  · exact ⟨hb, hlt, rfl, ht, hcur, hd, hcid, ⟨decide ((data.drop c.offset).length ≤ 7), by rw [← hcid]; rfl⟩, ⟨c.sent, rfl⟩⟩

theorem nextDownload_done {c : Client} {tg : Bool} (h : ¬ c.offset < c.total) : c.nextDownload tg = .ok ({ c with done := true }, true) := by
  unfold Client.nextDownload
  rw [if_neg h]

/-! ## upload: the loop -/

theorem answers_cons (f : Frame) (fs : List Frame) :
    answers (f :: fs) = if f.dlc ≠ 8 ∨ (cs f.data).toNat ≤ 4 then f :: answers fs else answers fs := by
  unfold answers
  rw [List.filter_cons]
  simp

theorem answers_skip {f : Frame} (h8 : f.dlc = 8) (h5 : 5 ≤ (cs f.data).toNat) (fs : List Frame) : answers (f :: fs) = answers fs := by
  rw [answers_cons, if_neg]
  rintro (h | h)
  · exact h h8
  · omega

theorem answers_keep {f : Frame} (h5 : (cs f.data).toNat ≤ 4) (fs : List Frame) : answers (f :: fs) = f :: answers fs := by
  rw [answers_cons, if_pos (Or.inr h5)]

theorem loop_cons_false {c c' : Client} {f : Frame} {fs : List Frame} (hd : c.done = false) (hp : c.processFrame f = .ok (c', false)) :
    c.loop (f :: fs) = .ok c' := by
  simp [Client.loop, hd, hp]

theorem loop_nil {c : Client} (hd : c.done = false) : c.loop [] = .ok (c.abort 0x05040000#32) := by
  simp [Client.loop, hd]

theorem abort_fields (c : Client) (rs : BitVec 32) : (c.abort rs).offset = c.offset ∧ (c.abort rs).total = c.total ∧
    (c.abort rs).buffer = c.buffer ∧ (c.abort rs).done = c.done := by
  unfold Client.abort
  split <;> simp [Client.post]

/-- one accepted segment -/
theorem segment_step {cid : Header} {o : Obj} {tg : Bool} {got : List Byte} {c : Client} (h : WUpSeg cid o tg got c) {f : Frame}
    (h8 : f.dlc = 8) (hc : cs f.data = 0#8) (ht : flag f.data 4 = tg) (hf : c.total = 0 ∨ c.offset + segSize f.data ≤ c.total) :
    ∃ c', c.processFrame f = .ok (c', true) ∧ c'.total = c.total ∧
      ((c'.done = true ∧ c'.offset = (got ++ segmentBytes f.data).length ∧ (c'.offset = c'.total → c'.buffer = got ++ segmentBytes f.data) ∧
          c'.sent = c.sent) ∨
        (WUpSeg cid o (!tg) (got ++ segmentBytes f.data) c' ∧ c'.sent = c.sent ++ [c'.lastMsg])) := by
  obtain ⟨c1, r1, r2, r3, r4, r5, r6, r7, r8, r9⟩ := readSegment_fits c f.data got h.inv hf
  have hproc : c.processFrame f = afterSegment (flag f.data 0) tg (.ok (c1, true)) := by
    rw [process_wait_segment h.last, if_neg (by simp [h8]), hc, if_neg (by decide), if_neg (by decide), if_neg (by simp), if_neg (by simp [ht]), r1]
  by_cases hd : (flag f.data 0 || c1.offset == c1.total) = true
  · refine ⟨{ c1 with done := true }, ?_, r3, Or.inl ⟨rfl, r2.off, r9, r7⟩⟩
    rw [hproc]
    unfold afterSegment
    dsimp only
    rw [if_pos hd]
  · refine ⟨c1.post (uploadSegment c1.clientId (!tg)), ?_, r3, Or.inr ⟨?_, by show c1.sent ++ [_] = _; rw [r7]; rfl⟩⟩
    · rw [hproc]
      unfold afterSegment
      dsimp only
      rw [if_neg hd]
    · refine ⟨⟨r2.off, r2.buf, r2.known, r2.unknown⟩, ?_, by show c1.current = _; rw [r5]; exact h.cur, by show c1.done = _; rw [r4]; exact h.ndone,
        by show c1.clientId = _; rw [r6]; exact h.hcid, ?_, ⟨c1.sent, rfl⟩⟩
      · right
        simp at hd
        exact hd.2
      · show uploadSegment _ _ = _
        rw [uploadSegment_eq, r6, h.hcid]

theorem upSeg_loop (cid : Header) (o : Obj) : ∀ (frames : List Frame) (tg : Bool) (got : List Byte) (c : Client), WUpSeg cid o tg got c →
    ∃ c2, c.loop frames = .ok c2 ∧ c2.total = c.total ∧ (c2.offset ≠ 0 → c2.offset = c2.total →
      ∃ used unread, frames = used ++ unread ∧ UploadSegments tg (answers used) ∧ c2.buffer = got ++ carried (answers used) ∧
        c2.buffer.length = c.total) := by
  intro frames
  induction frames with
  | nil =>
    intro tg got c h
    obtain ⟨e1, e2, e3, -⟩ := abort_fields c 0x05040000#32
    refine ⟨_, loop_nil h.ndone, e2, fun h0 ht => ?_⟩
    rw [e1] at h0 ht
    rw [e2] at ht
    cases h.part with
    | inl h' => exact absurd h' h0
    | inr h' => exact absurd ht h'
  | cons f fs ih =>
    intro tg got c h
    have hproc := process_wait_segment h.last f
    by_cases h8 : f.dlc = 8
    · rw [if_neg (by simp [h8])] at hproc
      by_cases h4 : cs f.data = 4#8
      · rw [if_pos h4] at hproc
        exact ⟨_, loop_cons_false h.ndone hproc, rfl, fun h0 => absurd rfl h0⟩
      rw [if_neg h4] at hproc
      by_cases h5 : 5 ≤ (cs f.data).toNat
      · rw [if_pos h5] at hproc
        obtain ⟨c2, l1, l2, l3⟩ := ih tg got c h
        refine ⟨c2, by rw [loop_cons_true h.ndone hproc]; exact l1, l2, fun h0 ht => ?_⟩
        obtain ⟨used, unread, u1, u2, u3, u4⟩ := l3 h0 ht
        exact ⟨f :: used, unread, by rw [u1]; rfl, by rw [answers_skip h8 h5]; exact u2, by rw [answers_skip h8 h5]; exact u3, u4⟩
      rw [if_neg h5] at hproc
      have href : ∀ rs, c.processFrame f = .ok (c.refuse rs) →
          ∃ c2, c.loop (f :: fs) = .ok c2 ∧ c2.total = c.total ∧ (c2.offset ≠ 0 → c2.offset = c2.total →
      ∃ used unread, f :: fs = used ++ unread ∧ UploadSegments tg (answers used) ∧ c2.buffer = got ++ carried (answers used) ∧
        c2.buffer.length = c.total) := by
        intro rs hr
        obtain ⟨-, x2, x3, -, x5, -⟩ := refuse_sent h.cur rs
        have : c.processFrame f = .ok ((c.refuse rs).1, false) := by rw [hr, ← x2]
        exact ⟨_, loop_cons_false h.ndone this, x5, fun h0 => absurd x3 h0⟩
      by_cases h0 : cs f.data = 0#8
      · rw [if_neg (by simp [h0])] at hproc
        by_cases ht : flag f.data 4 = tg
        · rw [if_neg (by simp [ht])] at hproc
          have hkeep : ∀ l, answers (f :: l) = f :: answers l := fun l => answers_keep (by rw [h0]; decide) l
          by_cases hf : c.total = 0 ∨ c.offset + segSize f.data ≤ c.total
          · obtain ⟨c1, p1, p2, p3⟩ := segment_step h h8 h0 ht hf
            cases p3 with
            | inl hd =>
              obtain ⟨d1, d2, d3, -⟩ := hd
              refine ⟨c1, by rw [loop_cons_true h.ndone p1, loop_done d1], p2, fun _ hot => ⟨[f], fs, rfl, ?_, ?_, ?_⟩⟩
              · rw [hkeep]; exact ⟨h8, h0, ht, trivial⟩
              · rw [hkeep, d3 hot]; simp [carried, answers]
              · rw [d3 hot, ← d2, hot, p2]
            | inr hw =>
              obtain ⟨c2, l1, l2, l3⟩ := ih (!tg) _ c1 hw.1
              refine ⟨c2, by rw [loop_cons_true h.ndone p1]; exact l1, by rw [l2, p2], fun hn hot => ?_⟩
              obtain ⟨used, unread, u1, u2, u3, u4⟩ := l3 hn hot
              refine ⟨f :: used, unread, by rw [u1]; rfl, ?_, ?_, by rw [u4, p2]⟩
              · rw [hkeep]; exact ⟨h8, h0, ht, u2⟩
              · rw [hkeep, u3]; simp [carried]
          · rw [readSegment_over c f.data got h.inv (by omega)] at hproc
            exact href _ hproc
        · rw [if_pos ht] at hproc
          exact href _ hproc
      · rw [if_pos h0] at hproc
        exact href _ hproc
    · rw [if_pos h8] at hproc
      refine ⟨c, loop_cons_false h.ndone hproc, rfl, fun h0 ht => ?_⟩
      cases h.part with
      | inl h' => exact absurd h' h0
      | inr h' => exact absurd ht h'

/-- the size the client works with after the initiate answer `d`, when `req` bytes were asked for -/
def sizeAfter (req : Nat) (d : Bytes8) : Nat := if req = 0 then announced d else req

theorem takeSize_fields (c : Client) (d : Bytes8) (hb : c.buffer.length = c.total) :
    (c.takeSize d).total = sizeAfter c.total d ∧ (c.takeSize d).buffer.length = sizeAfter c.total d ∧
      (c.takeSize d).offset = c.offset ∧ (c.takeSize d).current = c.current ∧ (c.takeSize d).done = c.done ∧
      (c.takeSize d).clientId = c.clientId ∧ (c.takeSize d).sent = c.sent ∧ (c.takeSize d).lastMsg = c.lastMsg := by
  unfold Client.takeSize sizeAfter
  rw [sizeIndicated_eq, initSize_eq]
  by_cases h0 : c.total = 0
  · cases hf : flag d 0 with
    | false => simp [h0, announced, hf, hb]
    | true => simp [h0, resize_length]
  · simp [h0, hb]

/-- an accepted initiate answer -/
theorem init_step {cid : Header} {o : Obj} {data : List Byte} {c : Client} (h : WUpInit cid o data c) {f : Frame}
    (h8 : f.dlc = 8) (hc : cs f.data = 2#8) (hm : mux f.data = o)
    (hs : ¬ (announced f.data ≠ 0 ∧ data.length ≠ 0 ∧ announced f.data < data.length)) (hx : ¬ (flag f.data 1 = true ∧ 4 < data.length)) :
    ∃ c', c.processFrame f = .ok (c', true) ∧ c'.total = sizeAfter data.length f.data ∧
      ((flag f.data 1 = true ∧ c'.done = true ∧ c'.offset = c'.total ∧ c'.buffer = (f.data.toList.drop 4).take c'.total ∧ c'.total ≤ 4 ∧
          c'.sent = c.sent) ∨
        (flag f.data 1 = false ∧ WUpSeg cid o false [] c' ∧ c'.sent = c.sent ++ [c'.lastMsg])) := by
  have hbt : c.buffer.length = c.total := by rw [h.buf, h.tot]
  obtain ⟨t1, t2, t3, t4, t5, t6, t7, t8⟩ := takeSize_fields c f.data hbt
  rw [h.tot] at t1 t2
  have hproc : c.processFrame f = afterInit (c.readInit f.data) := by
    rw [process_wait_init h.last, if_neg (by simp [h8]), hc, if_neg (by decide), if_neg (by decide), if_neg (by simp [hm]), h.tot, if_neg hs,
      if_neg hx]
  cases h1 : flag f.data 1 with
  | true =>
    have hle : sizeAfter data.length f.data ≤ 4 := by
      unfold sizeAfter
      have := announced_exp_le f.data h1
      split
      · exact this
      · by_cases h4 : 4 < data.length
        · exact absurd ⟨h1, h4⟩ hx
        · omega
    have hread := readInit_exp c f.data (by rw [expedited_eq]; exact h1) (by rw [t2]; exact hle)
    rw [hread] at hproc
    refine ⟨{ (c.takeSize f.data) with buffer := (payload4 f.data).take (c.takeSize f.data).buffer.length, offset := (c.takeSize f.data).buffer.length, done := true },
      hproc, t1, Or.inl ⟨rfl, rfl, ?_, ?_, ?_, t7⟩⟩
    · show (c.takeSize f.data).buffer.length = (c.takeSize f.data).total
      rw [t1, t2]
    · show (payload4 f.data).take _ = List.take (c.takeSize f.data).total _
      rw [payload4_eq, t1, t2]
    · show (c.takeSize f.data).total ≤ 4
      rw [t1]; exact hle
  | false =>
    rw [readInit_seg c f.data (by rw [expedited_eq]; exact h1)] at hproc
    refine ⟨(c.takeSize f.data).post (uploadSegment (c.takeSize f.data).clientId false), hproc, t1, Or.inr ⟨rfl, ?_, ?_⟩⟩
    · refine ⟨⟨?_, ?_, ?_, ?_⟩, Or.inl ?_, ?_, ?_, ?_, ?_, ⟨_, rfl⟩⟩
      · show (c.takeSize f.data).offset = _; rw [t3, h.off]; rfl
      · show List.take (c.takeSize f.data).offset (c.takeSize f.data).buffer = _; rw [t3, h.off]; rfl
      · intro _; show (c.takeSize f.data).buffer.length = (c.takeSize f.data).total; rw [t1, t2]
      · intro h0
        have h0' : (c.takeSize f.data).total = 0 := h0
        show (c.takeSize f.data).buffer.length = (c.takeSize f.data).offset
        rw [t2, t3, h.off, ← t1]; exact h0'
      · show (c.takeSize f.data).offset = _; rw [t3, h.off]
      · show (c.takeSize f.data).current = _; rw [t4, h.cur]
      · show (c.takeSize f.data).done = _; rw [t5, h.ndone]
      · show (c.takeSize f.data).clientId = _; rw [t6, h.hcid]
      · show uploadSegment _ _ = _
        rw [uploadSegment_eq, t6, h.hcid]
    · show (c.takeSize f.data).sent ++ [_] = _
      rw [t7]
      rfl

theorem upInit_loop (cid : Header) (o : Obj) (data : List Byte) : ∀ (frames : List Frame) (c : Client), WUpInit cid o data c →
    ∃ c2, c.loop frames = .ok c2 ∧ (c2.offset ≠ 0 → c2.offset = c2.total →
      ∃ used unread, frames = used ++ unread ∧ CompleteUpload o data.length used c2.buffer) := by
  intro frames
  induction frames with
  | nil =>
    intro c h
    obtain ⟨e1, -, -, -⟩ := abort_fields c 0x05040000#32
    exact ⟨_, loop_nil h.ndone, fun h0 => absurd (by rw [e1]; exact h.off) h0⟩
  | cons f fs ih =>
    intro c h
    have hproc := process_wait_init h.last f
    by_cases h8 : f.dlc = 8
    · rw [if_neg (by simp [h8])] at hproc
      by_cases h4 : cs f.data = 4#8
      · rw [if_pos h4] at hproc
        exact ⟨_, loop_cons_false h.ndone hproc, fun h0 => absurd rfl h0⟩
      rw [if_neg h4] at hproc
      by_cases h5 : 5 ≤ (cs f.data).toNat
      · rw [if_pos h5] at hproc
        obtain ⟨c2, l1, l3⟩ := ih c h
        refine ⟨c2, by rw [loop_cons_true h.ndone hproc]; exact l1, fun h0 ht => ?_⟩
        obtain ⟨used, unread, u1, u2⟩ := l3 h0 ht
        refine ⟨f :: used, unread, by rw [u1]; rfl, ?_⟩
        unfold CompleteUpload at u2 ⊢
        rw [answers_skip h8 h5]; exact u2
      rw [if_neg h5] at hproc
      have href : ∀ rs, c.processFrame f = .ok (c.refuse rs) →
          ∃ c2, c.loop (f :: fs) = .ok c2 ∧ (c2.offset ≠ 0 → c2.offset = c2.total →
      ∃ used unread, f :: fs = used ++ unread ∧ CompleteUpload o data.length used c2.buffer) := by
        intro rs hr
        obtain ⟨-, x2, x3, -⟩ := refuse_sent h.cur rs
        have : c.processFrame f = .ok ((c.refuse rs).1, false) := by rw [hr, ← x2]
        exact ⟨_, loop_cons_false h.ndone this, fun h0 => absurd x3 h0⟩
      by_cases h2 : cs f.data ≠ 2#8 ∨ mux f.data ≠ o
      · rw [if_pos h2] at hproc; exact href _ hproc
      rw [if_neg h2] at hproc
      have hc2 : cs f.data = 2#8 := by by_cases hh : cs f.data = 2#8; exact hh; exact absurd (Or.inl hh) h2
      have hmx : mux f.data = o := by by_cases hh : mux f.data = o; exact hh; exact absurd (Or.inr hh) h2
      rw [h.tot] at hproc
      by_cases hs : announced f.data ≠ 0 ∧ data.length ≠ 0 ∧ announced f.data < data.length
      · rw [if_pos hs] at hproc; exact href _ hproc
      rw [if_neg hs] at hproc
      by_cases hx : flag f.data 1 = true ∧ 4 < data.length
      · rw [if_pos hx] at hproc; exact href _ hproc
      have hkeep : ∀ l, answers (f :: l) = f :: answers l := fun l => answers_keep (by rw [hc2]; decide) l
      obtain ⟨c1, p1, p2, p3⟩ := init_step h h8 hc2 hmx hs hx
      cases p3 with
      | inl hd =>
        obtain ⟨d0, d1, d2, d3, d4, -⟩ := hd
        refine ⟨c1, by rw [loop_cons_true h.ndone p1, loop_done d1], fun hn _ => ⟨[f], fs, rfl, ?_⟩⟩
        have hlen : c1.buffer.length = c1.total := by rw [d3]; simp [toList8]; omega
        unfold CompleteUpload
        rw [hkeep]
        refine ⟨h8, hc2, hmx, ?_, ?_⟩
        · intro hb; rw [hb] at hlen; rw [d2] at hn; exact hn hlen.symm
        · rw [if_pos d0]
          refine ⟨rfl, by rw [hlen]; exact d3, ?_⟩
          by_cases hr : data.length = 0
          · rw [if_pos hr]
            have hsz : c1.total = announced f.data := by rw [p2, sizeAfter, if_pos hr]
            have hf0 : flag f.data 0 = true := by
              cases hf : flag f.data 0 with
              | true => rfl
              | false =>
                rw [d2, hsz] at hn
                unfold announced at hn
                rw [hf] at hn
                exact absurd rfl hn
            refine ⟨hf0, ?_⟩
            rw [d3, hsz]
            unfold announced
            rw [hf0, d0]
            simp only [if_true]
            unfold expeditedBytes
            rw [hf0]
            simp only [if_true]
            rw [List.length_take]
            rw [toList8]
            simp
          · rw [if_neg hr, hlen, p2, sizeAfter, if_neg hr]
      | inr hw =>
        obtain ⟨w0, w1, -⟩ := hw
        obtain ⟨c2, l1, l2, l3⟩ := upSeg_loop cid o fs false [] c1 w1
        refine ⟨c2, by rw [loop_cons_true h.ndone p1]; exact l1, fun hn hot => ?_⟩
        obtain ⟨used, unread, u1, u2, u3, u4⟩ := l3 hn hot
        refine ⟨f :: used, unread, by rw [u1]; rfl, ?_⟩
        have hlen : c2.buffer.length ≠ 0 := by rw [u4, ← l2, ← hot]; exact hn
        unfold CompleteUpload
        rw [hkeep]
        refine ⟨h8, hc2, hmx, ?_, ?_⟩
        · intro hb; rw [hb] at hlen; exact hlen rfl
        · rw [if_neg (by simp [w0])]
          refine ⟨u2, by rw [u3]; simp, ?_⟩
          by_cases hr : data.length = 0
          · rw [if_pos hr]
            have hsz : c1.total = announced f.data := by rw [p2, sizeAfter, if_pos hr]
            rw [u4, hsz] at hlen ⊢
            have hf0 : flag f.data 0 = true := by
              cases hf : flag f.data 0 with
              | true => rfl
              | false =>
                unfold announced at hlen
                rw [hf] at hlen
                exact absurd rfl hlen
            refine ⟨hf0, ?_⟩
            unfold announced
            rw [hf0, w0]
            rfl
          · rw [if_neg hr, u4, p2, sizeAfter, if_neg hr]
    · rw [if_pos h8] at hproc
      exact ⟨c, loop_cons_false h.ndone hproc, fun h0 => absurd h.off h0⟩

end Verif.Sdo
