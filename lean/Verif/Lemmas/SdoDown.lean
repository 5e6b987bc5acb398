import Verif.Lemmas.SdoRun

/-! # Lemmas about the SDO client: downloads from arbitrary servers, refusals -/

set_option linter.unusedSimpArgs false

namespace Verif.Sdo
open Verif Verif.Spec.Sdo

theorem seg_take_len {data : List Byte} {off0 : Nat} : ((data.drop off0).take 7).length = min 7 (data.length - off0) := by simp

theorem WDownSeg.process {cid : Header} {o : Obj} {data : List Byte} {tg : Bool} {off0 : Nat} {c : Client} (h : WDownSeg cid o data tg off0 c)
    (f : Frame) :
    c.processFrame f =
      if f.dlc ≠ 8 then .ok (c, false)
      else if cs f.data = 4#8 then .ok ({ c with offset := 0 }, false)
      else if 5 ≤ (cs f.data).toNat then .ok (c, true)
      else if cs f.data ≠ 1#8 then .ok (c.refuse 0x08000000#32)
      else if flag f.data 4 ≠ tg then .ok (c.refuse 0x05030000#32)
      else c.nextDownload (!tg) := by
  obtain ⟨l, hl⟩ := h.last
  exact process_wait_downSeg (by rw [seg_take_len]; omega) hl f

theorem downSeg_loop (cid : Header) (o : Obj) (data : List Byte) : ∀ (frames : List Frame) (tg : Bool) (off0 : Nat) (c : Client),
    WDownSeg cid o data tg off0 c →
    ∃ c2, c.loop frames = .ok c2 ∧ (c2.offset ≠ 0 → c2.offset = c2.total →
      ∃ used unread, frames = used ++ unread ∧ SegmentConfirms tg (answers used) ∧
        ((c2.done = true ∧ (answers used).length = (data.length - off0 + 6) / 7) ∨
          (c2.done = false ∧ (answers used).length + 1 = (data.length - off0 + 6) / 7 ∧ GaveUp unread))) := by
  intro frames
  induction frames with
  | nil =>
    intro tg off0 c h
    obtain ⟨e1, e2, -, e4⟩ := abort_fields c 0x05040000#32
    refine ⟨_, loop_nil h.ndone, fun h0 ht => ⟨[], [], rfl, trivial, Or.inr ⟨by rw [e4, h.ndone], ?_, Or.inl rfl⟩⟩⟩
    rw [e1, e2, h.off, h.tot, seg_take_len] at ht
    have := h.lt
    show 0 + 1 = _
    omega
  | cons f fs ih =>
    intro tg off0 c h
    have hproc := h.process f
    have hlt := h.lt
    have hoff := h.off
    rw [seg_take_len] at hoff
    by_cases h8 : f.dlc = 8
    · rw [if_neg (by simp [h8])] at hproc
      by_cases h4 : cs f.data = 4#8
      · rw [if_pos h4] at hproc
        exact ⟨_, loop_cons_false h.ndone hproc, fun h0 => absurd rfl h0⟩
      rw [if_neg h4] at hproc
      by_cases h5 : 5 ≤ (cs f.data).toNat
      · rw [if_pos h5] at hproc
        obtain ⟨c2, l1, l3⟩ := ih tg off0 c h
        refine ⟨c2, by rw [loop_cons_true h.ndone hproc]; exact l1, fun h0 ht => ?_⟩
        obtain ⟨used, unread, u1, u2, u3⟩ := l3 h0 ht
        exact ⟨f :: used, unread, by rw [u1]; rfl, by rw [answers_skip h8 h5]; exact u2, by rw [answers_skip h8 h5]; exact u3⟩
      rw [if_neg h5] at hproc
      have href : ∀ rs, c.processFrame f = .ok (c.refuse rs) →
          ∃ c2, c.loop (f :: fs) = .ok c2 ∧ (c2.offset ≠ 0 → c2.offset = c2.total →
            ∃ used unread, f :: fs = used ++ unread ∧ SegmentConfirms tg (answers used) ∧
        ((c2.done = true ∧ (answers used).length = (data.length - off0 + 6) / 7) ∨
          (c2.done = false ∧ (answers used).length + 1 = (data.length - off0 + 6) / 7 ∧ GaveUp unread))) := by
        intro rs hr
        obtain ⟨-, x2, x3, -⟩ := refuse_sent h.cur rs
        have : c.processFrame f = .ok ((c.refuse rs).1, false) := by rw [hr, ← x2]
        exact ⟨_, loop_cons_false h.ndone this, fun h0 => absurd x3 h0⟩
      by_cases h1 : cs f.data = 1#8
      · rw [if_neg (by simp [h1])] at hproc
        by_cases ht : flag f.data 4 = tg
        · rw [if_neg (by simp [ht])] at hproc
          have hkeep : ∀ l, answers (f :: l) = f :: answers l := fun l => answers_keep (by rw [h1]; decide) l
          by_cases hlast : c.offset < data.length
          · obtain ⟨c1, n1, n2, -⟩ := nextDownload_seg (tg := !tg) h.buf h.tot h.cur h.ndone h.hcid hlast
            rw [n1] at hproc
            obtain ⟨c2, l1, l3⟩ := ih (!tg) c.offset c1 n2
            refine ⟨c2, by rw [loop_cons_true h.ndone hproc]; exact l1, fun hn hot => ?_⟩
            obtain ⟨used, unread, u1, u2, u3⟩ := l3 hn hot
            refine ⟨f :: used, unread, by rw [u1]; rfl, by rw [hkeep]; exact ⟨h8, h1, ht, u2⟩, ?_⟩
            rw [hkeep, List.length_cons]
            rcases u3 with ⟨v1, v2⟩ | ⟨v1, v2, v3⟩
            · refine Or.inl ⟨v1, ?_⟩
              clear l3 ih
              omega
            · refine Or.inr ⟨v1, ?_, v3⟩
              clear l3 ih
              omega
          · rw [nextDownload_done (by rw [h.tot]; exact hlast)] at hproc
            refine ⟨_, by rw [loop_cons_true h.ndone hproc, loop_done rfl], fun _ _ => ⟨[f], fs, rfl, ?_, Or.inl ⟨rfl, ?_⟩⟩⟩
            · rw [hkeep]; exact ⟨h8, h1, ht, trivial⟩
            · rw [hkeep]; show 0 + 1 = _; omega
        · rw [if_pos ht] at hproc
          exact href _ hproc
      · rw [if_pos h1] at hproc
        exact href _ hproc
    · rw [if_pos h8] at hproc
      refine ⟨c, loop_cons_false h.ndone hproc, fun h0 ht => ⟨[], f :: fs, rfl, trivial, Or.inr ⟨h.ndone, ?_, Or.inr ⟨f, fs, rfl, h8⟩⟩⟩⟩
      rw [h.off, h.tot, seg_take_len] at ht
      show 0 + 1 = _
      omega

theorem downInit_loop (cid : Header) (o : Obj) (data : List Byte) : ∀ (frames : List Frame) (c : Client),
    WDownInit cid o data c →
    ∃ c2, c.loop frames = .ok c2 ∧ (c2.offset ≠ 0 → c2.offset = c2.total →
      ∃ used unread, frames = used ++ unread ∧ Confirms o (answers used) ∧
        ((c2.done = true ∧ (answers used).length = confirmsNeeded data) ∨
          (c2.done = false ∧ (answers used).length + 1 = confirmsNeeded data ∧ GaveUp unread))) := by
  intro frames
  induction frames with
  | nil =>
    intro c h
    obtain ⟨e1, e2, -, e4⟩ := abort_fields c 0x05040000#32
    refine ⟨_, loop_nil h.ndone, fun h0 ht => ⟨[], [], rfl, trivial, Or.inr ⟨by rw [e4, h.ndone], ?_, Or.inl rfl⟩⟩⟩
    rw [e1] at h0
    rw [h.off] at h0
    unfold confirmsNeeded
    show 0 + 1 = _
    by_cases h4 : data.length ≤ 4
    · simp [h4]
    · simp [h4] at h0
  | cons f fs ih =>
    intro c h
    obtain ⟨b, p, hb, hl⟩ := h.last
    have hproc := process_wait_downInit hb hl f
    by_cases h8 : f.dlc = 8
    · rw [if_neg (by simp [h8])] at hproc
      by_cases h4 : cs f.data = 4#8
      · rw [if_pos h4] at hproc
        exact ⟨_, loop_cons_false h.ndone hproc, fun h0 => absurd rfl h0⟩
      rw [if_neg h4] at hproc
      by_cases h5 : 5 ≤ (cs f.data).toNat
      · rw [if_pos h5] at hproc
        obtain ⟨c2, l1, l3⟩ := ih c h
        refine ⟨c2, by rw [loop_cons_true h.ndone hproc]; exact l1, fun h0 ht => ?_⟩
        obtain ⟨used, unread, u1, u2, u3⟩ := l3 h0 ht
        exact ⟨f :: used, unread, by rw [u1]; rfl, by rw [answers_skip h8 h5]; exact u2, by rw [answers_skip h8 h5]; exact u3⟩
      rw [if_neg h5] at hproc
      by_cases h3 : cs f.data ≠ 3#8 ∨ mux f.data ≠ o
      · rw [if_pos h3] at hproc
        obtain ⟨-, x2, x3, -⟩ := refuse_sent h.cur 0x08000000#32
        have : c.processFrame f = .ok ((c.refuse 0x08000000#32).1, false) := by rw [hproc, ← x2]
        exact ⟨_, loop_cons_false h.ndone this, fun h0 => absurd x3 h0⟩
      rw [if_neg h3] at hproc
      have hc3 : cs f.data = 3#8 := by by_cases hh : cs f.data = 3#8; exact hh; exact absurd (Or.inl hh) h3
      have hmx : mux f.data = o := by by_cases hh : mux f.data = o; exact hh; exact absurd (Or.inr hh) h3
      have hkeep : ∀ l, answers (f :: l) = f :: answers l := fun l => answers_keep (by rw [hc3]; decide) l
      by_cases hlast : c.offset < data.length
      · have hoff0 : c.offset = 0 ∧ ¬ data.length ≤ 4 := by
          rw [h.off] at hlast ⊢
          by_cases h4 : data.length ≤ 4
          · simp [h4] at hlast
          · simp [h4]
        obtain ⟨c1, n1, n2, -⟩ := nextDownload_seg (tg := false) h.buf h.tot h.cur h.ndone h.hcid hlast
        rw [n1] at hproc
        obtain ⟨c2, l1, l3⟩ := downSeg_loop cid o data fs false c.offset c1 n2
        refine ⟨c2, by rw [loop_cons_true h.ndone hproc]; exact l1, fun hn hot => ?_⟩
        obtain ⟨used, unread, u1, u2, u3⟩ := l3 hn hot
        refine ⟨f :: used, unread, by rw [u1]; rfl, by rw [hkeep]; exact ⟨h8, hc3, hmx, u2⟩, ?_⟩
        rw [hkeep, List.length_cons]
        unfold confirmsNeeded
        rw [if_neg hoff0.2]
        rw [hoff0.1, Nat.sub_zero] at u3
        rcases u3 with ⟨v1, v2⟩ | ⟨v1, v2, v3⟩
        · exact Or.inl ⟨v1, by omega⟩
        · exact Or.inr ⟨v1, by omega, v3⟩
      · rw [nextDownload_done (by rw [h.tot]; exact hlast)] at hproc
        refine ⟨_, by rw [loop_cons_true h.ndone hproc, loop_done rfl], fun hn _ => ⟨[f], fs, rfl, ?_, Or.inl ⟨rfl, ?_⟩⟩⟩
        · rw [hkeep]; exact ⟨h8, hc3, hmx, trivial⟩
        · rw [hkeep]
          unfold confirmsNeeded
          have hn' : c.offset ≠ 0 := hn
          rw [h.off] at hn'
          by_cases h4 : data.length ≤ 4
          · simp [h4]; rfl
          · simp [h4] at hn'
    · rw [if_pos h8] at hproc
      refine ⟨c, loop_cons_false h.ndone hproc, fun h0 ht => ⟨[], f :: fs, rfl, trivial, Or.inr ⟨h.ndone, ?_, Or.inr ⟨f, fs, rfl, h8⟩⟩⟩⟩
      rw [h.off] at h0
      unfold confirmsNeeded
      show 0 + 1 = _
      by_cases h4 : data.length ≤ 4
      · simp [h4]
      · simp [h4] at h0

/-! ## beginning of a transfer -/

theorem downloadInit_empty (h : Header) (o : Obj) : downloadInit h o [] = some (frame h (initFrame 0x23#8 o []), 0) := by
  unfold downloadInit
  rw [if_neg (by simp)]
  simp only [memRead, List.length_nil, Nat.add_zero, Nat.le_refl, if_true, List.drop_zero, List.take_nil]
  rw [memWrite_zeros4 [] (by simp), lo_eq, hi_eq]
  rfl

theorem begin_download (c0 : Client) (o : Obj) (data : List Byte) :
    ∃ c1, c0.begin o data false = .ok c1 ∧ WDownInit c0.clientId o data c1 ∧ c1.sent = c0.sent ++ [c1.lastMsg] := by
  have key : ∀ (f : Frame) (off : Nat), downloadInit c0.clientId o data = some (f, off) → off = (if data.length ≤ 4 then data.length else 0) →
      (∃ (b : Byte) (p : List Byte), b >>> 5 = 1#8 ∧ f = frame c0.clientId (initFrame b o p)) →
      ∃ c1, c0.begin o data false = .ok c1 ∧ WDownInit c0.clientId o data c1 ∧ c1.sent = c0.sent ++ [c1.lastMsg] := by
    intro f off hd ho hb
    refine ⟨Client.post { c0 with buffer := data, offset := off, total := data.length, current := some o, done := false } f, ?_, ?_, rfl⟩
    · unfold Client.begin
      simp only [Bool.false_eq_true, if_false]
      rw [hd]
    · exact ⟨rfl, ho, rfl, rfl, rfl, rfl, hb, ⟨c0.sent, rfl⟩⟩
  by_cases h4 : data.length ≤ 4
  · by_cases hne : data = []
    · subst hne
      exact key _ _ (downloadInit_empty _ _) rfl ⟨_, _, by decide, rfl⟩
    · have hpos : 1 ≤ data.length := by
        cases data with
        | nil => exact absurd rfl hne
        | cons a l => simp
      exact key _ _ (downloadInit_short _ _ _ hpos h4) (by rw [if_pos h4]) ⟨_, _, (expByte_eq data.length hpos h4).2.1, rfl⟩
  · exact key _ _ (downloadInit_long _ _ _ (by omega)) (by rw [if_neg h4]) ⟨_, _, by decide, rfl⟩

theorem begin_upload_wait (c0 : Client) (o : Obj) (data : List Byte) :
    ∃ c1, c0.begin o data true = .ok c1 ∧ WUpInit c0.clientId o data c1 ∧ c1.sent = c0.sent ++ [c1.lastMsg] := by
  obtain ⟨c1, b0, b1, b2, b3, b4, b5, b6, b7, b8⟩ := begin_upload c0 o data
  exact ⟨c1, b0, ⟨b1, b2, b3, b4, b5, b6, b7, ⟨_, b8⟩⟩, b8⟩

/-! ## waiting clients in general -/

inductive Waiting (cid : Header) (o : Obj) (data : List Byte) : Client → Prop
  | upInit {c : Client} : WUpInit cid o data c → Waiting cid o data c
  | upSeg {c : Client} {tg : Bool} {got : List Byte} : WUpSeg cid o tg got c → Waiting cid o data c
  | downInit {c : Client} : WDownInit cid o data c → Waiting cid o data c
  | downSeg {c : Client} {tg : Bool} {off0 : Nat} : WDownSeg cid o data tg off0 c → Waiting cid o data c

theorem Waiting.facts {cid : Header} {o : Obj} {data : List Byte} {c : Client} (h : Waiting cid o data c) :
    c.current = some o ∧ c.done = false ∧ c.clientId = cid ∧ (∃ s, c.sent = s ++ [c.lastMsg]) ∧ (cs c.lastMsg.data).toNat ≤ 3 := by
  cases h with
  | upInit h => exact ⟨h.cur, h.ndone, h.hcid, h.sent, by rw [h.last]; show (cs (initFrame _ _ _)).toNat ≤ 3; rw [cs_initFrame]; decide⟩
  | upSeg h => exact ⟨h.cur, h.ndone, h.hcid, h.sent, by rw [h.last]; show (cs (shortFrame _)).toNat ≤ 3; rw [cs_short]; decide⟩
  | downInit h =>
    obtain ⟨b, p, hb, hl⟩ := h.last
    exact ⟨h.cur, h.ndone, h.hcid, h.sent, by rw [hl]; show (cs (initFrame _ _ _)).toNat ≤ 3; rw [cs_initFrame, hb]; decide⟩
  | downSeg h =>
    obtain ⟨l, hl⟩ := h.last
    exact ⟨h.cur, h.ndone, h.hcid, h.sent, by
      rw [hl]; show (cs (segFrame _ _ _ _)).toNat ≤ 3; rw [(segFrame_parse _ _ _ (by rw [seg_take_len]; omega)).1]; decide⟩

/-- the last frame sent is not the time-out abort -/
def NoTimeout (cid : Header) (o : Obj) (c : Client) : Prop := ∃ s r, c.sent = s ++ [r] ∧ r ≠ abortOf cid o 0x05040000#32

theorem abort_cs (cid : Header) (o : Obj) (code : BitVec 32) : cs (abortOf cid o code).data = 4#8 := by
  show cs (initFrame _ _ _) = _
  rw [cs_initFrame]; decide

theorem request_ne_abort {f : Frame} (h : (cs f.data).toNat ≤ 3) (cid : Header) (o : Obj) (code : BitVec 32) : f ≠ abortOf cid o code := by
  intro e
  rw [e, abort_cs] at h
  exact absurd h (by decide)

theorem word_abort (cid : Header) (o : Obj) (code : BitVec 32) : word (abortOf cid o code).data = code := by
  show (code.extractLsb' 24 8 ++ code.extractLsb' 16 8 ++ code.extractLsb' 8 8 ++ code.extractLsb' 0 8 : BitVec 32) = code
  apply BitVec.eq_of_getLsbD_eq
  intro k hk
  simp only [BitVec.getLsbD_append, BitVec.getLsbD_extractLsb']
  by_cases h1 : k < 8
  · simp [h1]
  · by_cases h2 : k - 8 < 8
    · simp [h1, h2]
      rw [show 8 + (k - 8) = k from by omega]
    · by_cases h3 : k - 8 - 8 < 8
      · simp [h1, h2, h3]
        rw [show 16 + (k - 8 - 8) = k from by omega]
      · simp [h1, h2, h3]
        rw [show 24 + (k - 8 - 8 - 8) = k from by omega]
        have : k - 8 - 8 - 8 < 8 := by omega
        simp [this]

theorem abort_ne {code code' : BitVec 32} (h : code ≠ code') (cid : Header) (o : Obj) : abortOf cid o code ≠ abortOf cid o code' := by
  intro e
  have := congrArg (fun f : Frame => word f.data) e
  simp only [word_abort] at this
  exact h this

theorem noTimeout_of_sent {cid : Header} {o : Obj} {data : List Byte} {c c' : Client} (h : Waiting cid o data c) (hs : c'.sent = c.sent) :
    NoTimeout cid o c' := by
  obtain ⟨-, -, -, ⟨s, hs'⟩, h3⟩ := h.facts
  exact ⟨s, c.lastMsg, by rw [hs, hs'], request_ne_abort h3 _ _ _⟩

theorem noTimeout_refuse {cid : Header} {o : Obj} {data : List Byte} {c : Client} (h : Waiting cid o data c) {rs : BitVec 32}
    (hr : rs ≠ 0x05040000#32) : NoTimeout cid o (c.refuse rs).1 := by
  obtain ⟨h1, -, h2, -, -⟩ := h.facts
  obtain ⟨x1, -⟩ := refuse_sent h1 rs
  exact ⟨c.sent, _, x1, by rw [h2]; exact abort_ne hr _ _⟩

/-- one step of a waiting client -/
theorem Waiting.step {cid : Header} {o : Obj} {data : List Byte} {c : Client} (h : Waiting cid o data c) (f : Frame) :
    ∃ c' b, c.processFrame f = .ok (c', b) ∧ ((b = true ∧ Waiting cid o data c') ∨ ((b = false ∨ c'.done = true) ∧ NoTimeout cid o c')) := by
  have href : ∀ rs, rs ≠ 0x05040000#32 → c.processFrame f = .ok (c.refuse rs) →
      ∃ c' b, c.processFrame f = .ok (c', b) ∧ ((b = true ∧ Waiting cid o data c') ∨ ((b = false ∨ c'.done = true) ∧ NoTimeout cid o c')) := by
    intro rs hr hp
    refine ⟨(c.refuse rs).1, (c.refuse rs).2, hp, Or.inr ⟨Or.inl rfl, noTimeout_refuse h hr⟩⟩
  have hsame : ∀ c', c.processFrame f = .ok (c', false) → c'.sent = c.sent →
      ∃ c' b, c.processFrame f = .ok (c', b) ∧ ((b = true ∧ Waiting cid o data c') ∨ ((b = false ∨ c'.done = true) ∧ NoTimeout cid o c')) := by
    intro c' hp hs
    exact ⟨c', false, hp, Or.inr ⟨Or.inl rfl, noTimeout_of_sent h hs⟩⟩
  have hw := h
  by_cases h8 : f.dlc = 8
  · by_cases h4 : cs f.data = 4#8
    · have : c.processFrame f = .ok ({ c with offset := 0 }, false) := by
        cases h with
        | upInit h => rw [process_wait_init h.last, if_neg (by simp [h8]), if_pos h4]
        | upSeg h => rw [process_wait_segment h.last, if_neg (by simp [h8]), if_pos h4]
        | downInit h =>
          obtain ⟨b, p, hb, hl⟩ := h.last
          rw [process_wait_downInit hb hl, if_neg (by simp [h8]), if_pos h4]
        | downSeg h => rw [h.process, if_neg (by simp [h8]), if_pos h4]
      exact hsame _ this rfl
    · by_cases h5 : 5 ≤ (cs f.data).toNat
      · have : c.processFrame f = .ok (c, true) := by
          cases h with
          | upInit h => rw [process_wait_init h.last, if_neg (by simp [h8]), if_neg h4, if_pos h5]
          | upSeg h => rw [process_wait_segment h.last, if_neg (by simp [h8]), if_neg h4, if_pos h5]
          | downInit h =>
            obtain ⟨b, p, hb, hl⟩ := h.last
            rw [process_wait_downInit hb hl, if_neg (by simp [h8]), if_neg h4, if_pos h5]
          | downSeg h => rw [h.process, if_neg (by simp [h8]), if_neg h4, if_pos h5]
        exact ⟨c, true, this, Or.inl ⟨rfl, hw⟩⟩
      · cases h with
        | upInit h =>
          have hproc := process_wait_init h.last f
          rw [if_neg (by simp [h8]), if_neg h4, if_neg h5, h.tot] at hproc
          by_cases h2 : cs f.data ≠ 2#8 ∨ mux f.data ≠ o
          · rw [if_pos h2] at hproc; exact href _ (by decide) hproc
          rw [if_neg h2] at hproc
          have hc2 : cs f.data = 2#8 := by by_cases hh : cs f.data = 2#8; exact hh; exact absurd (Or.inl hh) h2
          have hmx : mux f.data = o := by by_cases hh : mux f.data = o; exact hh; exact absurd (Or.inr hh) h2
          by_cases hs : announced f.data ≠ 0 ∧ data.length ≠ 0 ∧ announced f.data < data.length
          · rw [if_pos hs] at hproc; exact href _ (by decide) hproc
          rw [if_neg hs] at hproc
          by_cases hx : flag f.data 1 = true ∧ 4 < data.length
          · rw [if_pos hx] at hproc; exact href _ (by decide) hproc
          obtain ⟨c1, p1, p2, p3⟩ := init_step h h8 hc2 hmx hs hx
          rcases p3 with ⟨-, d1, -, -, -, d2⟩ | ⟨-, w1, -⟩
          · exact ⟨c1, true, p1, Or.inr ⟨Or.inr d1, noTimeout_of_sent hw d2⟩⟩
          · exact ⟨c1, true, p1, Or.inl ⟨rfl, .upSeg w1⟩⟩
        | upSeg h =>
          rename_i tg got
          have hproc := process_wait_segment h.last f
          rw [if_neg (by simp [h8]), if_neg h4, if_neg h5] at hproc
          by_cases h0 : cs f.data = 0#8
          · rw [if_neg (by simp [h0])] at hproc
            by_cases ht : flag f.data 4 = tg
            · rw [if_neg (by simp [ht])] at hproc
              by_cases hf : c.total = 0 ∨ c.offset + segSize f.data ≤ c.total
              · obtain ⟨c1, p1, p2, p3⟩ := segment_step h h8 h0 ht hf
                rcases p3 with ⟨d1, -, -, d2⟩ | ⟨w1, -⟩
                · exact ⟨c1, true, p1, Or.inr ⟨Or.inr d1, noTimeout_of_sent hw d2⟩⟩
                · exact ⟨c1, true, p1, Or.inl ⟨rfl, .upSeg w1⟩⟩
              · rw [readSegment_over c f.data got h.inv (by omega)] at hproc
                exact href _ (by decide) hproc
            · rw [if_pos ht] at hproc
              exact href _ (by decide) hproc
          · rw [if_pos h0] at hproc
            exact href _ (by decide) hproc
        | downInit h =>
          obtain ⟨b, p, hb, hl⟩ := h.last
          have hproc := process_wait_downInit hb hl f
          rw [if_neg (by simp [h8]), if_neg h4, if_neg h5] at hproc
          by_cases h3 : cs f.data ≠ 3#8 ∨ mux f.data ≠ o
          · rw [if_pos h3] at hproc; exact href _ (by decide) hproc
          rw [if_neg h3] at hproc
          by_cases hlast : c.offset < data.length
          · obtain ⟨c1, n1, n2, -⟩ := nextDownload_seg (tg := false) h.buf h.tot h.cur h.ndone h.hcid hlast
            rw [n1] at hproc
            exact ⟨c1, true, hproc, Or.inl ⟨rfl, .downSeg n2⟩⟩
          · rw [nextDownload_done (by rw [h.tot]; exact hlast)] at hproc
            exact ⟨_, true, hproc, Or.inr ⟨Or.inr rfl, noTimeout_of_sent hw rfl⟩⟩
        | downSeg h =>
          rename_i tg off0
          have hproc := h.process f
          rw [if_neg (by simp [h8]), if_neg h4, if_neg h5] at hproc
          by_cases h1 : cs f.data = 1#8
          · rw [if_neg (by simp [h1])] at hproc
            by_cases ht : flag f.data 4 = tg
            · rw [if_neg (by simp [ht])] at hproc
              by_cases hlast : c.offset < data.length
              · obtain ⟨c1, n1, n2, -⟩ := nextDownload_seg (tg := !tg) h.buf h.tot h.cur h.ndone h.hcid hlast
                rw [n1] at hproc
                exact ⟨c1, true, hproc, Or.inl ⟨rfl, .downSeg n2⟩⟩
              · rw [nextDownload_done (by rw [h.tot]; exact hlast)] at hproc
                exact ⟨_, true, hproc, Or.inr ⟨Or.inr rfl, noTimeout_of_sent hw rfl⟩⟩
            · rw [if_pos ht] at hproc
              exact href _ (by decide) hproc
          · rw [if_pos h1] at hproc
            exact href _ (by decide) hproc
  · have : c.processFrame f = .ok (c, false) := by
      cases h with
      | upInit h => rw [process_wait_init h.last, if_pos h8]
      | upSeg h => rw [process_wait_segment h.last, if_pos h8]
      | downInit h =>
        obtain ⟨b, p, hb, hl⟩ := h.last
        rw [process_wait_downInit hb hl, if_pos h8]
      | downSeg h => rw [h.process, if_pos h8]
    exact hsame _ this rfl

/-- the client took in all of `fs` and still waits -/
inductive Fed : Client → List Frame → Client → Prop
  | nil {c : Client} : Fed c [] c
  | cons {c c1 c2 : Client} {f : Frame} {fs : List Frame} : c.done = false → c.processFrame f = .ok (c1, true) → Fed c1 fs c2 → Fed c (f :: fs) c2

theorem Fed.loop_append {c c' : Client} {fs : List Frame} (h : Fed c fs c') (post : List Frame) : c.loop (fs ++ post) = c'.loop post := by
  induction h with
  | nil => rfl
  | cons hd hp _ ih => rw [List.cons_append, loop_cons_true hd hp]; exact ih

theorem fed_of_timeout {cid : Header} {o : Obj} {data : List Byte} : ∀ (pre : List Frame) (c c2 : Client) (s : List Frame) (req : Frame),
    Waiting cid o data c → c.loop pre = .ok c2 → c2.sent = s ++ [req, abortOf cid o 0x05040000#32] →
    ∃ c', Fed c pre c' ∧ Waiting cid o data c' ∧ c'.sent = s ++ [req] ∧ c'.lastMsg = req := by
  intro pre
  induction pre with
  | nil =>
    intro c c2 s req hw hl hs
    obtain ⟨f1, f2, f3, ⟨s', f4⟩, -⟩ := hw.facts
    rw [loop_nil f2] at hl
    cases hl
    rw [abort_eq f1] at hs
    have hs' : c.sent ++ [abortOf c.clientId o 0x05040000#32] = (s ++ [req]) ++ [abortOf cid o 0x05040000#32] := by rw [List.append_assoc]; exact hs
    have e := (List.append_inj' hs' rfl).1
    refine ⟨c, .nil, hw, e, ?_⟩
    rw [f4] at e
    have := (List.append_inj' e rfl).2
    simpa using this
  | cons f fs ih =>
    intro c c2 s req hw hl hs
    obtain ⟨f1, f2, f3, f4, -⟩ := hw.facts
    have hno : ∀ c', NoTimeout cid o c' → c' = c2 → False := by
      rintro c' ⟨s', r, h1, h2⟩ rfl
      rw [h1] at hs
      have hs' : s' ++ [r] = (s ++ [req]) ++ [abortOf cid o 0x05040000#32] := by rw [List.append_assoc]; exact hs
      have := (List.append_inj' hs' rfl).2
      simp at this
      exact h2 this
    obtain ⟨c', b, hp, hcase⟩ := hw.step f
    rcases hcase with ⟨hb, hw'⟩ | ⟨hb, hn⟩
    · subst hb
      rw [loop_cons_true f2 hp] at hl
      obtain ⟨c3, t1, t2, t3, t4⟩ := ih c' c2 s req hw' hl hs
      exact ⟨c3, .cons f2 hp t1, t2, t3, t4⟩
    · cases b with
      | false =>
        rw [loop_cons_false f2 hp] at hl
        cases hl
        exact (hno _ hn rfl).elim
      | true =>
        have hd : c'.done = true := by simpa using hb
        rw [loop_cons_true f2 hp, loop_done hd] at hl
        cases hl
        exact (hno _ hn rfl).elim

/-- the history of an upload the client still waits in -/
theorem fed_segments {cid : Header} {o : Obj} {tg : Bool} {got : List Byte} {c c' : Client} {fs : List Frame} (h : WUpSeg cid o tg got c)
    (hf : Fed c fs c') (hd : c'.done = false) :
    ∃ tg', WUpSeg cid o tg' (got ++ carried (answers fs)) c' ∧ c'.total = c.total := by
  induction hf generalizing tg got with
  | nil => exact ⟨tg, by simpa [answers, carried] using h, rfl⟩
  | @cons c c1 c2 f fs hd0 hp hrest ih =>
    have hproc := process_wait_segment h.last f
    rw [hp] at hproc
    by_cases h8 : f.dlc = 8
    · rw [if_neg (by simp [h8])] at hproc
      by_cases h4 : cs f.data = 4#8
      · rw [if_pos h4] at hproc; simp at hproc
      rw [if_neg h4] at hproc
      by_cases h5 : 5 ≤ (cs f.data).toNat
      · rw [if_pos h5] at hproc
        simp only [Outcome.ok.injEq, Prod.mk.injEq, and_true] at hproc
        rw [hproc] at ih
        obtain ⟨tg', w, e⟩ := ih h hd
        exact ⟨tg', by rw [answers_skip h8 h5]; exact w, e⟩
      rw [if_neg h5] at hproc
      by_cases h0 : cs f.data = 0#8
      · rw [if_neg (by simp [h0])] at hproc
        by_cases ht : flag f.data 4 = tg
        · rw [if_neg (by simp [ht])] at hproc
          by_cases hf : c.total = 0 ∨ c.offset + segSize f.data ≤ c.total
          · obtain ⟨c1', p1, p2, p3⟩ := segment_step h h8 h0 ht hf
            rw [hp] at p1
            simp only [Outcome.ok.injEq, Prod.mk.injEq, and_true] at p1
            subst p1
            rcases p3 with ⟨d1, -, -, -⟩ | ⟨w1, -⟩
            · cases hrest with
              | nil => rw [hd] at d1; cases d1
              | cons hd1 _ _ => rw [hd1] at d1; cases d1
            · obtain ⟨tg', w, e⟩ := ih w1 hd
              refine ⟨tg', ?_, by rw [e, p2]⟩
              rw [answers_keep (by rw [h0]; decide)]
              simpa [carried] using w
          · rw [readSegment_over c f.data got h.inv (by omega)] at hproc
            have := (refuse_sent h.cur 0x06070010#32).2.1
            simp [afterSegment, Client.refuse] at hproc
        · rw [if_pos ht] at hproc
          simp [Client.refuse] at hproc
      · rw [if_pos h0] at hproc
        simp [Client.refuse] at hproc
    · rw [if_pos h8] at hproc; simp at hproc

theorem fed_upload {cid : Header} {o : Obj} {data : List Byte} {c c' : Client} {fs : List Frame} (h : WUpInit cid o data c)
    (hf : Fed c fs c') (hd : c'.done = false) :
    (WUpInit cid o data c') ∨
    (∃ f segs tg, answers fs = f :: segs ∧ WUpSeg cid o tg (carried segs) c' ∧ c'.total = sizeAfter data.length f.data ∧
      f.dlc = 8 ∧ cs f.data = 2#8 ∧ mux f.data = o ∧ flag f.data 1 = false) := by
  induction hf with
  | nil => exact Or.inl h
  | @cons c c1 c2 f fs hd0 hp hrest ih =>
    have hproc := process_wait_init h.last f
    rw [hp] at hproc
    by_cases h8 : f.dlc = 8
    · rw [if_neg (by simp [h8])] at hproc
      by_cases h4 : cs f.data = 4#8
      · rw [if_pos h4] at hproc; simp at hproc
      rw [if_neg h4] at hproc
      by_cases h5 : 5 ≤ (cs f.data).toNat
      · rw [if_pos h5] at hproc
        simp only [Outcome.ok.injEq, Prod.mk.injEq, and_true] at hproc
        rw [hproc] at ih
        rw [answers_skip h8 h5]
        exact ih h hd
      rw [if_neg h5, h.tot] at hproc
      by_cases h2 : cs f.data ≠ 2#8 ∨ mux f.data ≠ o
      · rw [if_pos h2] at hproc; simp [Client.refuse] at hproc
      rw [if_neg h2] at hproc
      have hc2 : cs f.data = 2#8 := by by_cases hh : cs f.data = 2#8; exact hh; exact absurd (Or.inl hh) h2
      have hmx : mux f.data = o := by by_cases hh : mux f.data = o; exact hh; exact absurd (Or.inr hh) h2
      by_cases hs : announced f.data ≠ 0 ∧ data.length ≠ 0 ∧ announced f.data < data.length
      · rw [if_pos hs] at hproc; simp [Client.refuse] at hproc
      rw [if_neg hs] at hproc
      by_cases hx : flag f.data 1 = true ∧ 4 < data.length
      · rw [if_pos hx] at hproc; simp [Client.refuse] at hproc
      obtain ⟨c1', p1, p2, p3⟩ := init_step h h8 hc2 hmx hs hx
      rw [hp] at p1
      simp only [Outcome.ok.injEq, Prod.mk.injEq, and_true] at p1
      subst p1
      rcases p3 with ⟨-, d1, -⟩ | ⟨w0, w1, -⟩
      · cases hrest with
        | nil => rw [hd] at d1; cases d1
        | cons hd1 _ _ => rw [hd1] at d1; cases d1
      · obtain ⟨tg', w, e⟩ := fed_segments w1 hrest hd
        right
        refine ⟨f, answers fs, tg', answers_keep (by rw [hc2]; decide) _, by simpa using w, by rw [e, p2], h8, hc2, hmx, w0⟩
    · rw [if_pos h8] at hproc; simp at hproc

end Verif.Sdo
