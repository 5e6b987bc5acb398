import Verif.Lemmas.SdoMore
import Verif.Lemmas.Text
import Verif.Spec.SdoLog

namespace Verif.Sdo
open Verif Verif.Spec.Sdo

theorem lookup_cons_text (r k : BitVec 32) (v d : String) (t : List (BitVec 32 × String)) :
    ((((k, v) :: t).lookup r).getD d).toList = if r = k then v.toList else ((t.lookup r).getD d).toList := by
  rw [List.lookup]
  by_cases h : r = k
  · subst h; simp
  · have : (r == k) = false := by simp [h]
    rw [this, if_neg h]

theorem lookup_nil_text (r : BitVec 32) (d : String) : ((([] : List (BitVec 32 × String)).lookup r).getD d).toList = d.toList := rfl

theorem abortText_eq (r : BitVec 32) : abortText r = meaning r := by
  unfold meaning abortTable
  repeat rw [lookup_cons_text]
  rfl

theorem reason_eq (d : Bytes8) : reason d = word d := rfl

theorem frameLog_true {c c' : Client} {f : Frame} (h : c.processFrame f = .ok (c', true)) : c.frameLog f = [] := by
  unfold Client.processFrame at h
  unfold Client.frameLog
  by_cases h8 : (f.dlc != 8) = true
  · rw [if_pos h8]
  rw [if_neg h8] at h ⊢
  by_cases h0 : command f.data = 0
  · rw [if_pos h0]
    rw [if_neg (by omega), if_neg (by omega), if_neg (by omega), if_pos h0] at h
    cases ht : testUploadSegment f.data c.lastMsg.data with
    | some rs => rfl
    | none =>
      rw [ht] at h
      dsimp only at h ⊢
      cases hr : c.readSegment f.data with
      | ub => rfl
      | throws e => cases e
      | ok p =>
        obtain ⟨c1, b⟩ := p
        cases b with
        | true => rfl
        | false =>
          rw [hr] at h
          simp only [afterSegment, Client.refuse, Outcome.ok.injEq, Prod.mk.injEq] at h
          exact absurd h.2 (by simp)
  rw [if_neg h0]
  by_cases h4 : command f.data = 4
  · rw [if_neg (by omega), if_neg (by omega), if_neg (by omega), if_neg (by omega), if_pos h4] at h
    simp at h
  · rw [if_neg h4]

theorem loopLog_done {c : Client} (hd : c.done = true) (fs : List Frame) : c.loopLog fs = [] := by
  cases fs <;> simp [Client.loopLog, hd]

theorem loopLog_true {c c' : Client} {f : Frame} {fs : List Frame} (hd : c.done = false) (hp : c.processFrame f = .ok (c', true)) :
    c.loopLog (f :: fs) = c'.loopLog fs := by
  simp [Client.loopLog, hd, hp, frameLog_true hp]

theorem loopLog_false {c c' : Client} {f : Frame} {fs : List Frame} (hd : c.done = false) (hp : c.processFrame f = .ok (c', false)) :
    c.loopLog (f :: fs) = c.frameLog f ++ [failedLine] := by
  simp [Client.loopLog, hd, hp]; rfl

theorem loopLog_nil {c : Client} (hd : c.done = false) : c.loopLog [] = [silenceLine] := by
  simp [Client.loopLog, hd]; rfl

theorem Fed.loopLog_append {c c' : Client} {fs : List Frame} (h : Fed c fs c') (post : List Frame) : c.loopLog (fs ++ post) = c'.loopLog post := by
  induction h with
  | nil => rfl
  | cons hd hp _ ih => rw [List.cons_append, loopLog_true hd hp]; exact ih

/-- a frame that ends a transfer before its time -/
theorem frameLog_cases (c : Client) (f : Frame) : c.frameLog f = [] ∨ (f.dlc = 8 ∧ cs f.data = 4#8 ∧ c.frameLog f = [abortLine f.data]) ∨
    (f.dlc = 8 ∧ cs f.data = 0#8 ∧ ∃ size n, c.frameLog f = [mismatchLine size n]) := by
  unfold Client.frameLog
  by_cases h8 : f.dlc = 8
  · rw [if_neg (by simp [h8]), command_eq]
    by_cases h0 : (cs f.data).toNat = 0
    · rw [if_pos h0]
      have h0' : cs f.data = 0#8 := by apply BitVec.eq_of_toNat_eq; rw [h0]; rfl
      split
      · exact Or.inl rfl
      · split
        · exact Or.inr (Or.inr ⟨h8, h0', _, _, rfl⟩)
        · exact Or.inl rfl
    · rw [if_neg h0]
      by_cases h4 : (cs f.data).toNat = 4
      · rw [if_pos h4]
        exact Or.inr (Or.inl ⟨h8, by apply BitVec.eq_of_toNat_eq; rw [h4]; rfl, rfl⟩)
      · rw [if_neg h4]; exact Or.inl rfl
  · rw [if_pos (bne_iff_ne.mpr h8)]; exact Or.inl rfl

/-- a step of a waiting client, with what ends the transfer -/
theorem Waiting.step_end {cid : Header} {o : Obj} {data : List Byte} {c : Client} (h : Waiting cid o data c) (f : Frame) :
    ∃ c' b, c.processFrame f = .ok (c', b) ∧
      ((b = true ∧ Waiting cid o data c') ∨
       (b = true ∧ c'.done = true) ∨
       (b = false ∧ c'.done = false)) := by
  obtain ⟨c', b, hp, hc⟩ := h.step f
  refine ⟨c', b, hp, ?_⟩
  rcases hc with ⟨h1, h2⟩ | ⟨h1, -⟩
  · exact Or.inl ⟨h1, h2⟩
  · cases b with
    | true => exact Or.inr (Or.inl ⟨rfl, by simpa using h1⟩)
    | false =>
      refine Or.inr (Or.inr ⟨rfl, ?_⟩)
      have hd := h.facts.2.1
      have hr : ∀ rs, (c.refuse rs).1.done = false := fun rs => by rw [(refuse_sent h.facts.1 rs).2.2.2.2.2]; exact hd
      have hn : ∀ tg x, c.nextDownload tg = .ok (x, false) → False := by
        intro tg x hx
        unfold Client.nextDownload at hx
        repeat' (split at hx)
        all_goals simp_all
      unfold Client.processFrame at hp
      split at hp
      · cases hp; exact hd
      split at hp
      · split at hp
        · simp only [Outcome.ok.injEq] at hp; have := hr ‹_›; rw [hp] at this; exact this
        · exact (hn _ _ hp).elim
      split at hp
      · split at hp
        · simp only [Outcome.ok.injEq] at hp; have := hr ‹_›; rw [hp] at this; exact this
        · exact (hn _ _ hp).elim
      split at hp
      · split at hp
        · simp only [Outcome.ok.injEq] at hp; have := hr ‹_›; rw [hp] at this; exact this
        · exfalso
          unfold afterInit at hp
          split at hp
          · simp at hp
          · simp at hp
          · rename_i e _; cases e
          · cases hp
      split at hp
      · split at hp
        · simp only [Outcome.ok.injEq] at hp; have := hr ‹_›; rw [hp] at this; exact this
        · unfold afterSegment at hp
          cases hrs : c.readSegment f.data with
          | ub => rw [hrs] at hp; cases hp
          | throws e => cases e
          | ok p =>
            obtain ⟨c1, b1⟩ := p
            rw [hrs] at hp
            cases b1 with
            | true =>
              exfalso
              dsimp only at hp
              split at hp <;> simp at hp
            | false =>
              simp only [Outcome.ok.injEq] at hp
              have hc1 : c1.done = c.done := by
                unfold Client.readSegment at hrs
                dsimp only at hrs
                repeat' (split at hrs)
                all_goals simp at hrs
                rw [← hrs]; exact (grow_fields c _).2.2.1
              have : (c1.refuse 0x06070010#32).1.done = c1.done := by
                unfold Client.refuse Client.abort
                dsimp only
                split <;> rfl
              rw [hp] at this
              rw [this, hc1]; exact hd
      split at hp
      · cases hp; exact hd
      · cases hp

/-- the log of a waiting client is empty exactly if the transfer came to its regular end -/
theorem loopLog_waiting {cid : Header} {o : Obj} {data : List Byte} : ∀ (frames : List Frame) {c : Client}, Waiting cid o data c →
    ∃ c2, c.loop frames = .ok c2 ∧
      ((c2.done = true ∧ c.loopLog frames = []) ∨
       (c2.done = false ∧ ((c.loopLog frames = [silenceLine] ∧ ∃ w, Fed c frames w) ∨
          ∃ used f rest w, frames = used ++ f :: rest ∧ Fed c used w ∧ w.processFrame f = .ok (c2, false) ∧
            c.loopLog frames = w.frameLog f ++ [failedLine]))) := by
  intro frames
  induction frames with
  | nil =>
    intro c h
    have hd := h.facts.2.1
    refine ⟨_, loop_nil hd, Or.inr ⟨by rw [(abort_fields c _).2.2.2]; exact hd, Or.inl ⟨loopLog_nil hd, c, .nil⟩⟩⟩
  | cons f fs ih =>
    intro c h
    have hd := h.facts.2.1
    obtain ⟨c', b, hp, hc⟩ := h.step_end f
    rcases hc with ⟨rfl, hw⟩ | ⟨rfl, hd'⟩ | ⟨rfl, hd'⟩
    · obtain ⟨c2, g1, g2⟩ := ih hw
      refine ⟨c2, by rw [loop_cons_true hd hp]; exact g1, ?_⟩
      rw [loopLog_true hd hp]
      rcases g2 with g | ⟨g2, ⟨g3, w, g4⟩ | ⟨used, f', rest, w, g3, g4, g6, g5⟩⟩
      · exact Or.inl g
      · exact Or.inr ⟨g2, Or.inl ⟨g3, w, .cons hd hp g4⟩⟩
      · exact Or.inr ⟨g2, Or.inr ⟨f :: used, f', rest, w, by rw [g3]; rfl, .cons hd hp g4, g6, g5⟩⟩
    · refine ⟨c', by rw [loop_cons_true hd hp]; exact loop_done hd' _, Or.inl ⟨hd', ?_⟩⟩
      rw [loopLog_true hd hp]; exact loopLog_done hd' _
    · exact ⟨c', loop_cons_false hd hp, Or.inr ⟨hd', Or.inr ⟨[], f, fs, c, rfl, .nil, hp, loopLog_false hd hp⟩⟩⟩

/-- a frame of the right length that ends a transfer with a failure resets the offset -/
theorem process_false_offset {c c' : Client} {f : Frame} (h8 : f.dlc = 8) (hp : c.processFrame f = .ok (c', false)) : c'.offset = 0 := by
  have hr : ∀ (x : Client) rs, (x.refuse rs).1.offset = 0 := fun _ _ => rfl
  have hn : ∀ tg x, c.nextDownload tg = .ok (x, false) → False := by
    intro tg x hx
    unfold Client.nextDownload at hx
    repeat' (split at hx)
    all_goals simp_all
  unfold Client.processFrame at hp
  rw [if_neg (by simp [h8])] at hp
  split at hp
  · split at hp
    · simp only [Outcome.ok.injEq] at hp; have := hr c ‹_›; rw [hp] at this; exact this
    · exact (hn _ _ hp).elim
  split at hp
  · split at hp
    · simp only [Outcome.ok.injEq] at hp; have := hr c ‹_›; rw [hp] at this; exact this
    · exact (hn _ _ hp).elim
  split at hp
  · split at hp
    · simp only [Outcome.ok.injEq] at hp; have := hr c ‹_›; rw [hp] at this; exact this
    · exfalso
      unfold afterInit at hp
      split at hp
      · simp at hp
      · simp at hp
      · rename_i e _; cases e
      · cases hp
  split at hp
  · split at hp
    · simp only [Outcome.ok.injEq] at hp; have := hr c ‹_›; rw [hp] at this; exact this
    · unfold afterSegment at hp
      split at hp
      · split at hp <;> simp at hp
      · simp only [Outcome.ok.injEq] at hp; have := hr ‹_› 0x06070010#32; rw [hp] at this; exact this
      · rename_i e _; cases e
      · cases hp
  split at hp
  · simp only [Outcome.ok.injEq, Prod.mk.injEq, and_true] at hp; rw [← hp]
  · cases hp

/-! ## how uploads and downloads end -/

/-- a client that waits in an upload -/
def UpW (cid : Header) (o : Obj) (data : List Byte) (c : Client) : Prop := WUpInit cid o data c ∨ ∃ tg got, WUpSeg cid o tg got c

/-- a client that waits in a download -/
def DownW (cid : Header) (o : Obj) (data : List Byte) (c : Client) : Prop := WDownInit cid o data c ∨ ∃ tg off0, WDownSeg cid o data tg off0 c

theorem UpW.waiting {cid : Header} {o : Obj} {data : List Byte} {c : Client} (h : UpW cid o data c) : Waiting cid o data c := by
  rcases h with h | ⟨_, _, h⟩
  · exact .upInit h
  · exact .upSeg h

theorem DownW.waiting {cid : Header} {o : Obj} {data : List Byte} {c : Client} (h : DownW cid o data c) : Waiting cid o data c := by
  rcases h with h | ⟨_, _, h⟩
  · exact .downInit h
  · exact .downSeg h

theorem UpW.part {cid : Header} {o : Obj} {data : List Byte} {c : Client} (h : UpW cid o data c) : c.offset = 0 ∨ c.offset ≠ c.total := by
  rcases h with h | ⟨_, _, h⟩
  · exact Or.inl h.off
  · exact h.part

/-- the answer with which the server ends an upload -/
def UpFinal (o : Obj) (f : Frame) (c' : Client) : Prop :=
  f.dlc = 8 ∧ ((cs f.data = 2#8 ∧ mux f.data = o ∧ flag f.data 1 = true) ∨
    (cs f.data = 0#8 ∧ (flag f.data 0 = true ∨ (c'.offset = c'.total ∧ (c'.offset = 0 → segmentBytes f.data = [])))))

theorem up_step {cid : Header} {o : Obj} {data : List Byte} {c : Client} (h : UpW cid o data c) (f : Frame) :
    ∃ c' b, c.processFrame f = .ok (c', b) ∧
      ((b = true ∧ UpW cid o data c') ∨ (b = true ∧ c'.done = true ∧ UpFinal o f c') ∨ (b = false ∧ (c'.offset = 0 ∨ c'.offset ≠ c'.total))) := by
  have hcur : c.current = some o := h.waiting.facts.1
  have href : ∀ rs, c.processFrame f = .ok (c.refuse rs) → ∃ c' b, c.processFrame f = .ok (c', b) ∧
      ((b = true ∧ UpW cid o data c') ∨ (b = true ∧ c'.done = true ∧ UpFinal o f c') ∨ (b = false ∧ (c'.offset = 0 ∨ c'.offset ≠ c'.total))) := by
    intro rs hp
    exact ⟨_, _, hp, Or.inr (Or.inr ⟨rfl, Or.inl (refuse_sent hcur rs).2.2.1⟩)⟩
  have hw := h
  by_cases h8 : f.dlc = 8
  · by_cases h4 : cs f.data = 4#8
    · have : c.processFrame f = .ok ({ c with offset := 0 }, false) := by
        rcases h with h | ⟨tg, got, h⟩
        · rw [process_wait_init h.last, if_neg (by simp [h8]), if_pos h4]
        · rw [process_wait_segment h.last, if_neg (by simp [h8]), if_pos h4]
      exact ⟨_, _, this, Or.inr (Or.inr ⟨rfl, Or.inl rfl⟩)⟩
    · by_cases h5 : 5 ≤ (cs f.data).toNat
      · have : c.processFrame f = .ok (c, true) := by
          rcases h with h | ⟨tg, got, h⟩
          · rw [process_wait_init h.last, if_neg (by simp [h8]), if_neg h4, if_pos h5]
          · rw [process_wait_segment h.last, if_neg (by simp [h8]), if_neg h4, if_pos h5]
        exact ⟨c, true, this, Or.inl ⟨rfl, hw⟩⟩
      · rcases h with h | ⟨tg, got, h⟩
        · have hproc := process_wait_init h.last f
          rw [if_neg (by simp [h8]), if_neg h4, if_neg h5, h.tot] at hproc
          by_cases h2 : cs f.data ≠ 2#8 ∨ mux f.data ≠ o
          · rw [if_pos h2] at hproc; exact href _ hproc
          rw [if_neg h2] at hproc
          have hc2 : cs f.data = 2#8 := by by_cases hh : cs f.data = 2#8; exact hh; exact absurd (Or.inl hh) h2
          have hmx : mux f.data = o := by by_cases hh : mux f.data = o; exact hh; exact absurd (Or.inr hh) h2
          by_cases hs : announced f.data ≠ 0 ∧ data.length ≠ 0 ∧ announced f.data < data.length
          · rw [if_pos hs] at hproc; exact href _ hproc
          rw [if_neg hs] at hproc
          by_cases hx : flag f.data 1 = true ∧ 4 < data.length
          · rw [if_pos hx] at hproc; exact href _ hproc
          obtain ⟨c1, p1, p2, p3⟩ := init_step h h8 hc2 hmx hs hx
          rcases p3 with ⟨d0, d1, -, -, -, d2⟩ | ⟨-, w1, -⟩
          · exact ⟨c1, true, p1, Or.inr (Or.inl ⟨rfl, d1, h8, Or.inl ⟨hc2, hmx, d0⟩⟩)⟩
          · exact ⟨c1, true, p1, Or.inl ⟨rfl, Or.inr ⟨_, _, w1⟩⟩⟩
        · have hproc := process_wait_segment h.last f
          rw [if_neg (by simp [h8]), if_neg h4, if_neg h5] at hproc
          by_cases h0 : cs f.data = 0#8
          · rw [if_neg (by simp [h0])] at hproc
            by_cases ht : flag f.data 4 = tg
            · rw [if_neg (by simp [ht])] at hproc
              by_cases hf : c.total = 0 ∨ c.offset + segSize f.data ≤ c.total
              · obtain ⟨c1, p1, p2, p3⟩ := segment_step h h8 h0 ht hf
                rcases p3 with ⟨d1, d3, -, d2⟩ | ⟨w1, -⟩
                · refine ⟨c1, true, p1, Or.inr (Or.inl ⟨rfl, d1, h8, Or.inr ⟨h0, ?_⟩⟩)⟩
                  cases hfl : flag f.data 0 with
                  | true => exact Or.inl rfl
                  | false =>
                    right
                    obtain ⟨c3, r1, r2, r3, r4, -⟩ := readSegment_fits c f.data got h.inv hf
                    rw [r1, hfl] at hproc
                    rw [hproc] at p1
                    unfold afterSegment at p1
                    dsimp only at p1
                    by_cases he : (false || c3.offset == c3.total) = true
                    · rw [if_pos he] at p1
                      simp only [Outcome.ok.injEq, Prod.mk.injEq, and_true] at p1
                      have e : c3.offset = c3.total := by simpa using he
                      rw [← p1] at d3 ⊢
                      refine ⟨e, fun hz => ?_⟩
                      have d3' : c3.offset = (got ++ segmentBytes f.data).length := d3
                      have hz' : c3.offset = 0 := hz
                      rw [hz'] at d3'
                      have hnil := List.length_eq_zero_iff.mp d3'.symm
                      exact (List.append_eq_nil_iff.mp hnil).2
                    · rw [if_neg he] at p1
                      simp only [Outcome.ok.injEq, Prod.mk.injEq, and_true] at p1
                      rw [← p1] at d1
                      have : c3.done = true := d1
                      rw [r4, h.ndone] at this
                      cases this
                · exact ⟨c1, true, p1, Or.inl ⟨rfl, Or.inr ⟨_, _, w1⟩⟩⟩
              · rw [readSegment_over c f.data got h.inv (by omega)] at hproc
                exact href _ hproc
            · rw [if_pos ht] at hproc
              exact href _ hproc
          · rw [if_pos h0] at hproc
            exact href _ hproc
  · have : c.processFrame f = .ok (c, false) := by
      rcases h with h | ⟨tg, got, h⟩
      · rw [process_wait_init h.last, if_pos h8]
      · rw [process_wait_segment h.last, if_pos h8]
    exact ⟨_, _, this, Or.inr (Or.inr ⟨rfl, hw.part⟩)⟩

theorem down_step {cid : Header} {o : Obj} {data : List Byte} {c : Client} (h : DownW cid o data c) (f : Frame) :
    ∃ c' b, c.processFrame f = .ok (c', b) ∧
      ((b = true ∧ DownW cid o data c') ∨
       (b = true ∧ c'.done = true ∧ c'.offset = c'.total ∧ (c'.offset = 0 → data = [] ∧ f.dlc = 8 ∧ cs f.data = 3#8 ∧ mux f.data = o)) ∨ b = false) := by
  have href : ∀ rs, c.processFrame f = .ok (c.refuse rs) → ∃ c' b, c.processFrame f = .ok (c', b) ∧
      ((b = true ∧ DownW cid o data c') ∨
       (b = true ∧ c'.done = true ∧ c'.offset = c'.total ∧ (c'.offset = 0 → data = [] ∧ f.dlc = 8 ∧ cs f.data = 3#8 ∧ mux f.data = o)) ∨ b = false) := by
    intro rs hp
    exact ⟨_, _, hp, Or.inr (Or.inr rfl)⟩
  have hw := h
  by_cases h8 : f.dlc = 8
  · by_cases h4 : cs f.data = 4#8
    · have : c.processFrame f = .ok ({ c with offset := 0 }, false) := by
        rcases h with h | ⟨tg, off0, h⟩
        · obtain ⟨b, p, hb, hl⟩ := h.last
          rw [process_wait_downInit hb hl, if_neg (by simp [h8]), if_pos h4]
        · rw [h.process, if_neg (by simp [h8]), if_pos h4]
      exact ⟨_, _, this, Or.inr (Or.inr rfl)⟩
    · by_cases h5 : 5 ≤ (cs f.data).toNat
      · have : c.processFrame f = .ok (c, true) := by
          rcases h with h | ⟨tg, off0, h⟩
          · obtain ⟨b, p, hb, hl⟩ := h.last
            rw [process_wait_downInit hb hl, if_neg (by simp [h8]), if_neg h4, if_pos h5]
          · rw [h.process, if_neg (by simp [h8]), if_neg h4, if_pos h5]
        exact ⟨c, true, this, Or.inl ⟨rfl, hw⟩⟩
      · rcases h with h | ⟨tg, off0, h⟩
        · obtain ⟨b, p, hb, hl⟩ := h.last
          have hproc := process_wait_downInit hb hl f
          rw [if_neg (by simp [h8]), if_neg h4, if_neg h5] at hproc
          by_cases h3 : cs f.data ≠ 3#8 ∨ mux f.data ≠ o
          · rw [if_pos h3] at hproc; exact href _ hproc
          rw [if_neg h3] at hproc
          have hc3 : cs f.data = 3#8 := by by_cases hh : cs f.data = 3#8; exact hh; exact absurd (Or.inl hh) h3
          have hmx : mux f.data = o := by by_cases hh : mux f.data = o; exact hh; exact absurd (Or.inr hh) h3
          by_cases hlast : c.offset < data.length
          · obtain ⟨c1, n1, n2, -⟩ := nextDownload_seg (tg := false) h.buf h.tot h.cur h.ndone h.hcid hlast
            rw [n1] at hproc
            exact ⟨c1, true, hproc, Or.inl ⟨rfl, Or.inr ⟨_, _, n2⟩⟩⟩
          · rw [nextDownload_done (by rw [h.tot]; exact hlast)] at hproc
            have hoff := h.off
            refine ⟨_, true, hproc, Or.inr (Or.inl ⟨rfl, rfl, ?_, ?_⟩)⟩
            · show c.offset = c.total
              rw [h.tot]
              split at hoff <;> omega
            · intro hz
              have hz' : c.offset = 0 := hz
              exact ⟨List.length_eq_zero_iff.mp (by omega), h8, hc3, hmx⟩
        · have hproc := h.process f
          rw [if_neg (by simp [h8]), if_neg h4, if_neg h5] at hproc
          by_cases h1 : cs f.data = 1#8
          · rw [if_neg (by simp [h1])] at hproc
            by_cases ht : flag f.data 4 = tg
            · rw [if_neg (by simp [ht])] at hproc
              by_cases hlast : c.offset < data.length
              · obtain ⟨c1, n1, n2, -⟩ := nextDownload_seg (tg := !tg) h.buf h.tot h.cur h.ndone h.hcid hlast
                rw [n1] at hproc
                exact ⟨c1, true, hproc, Or.inl ⟨rfl, Or.inr ⟨_, _, n2⟩⟩⟩
              · rw [nextDownload_done (by rw [h.tot]; exact hlast)] at hproc
                have hoff := h.off
                have hlt := h.lt
                rw [seg_take_len] at hoff
                refine ⟨_, true, hproc, Or.inr (Or.inl ⟨rfl, rfl, ?_, ?_⟩)⟩
                · show c.offset = c.total
                  rw [h.tot]; omega
                · intro hz
                  have hz' : c.offset = 0 := hz
                  omega
            · rw [if_pos ht] at hproc
              exact href _ hproc
          · rw [if_pos h1] at hproc
            exact href _ hproc
  · have : c.processFrame f = .ok (c, false) := by
      rcases h with h | ⟨tg, off0, h⟩
      · obtain ⟨b, p, hb, hl⟩ := h.last
        rw [process_wait_downInit hb hl, if_pos h8]
      · rw [h.process, if_pos h8]
    exact ⟨_, _, this, Or.inr (Or.inr rfl)⟩

theorem up_end {cid : Header} {o : Obj} {data : List Byte} : ∀ (frames : List Frame) {c c2 : Client}, UpW cid o data c → c.loop frames = .ok c2 →
    (c2.done = false → c2.offset = 0 ∨ c2.offset ≠ c2.total) ∧
    (c2.done = true → ∃ used f rest, frames = used ++ f :: rest ∧ UpFinal o f c2) := by
  intro frames
  induction frames with
  | nil =>
    intro c c2 h hl
    have hd := h.waiting.facts.2.1
    rw [loop_nil hd] at hl
    cases hl
    obtain ⟨e1, e2, -, e4⟩ := abort_fields c 0x05040000#32
    rw [e1, e2, e4, hd]
    exact ⟨fun _ => h.part, fun h => nomatch h⟩
  | cons f fs ih =>
    intro c c2 h hl
    have hd := h.waiting.facts.2.1
    obtain ⟨c', b, hp, hc⟩ := up_step h f
    rcases hc with ⟨rfl, hw⟩ | ⟨rfl, hd', hf⟩ | ⟨rfl, ho⟩
    · rw [loop_cons_true hd hp] at hl
      obtain ⟨g1, g2⟩ := ih hw hl
      refine ⟨g1, fun h => ?_⟩
      obtain ⟨used, f', rest, k1, k2⟩ := g2 h
      exact ⟨f :: used, f', rest, by rw [k1]; rfl, k2⟩
    · rw [loop_cons_true hd hp, loop_done hd'] at hl
      cases hl
      exact ⟨fun h => (by rw [hd'] at h; cases h), fun _ => ⟨[], f, fs, rfl, hf⟩⟩
    · rw [loop_cons_false hd hp] at hl
      cases hl
      obtain ⟨c'', b', hp', hc'⟩ := h.waiting.step_end f
      rw [hp] at hp'
      simp only [Outcome.ok.injEq, Prod.mk.injEq] at hp'
      obtain ⟨rfl, rfl⟩ := hp'
      have := (show c2.done = false by simpa using hc')
      exact ⟨fun _ => ho, fun h => (by rw [this] at h; cases h)⟩

theorem down_end {cid : Header} {o : Obj} {data : List Byte} : ∀ (frames : List Frame) {c c2 : Client}, DownW cid o data c → c.loop frames = .ok c2 →
    c2.done = true → c2.offset = c2.total ∧
      (c2.offset = 0 → data = [] ∧ ∃ used f rest, frames = used ++ f :: rest ∧ f.dlc = 8 ∧ cs f.data = 3#8 ∧ mux f.data = o) := by
  intro frames
  induction frames with
  | nil =>
    intro c c2 h hl
    have hd := h.waiting.facts.2.1
    rw [loop_nil hd] at hl
    cases hl
    obtain ⟨e1, e2, -, e4⟩ := abort_fields c 0x05040000#32
    rw [e4, hd]
    exact fun h => nomatch h
  | cons f fs ih =>
    intro c c2 h hl
    have hd := h.waiting.facts.2.1
    obtain ⟨c', b, hp, hc⟩ := down_step h f
    rcases hc with ⟨rfl, hw⟩ | ⟨rfl, hd', hf, hz⟩ | rfl
    · rw [loop_cons_true hd hp] at hl
      intro hdone
      obtain ⟨g1, g2⟩ := ih hw hl hdone
      refine ⟨g1, fun h => ?_⟩
      obtain ⟨g3, used, f', rest, k1, k2⟩ := g2 h
      exact ⟨g3, f :: used, f', rest, by rw [k1]; rfl, k2⟩
    · rw [loop_cons_true hd hp, loop_done hd'] at hl
      cases hl
      exact fun _ => ⟨hf, fun h0 => ⟨(hz h0).1, [], f, fs, rfl, (hz h0).2⟩⟩
    · rw [loop_cons_false hd hp] at hl
      cases hl
      obtain ⟨c'', b', hp', hc'⟩ := h.waiting.step_end f
      rw [hp] at hp'
      simp only [Outcome.ok.injEq, Prod.mk.injEq] at hp'
      obtain ⟨rfl, rfl⟩ := hp'
      have := (show c2.done = false by simpa using hc')
      exact fun h => (by rw [this] at h; cases h)

end Verif.Sdo
