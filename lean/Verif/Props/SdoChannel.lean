import Verif.Lemmas.SdoChannel
import Verif.Lemmas.SdoProgress
import Verif.Props.Sdo

/-!
# C95: the SDO channel of a node

Calls of `read`, `write` and `init` follow each other, frames arrive at any time, the threads are interleaved freely.
-/

set_option linter.unusedSimpArgs false

namespace Verif.Props
open Verif Verif.Sdo Verif.OD Verif.Chan Verif.Spec.Sdo Verif.Spec.Chan

/-! ## identifiers -/

private theorem predefined_eq (base : BitVec 32) (n : Nat) (hb : base.toNat = n) (node : BitVec 8) :
    Header.msg (base + node.setWidth 32) = predefined n node := by
  have hn := node.isLt
  have hid : (base + node.setWidth 32).setWidth 29 = BitVec.ofNat 29 (n + node.toNat) := by
    apply BitVec.eq_of_toNat_eq
    simp [BitVec.toNat_setWidth, BitVec.toNat_add, hb]
  unfold Header.msg predefined Header.mk'
  rw [hid]

private theorem sdoHeader_eq (v : BitVec 32) : sdoHeader v = cobHeader v := by
  have h : (v &&& 0x1FFFFFFF#32).setWidth 29 = v.extractLsb' 0 29 := by
    apply BitVec.eq_of_getLsbD_eq
    intro i hi
    have hm : ∀ j : Fin 29, (0x1FFFFFFF#32).getLsbD j.val = true := by decide
    have := hm ⟨i, hi⟩
    dsimp only at this
    simp only [BitVec.getLsbD_setWidth, BitVec.getLsbD_extractLsb', BitVec.getLsbD_and, this, Bool.and_true, Nat.zero_add]
  unfold sdoHeader cobHeader Header.mk'
  rw [h]

private theorem channelId_configured (dict : Dict) (node s : BitVec 8) (base v : BitVec 32) (h : Configured dict node s v) :
    channelId dict node s base = cobHeader v := by
  obtain ⟨e, h1, h2⟩ := h
  unfold channelId
  rw [h1]
  rcases h2 with h2 | ⟨off, h2, rfl⟩
  · simp [h2, applyOffset, HoldAny.isEmpty, HoldAny.type, Payload.ty, HoldAny.getInt, sdoHeader_eq]
  · have : BitVec.ofNat 32 (node.toNat + off.toNat) = off + node.setWidth 32 := by
      apply BitVec.eq_of_toNat_eq
      have := node.isLt
      simp only [BitVec.toNat_ofNat, BitVec.toNat_add, BitVec.toNat_setWidth]
      rw [Nat.mod_eq_of_lt (a := node.toNat) (by omega), Nat.add_comm]
    simp [h2, applyOffset, HoldAny.isEmpty, HoldAny.type, Payload.ty, HoldAny.getOffset, sdoHeader_eq, this]
    rw [← this]; exact sdoHeader_eq _

private theorem channelId_default (dict : Dict) (node s : BitVec 8) (base : BitVec 32) (h : ∀ v, ¬ Configured dict node s v) :
    channelId dict node s base = Header.msg (base + node.setWidth 32) := by
  unfold channelId
  cases h1 : dict.get (Key.ofSub 0x1200#16 s) with
  | none => rfl
  | some e =>
    cases ha : applyOffset .u32 e.value node with
    | throws x => simp only [ha]
    | ub => simp only [ha]
    | ok v =>
      exfalso
      cases hv : e.value with
      | none => simp [hv, applyOffset, HoldAny.isEmpty] at ha
      | empty t => simp [hv, applyOffset, HoldAny.isEmpty] at ha
      | val p =>
        cases p with
        | int t x =>
          by_cases ht : t = .u32
          · subst ht; exact h x ⟨e, h1, Or.inl hv⟩
          · simp [hv, applyOffset, HoldAny.isEmpty, HoldAny.type, Payload.ty, HoldAny.getOffset, ht] at ha
        | offset t x =>
          by_cases ht : t = .u32
          · subst ht; exact h _ ⟨e, h1, Or.inr ⟨x, hv, rfl⟩⟩
          · simp [hv, applyOffset, HoldAny.isEmpty, HoldAny.type, Payload.ty, HoldAny.getOffset, ht] at ha
        | _ => simp [hv, applyOffset, HoldAny.isEmpty, HoldAny.type, Payload.ty, HoldAny.getOffset] at ha

/-- C95.  After the initialisation requests carry the COB-ID configured in 1200 sub 1 and answers are expected with the one in sub 2; where the
dictionary has no number there, those of the predefined connection set, 600 and 580 plus the node's number.  What was in the buffer is gone. -/
theorem C95_ids (s : State) (dict : Dict) (node : BitVec 8) :
    (∀ v, Configured dict node 1 v → (s.step (.init dict node)).1.client.clientId = cobHeader v) ∧
    ((∀ v, ¬ Configured dict node 1 v) → (s.step (.init dict node)).1.client.clientId = predefined 0x600 node) ∧
    (∀ v, Configured dict node 2 v → (s.step (.init dict node)).1.listens = some (cobHeader v).key) ∧
    ((∀ v, ¬ Configured dict node 2 v) → (s.step (.init dict node)).1.listens = some (predefined 0x580 node).key) ∧
    (s.step (.init dict node)).1.reader.buffer = [] := by
  refine ⟨fun v h => channelId_configured _ _ _ _ _ h, fun h => ?_, fun v h => ?_, fun h => ?_, rfl⟩
  · exact (channelId_default _ _ _ _ h).trans (predefined_eq _ _ rfl _)
  · exact congrArg some (congrArg Header.key (channelId_configured _ _ _ _ _ h))
  · exact congrArg some (congrArg Header.key ((channelId_default _ _ _ _ h).trans (predefined_eq _ _ rfl _)))

/-- a dictionary that gives one of the two identifiers, as an offset to the node's number -/
private def dict95 : Dict :=
  [(Key.ofSub 0x1200#16 1, ⟨7, 0x1200, 1, 7, false, true, false, [], .val (.offset .u32 0x20000640#32), .none⟩)]

example : Configured dict95 5 1 0x20000645#32 ∧ (∀ v, ¬ Configured dict95 5 2 v) := by
  refine ⟨⟨_, rfl, Or.inr ⟨0x20000640#32, rfl, by decide⟩⟩, ?_⟩
  rintro v ⟨e, he, -⟩
  have : dict95.get (Key.ofSub 0x1200#16 2) = none := by rfl
  rw [this] at he
  cases he

/-! ## what goes out and what is taken in -/

private theorem sent_step (s : State) (e : Ev) (h : NoInit e) :
    ∃ l, (s.step e).1.client.sent = s.client.sent ++ l ∧ (∀ g ∈ l, g.toHeader = s.client.clientId) ∧ (s.step e).1.client.clientId = s.client.clientId ∧
      (s.step e).1.listens = s.listens := by
  have same : ∃ l, s.client.sent = s.client.sent ++ l ∧ (∀ g ∈ l, g.toHeader = s.client.clientId) ∧ s.client.clientId = s.client.clientId ∧
      s.listens = s.listens := ⟨[], by simp, by simp, rfl, rfl⟩
  cases e with
  | init d n => cases h
  | arrive f => simp only [State.step, State.arrive]; split <;> exact same
  | busy k u => exact same
  | call k d u =>
    simp only [State.step, State.call]
    cases hr : s.running with
    | some x => exact same
    | none =>
      obtain ⟨c1, hb⟩ := begin_ok s.client k d u
      obtain ⟨g1, g2, g3, g4, g5⟩ := begin_goes _ _ _ _ _ hb
      simp only [hb]
      exact ⟨[c1.lastMsg], g4, by simp [g5], g2, trivial⟩
  | take =>
    simp only [State.step, State.take]
    split
    · split
      · rename_i hp
        have hg := goes_process _ _ _ _ hp
        obtain ⟨l, -, h2, h3⟩ := hg.sent
        exact ⟨l, h2, h3, hg.cid, rfl⟩
      · exact same
    · exact same
  | expire =>
    simp only [State.step, State.expire]
    split
    · have hg := goes_abort s.client 0x05040000#32
      obtain ⟨l, -, h2, h3⟩ := hg.sent
      exact ⟨l, h2, h3, hg.cid, rfl⟩
    · exact same
  | leave => simp only [State.step, State.leave]; split <;> exact same

/-- C95.  Between two initialisations everything the channel sends carries the identifier of the initialisation. -/
theorem C95_requests (s : State) (es : List Ev) (h : ∀ e ∈ es, NoInit e) :
    ∃ l, (s.run es).1.client.sent = s.client.sent ++ l ∧ (∀ g ∈ l, g.toHeader = s.client.clientId) ∧
      (s.run es).1.client.clientId = s.client.clientId ∧ (s.run es).1.listens = s.listens := by
  induction es generalizing s with
  | nil => exact ⟨[], by simp [State.run], by simp, rfl, rfl⟩
  | cons e es ih =>
    obtain ⟨l, h1, h2, h3, h4⟩ := sent_step s e (h e (by simp))
    obtain ⟨l', i1, i2, i3, i4⟩ := ih (s.step e).1 (fun x hx => h x (by simp [hx]))
    refine ⟨l ++ l', ?_, ?_, i3.trans h3, i4.trans h4⟩
    · simp only [State.run]; rw [i1, h1, List.append_assoc]
    · intro g hg
      rcases List.mem_append.1 hg with hg | hg
      · exact h2 g hg
      · exact (i2 g hg).trans h3

/-- a channel of node 1 for the examples -/
private def ch95 : State := ((State.fresh exampleClient).step (.init [] 1)).1

private def obj95 : Obj := ⟨0x1018#16, 1#8⟩

example : (ch95.run [.call obj95 [] true, .arrive (exampleFrame (initFrame 0x41#8 obj95 [8, 0, 0, 0])), .take]).1.client.sent.map (fun f => (f.id, f.data)) =
    [(0x601#29, #v[0x40, 0x18, 0x10, 1, 0, 0, 0, 0]), (0x601#29, #v[0x60, 0, 0, 0, 0, 0, 0, 0])] := by decide +kernel

/-- C95.  Frames with another identifier than the one answers are expected with have no effect, in any history and whenever they come. -/
theorem C95_foreign (s : State) (es : List Ev) (h : ∀ e ∈ es, NoInit e) : s.run (es.filter (Own s.listens)) = s.run es := by
  induction es generalizing s with
  | nil => rfl
  | cons e es ih =>
    obtain ⟨-, -, -, -, h4⟩ := sent_step s e (h e (by simp))
    have hi := ih (s.step e).1 (fun x hx => h x (by simp [hx]))
    rw [h4] at hi
    by_cases ho : Own s.listens e = true
    · rw [List.filter_cons_of_pos ho]
      simp only [State.run, hi]
    · rw [List.filter_cons_of_neg ho]
      cases e with
      | arrive f =>
        have hne : s.listens ≠ some f.key := by simpa [Own] using ho
        have hs : s.step (.arrive f) = (s, []) := by simp [State.step, State.arrive, hne]
        simp only [State.run, hs, List.nil_append]
        rw [hs] at hi
        exact hi
      | _ => simp [Own] at ho

example : [Ev.arrive { exampleFrame (shortFrame 0#8) with id := 0x582#29 }, .take].filter (Own ch95.listens) = [.take] := rfl

/-- the reader is enabled only during calls and holds at most one frame -/
private def Tidy (s : State) : Prop :=
  s.reader.maxLen = 1 ∧ s.reader.buffer.length ≤ 1 ∧ s.reader.enabled = s.running.isSome ∧ ∀ x, s.running = some x → x.1.before = false

private theorem tidy_step (s : State) (e : Ev) (h : Tidy s) : Tidy (s.step e).1 := by
  obtain ⟨h1, h2, h3, h4⟩ := h
  cases e with
  | init d n => exact ⟨h1, by simp [State.step, State.init, Rd.Reader.listen], h3, h4⟩
  | arrive f =>
    simp only [State.step, State.arrive]
    split
    · refine ⟨(handleFrame_enabled _ _).2.trans h1, ?_, (handleFrame_enabled _ _).1.trans h3, h4⟩
      have ht : ∀ l : List Frame, (Rd.trimLoop 1 l).length ≤ 1 := by
        intro l
        induction l with
        | nil => simp [Rd.trimLoop]
        | cons x xs ih =>
          unfold Rd.trimLoop
          split
          · exact ih
          · omega
      unfold Rd.Reader.handleFrame Rd.Reader.trim
      rw [h1]
      split
      · simpa using ht _
      · exact h2
    · exact ⟨h1, h2, h3, h4⟩
  | busy k u => exact ⟨h1, h2, h3, h4⟩
  | call k d u =>
    simp only [State.step, State.call]
    cases hr : s.running with
    | some x => exact ⟨h1, h2, h3, h4⟩
    | none =>
      obtain ⟨c1, hb⟩ := begin_ok s.client k d u
      simp only [hb]
      refine ⟨h1, h2, rfl, ?_⟩
      intro x hx
      simp only [Option.some.injEq] at hx
      rw [← hx]
      dsimp only
      rw [h3, hr]
      rfl
  | take =>
    simp only [State.step, State.take]
    split
    · split
      · rename_i k r f h5 h6 x c go hp
        unfold Rd.Reader.readUntil at h6
        split at h6
        · simp at h6
        · rename_i y ys hb
          simp only [if_true, Prod.mk.injEq] at h6
          obtain ⟨rfl, -, -⟩ := h6
          refine ⟨h1, ?_, by rw [h5] at h3; exact h3, ?_⟩
          · rw [hb] at h2
            simp at h2 ⊢
            rw [h2]; simp
          · intro z hz
            simp only [Option.some.injEq] at hz
            rw [← hz]
            exact h4 (k, false) h5
      · exact ⟨h1, h2, h3, h4⟩
    · exact ⟨h1, h2, h3, h4⟩
  | expire =>
    simp only [State.step, State.expire]
    split
    · rename_i k h5 h6
      refine ⟨h1, h2, by rw [h5] at h3; exact h3, ?_⟩
      intro z hz
      simp only [Option.some.injEq] at hz
      rw [← hz]
      exact h4 (k, false) h5
    · exact ⟨h1, h2, h3, h4⟩
  | leave =>
    simp only [State.step, State.leave]
    split
    · rename_i k h5
      refine ⟨h1, h2, ?_, by simp⟩
      show k.before = false
      exact h4 _ h5
    · exact ⟨h1, h2, h3, h4⟩

private theorem tidy_run (s : State) (es : List Ev) (h : Tidy s) : Tidy (s.run es).1 := by
  induction es generalizing s with
  | nil => exact h
  | cons e es ih => exact ih _ (tidy_step s e h)

/-- C95.  Whatever happened before, a channel on which no call runs ignores frames; and a call finds at most one frame that came before it. -/
theorem C95_idle (junk : Client) (es : List Ev) (h : ((State.fresh junk).run es).1.running = none) (f : Frame) :
    ((((State.fresh junk).run es).1).step (.arrive f)).1 = ((State.fresh junk).run es).1 ∧ ((State.fresh junk).run es).1.reader.buffer.length ≤ 1 := by
  have ht : Tidy ((State.fresh junk).run es).1 := tidy_run _ es ⟨rfl, by simp [State.fresh, Rd.Reader.new], rfl, by simp [State.fresh]⟩
  generalize ((State.fresh junk).run es).1 = s at *
  obtain ⟨h1, h2, h3, h4⟩ := ht
  refine ⟨?_, h2⟩
  simp only [State.step, State.arrive]
  split
  · have : s.reader.handleFrame f = s.reader := by simp [Rd.Reader.handleFrame, h3, h]
    rw [this]
  · rfl

example : ((State.fresh exampleClient).run [.init [] 1, .call obj95 [] true, .expire, .leave]).1.running = none := rfl

/-! ## one call -/

private theorem call_leave (s : State) (hr : s.running = none) (k : Obj) (d : List Byte) (u : Bool) (mid : List Ev) (hm : ∀ e ∈ mid, Inner e) (r : Result)
    (h : ((s.run (.call k d u :: mid)).1.step .leave).2 = [r]) :
    ∃ used c1 c2, used.Sublist (s.reader.buffer ++ arrivals s.listens mid) ∧ s.client.begin k d u = .ok c1 ∧ c1.loop used = .ok c2 ∧
      c2 = ((s.run (.call k d u :: mid)).1.step .leave).1.client ∧ r.key = k ∧ r.upload = u ∧ c2.current = some k ∧
      r.out = match c2.finish.2 with
        | .ok v => .ok (if u then v else [])
        | .throws e => .throws e
        | .ub => .ub := by
  obtain ⟨hd, hl⟩ := during_call s hr k d u
  obtain ⟨hd, h2, -⟩ := during_run _ _ mid _ _ hd hm
  rw [hl] at hd
  have he : (s.run (.call k d u :: mid)).1 = ((s.call k d u).run mid).1 := rfl
  rw [he] at h ⊢
  generalize ((s.call k d u).run mid).1 = m at *
  obtain ⟨hc, used, c1, hb, hs, hrun⟩ := hd
  rcases hrun with ⟨hq, -⟩ | ⟨hq, hlp⟩
  · simp [State.step, State.leave, hq] at h
  · simp only [State.step, State.leave, hq, List.cons.injEq, and_true] at h
    refine ⟨used, c1, m.client, (List.sublist_append_left _ _).trans hs, hb, hlp, ?_, ?_, ?_, hc, ?_⟩
    · simp [State.step, State.leave, hq]
    · rw [← h]
    · rw [← h]
    · rw [← h]
      dsimp only
      rw [hc]
      cases m.client.finish.2 <;> rfl

/-- C95.  A call is one transfer on frames that arrived with the expected identifier while it ran, in their order, or that one frame that was left in
the buffer before: its result is that of the transfer, whatever else happened in between, and no call is hurt by others that do not get the lock. -/
theorem C95_transfer_partial (s : State) (hr : s.running = none) (k : Obj) (d : List Byte) (u : Bool) (mid : List Ev) (hm : ∀ e ∈ mid, Inner e) (r : Result)
    (h : ((s.run (.call k d u :: mid)).1.step .leave).2 = [r]) :
    ∃ used, used.Sublist (s.reader.buffer ++ arrivals s.listens mid) ∧ r.key = k ∧ r.upload = u ∧
      (s.client.transmit k d u used).1 = ((s.run (.call k d u :: mid)).1.step .leave).1.client ∧
      (∀ v, (s.client.transmit k d u used).2 = .ok v → r.out = .ok (if u then v else [])) ∧
      (∀ e, (s.client.transmit k d u used).2 = .throws e → r.out = .throws e) ∧ (s.client.transmit k d u used).2 ≠ .ub := by
  obtain ⟨used, c1, c2, q1, q2, q3, q4, q5, q6, q7, q8⟩ := call_leave s hr k d u mid hm r h
  have ht : s.client.transmit k d u used = c2.finish := by simp [Client.transmit, q2, q3]
  have hf : c2.finish.1 = c2 ∧ c2.finish.2 ≠ .ub := by unfold Client.finish; split <;> simp
  refine ⟨used, q1, q5, q6, ?_, ?_, ?_, ?_⟩
  · rw [ht, hf.1, q4]
  · intro v hv; rw [ht] at hv; rw [q8, hv]
  · intro e hv; rw [ht] at hv; rw [q8, hv]
  · rw [ht]; exact hf.2

example : ((ch95.run (.call obj95 [] true :: [.arrive (exampleFrame (initFrame 0x43#8 obj95 [1, 2, 3, 4])), .busy obj95 true, .take])).1.step .leave).2 =
    [⟨obj95, true, .ok [1, 2, 3, 4]⟩] := rfl

/-- C95.  A read that returns normally on a channel without a left-over frame has heard, while it ran and with the expected identifier, a complete
upload of its object that delivers the value; otherwise it throws. -/
theorem C95_read (s : State) (hr : s.running = none) (hb : s.reader.buffer = []) (k : Obj) (d : List Byte) (mid : List Ev) (hm : ∀ e ∈ mid, Inner e)
    (r : Result) (h : ((s.run (.call k d true :: mid)).1.step .leave).2 = [r]) :
    (∃ v used, r.out = .ok v ∧ used.Sublist (arrivals s.listens mid) ∧ CompleteUpload k d.length used v) ∨ r.out = .throws .timeout := by
  obtain ⟨used, c1, c2, q1, q2, q3, q4, q5, q6, q7, q8⟩ := call_leave s hr k d true mid hm r h
  rw [hb, List.nil_append] at q1
  have hrd := read_of_loop q2 q3
  have h35 := C35_read_complete_partial s.client true k d used
  rw [hrd] at h35
  by_cases hz : c2.offset = 0 ∨ c2.offset ≠ c2.total
  · right
    rw [q8]
    unfold Client.finish
    rw [if_pos (by simpa using hz)]
  · left
    rw [if_neg hz] at h35
    obtain ⟨used', unread, e1, e2⟩ := h35.1 rfl
    refine ⟨c2.buffer, used', ?_, (by rw [e1]; exact List.sublist_append_left _ _ : used'.Sublist used).trans q1, e2⟩
    rw [q8]
    unfold Client.finish
    rw [if_neg (by simpa using hz)]
    rfl

example : ch95.running = none ∧ ch95.reader.buffer = [] := ⟨rfl, rfl⟩

/-- C95.  The same for a write: it has heard the confirmations while it ran (C36 says what is missing in the last of them). -/
theorem C95_write (s : State) (hr : s.running = none) (hb : s.reader.buffer = []) (k : Obj) (d : List Byte) (mid : List Ev) (hm : ∀ e ∈ mid, Inner e)
    (r : Result) (h : ((s.run (.call k d false :: mid)).1.step .leave).2 = [r]) :
    (∃ used unread, r.out = .ok [] ∧ (used ++ unread).Sublist (arrivals s.listens mid) ∧ Confirms k (answers used) ∧
      ((answers used).length = confirmsNeeded d ∨ ((answers used).length + 1 = confirmsNeeded d ∧ GaveUp unread))) ∨ r.out = .throws .timeout := by
  obtain ⟨used, c1, c2, q1, q2, q3, q4, q5, q6, q7, q8⟩ := call_leave s hr k d false mid hm r h
  rw [hb, List.nil_append] at q1
  have hrd := write_of_loop q2 q3
  have h36 := C36_write_confirmed_partial s.client true k d used
  rw [hrd] at h36
  by_cases hz : c2.offset = 0 ∨ c2.offset ≠ c2.total
  · right
    rw [q8]
    unfold Client.finish
    rw [if_pos (by simpa using hz)]
  · left
    rw [if_neg hz] at h36
    obtain ⟨used', unread, e1, e2, e3⟩ := h36 rfl
    refine ⟨used', unread, ?_, by rw [← e1]; exact q1, e2, e3⟩
    rw [q8]
    unfold Client.finish
    rw [if_neg (by simpa using hz)]
    rfl

example : ((ch95.run (.call obj95 [7] false :: [.arrive (exampleFrame (initFrame 0x60#8 obj95 [])), .take])).1.step .leave).2 =
    [⟨obj95, false, .ok []⟩] := rfl

/-- C95.  While a call runs no frame whatsoever makes the client read or write outside its buffers. -/
theorem C95_memory_safe (s : State) (hr : s.running = none) (k : Obj) (d : List Byte) (u : Bool) (mid : List Ev) (hm : ∀ e ∈ mid, Inner e) (x : Call)
    (h : (s.run (.call k d u :: mid)).1.running = some (x, false)) (f : Frame) :
    ∃ r, (s.run (.call k d u :: mid)).1.client.processFrame f = .ok r := by
  obtain ⟨hd, hl⟩ := during_call s hr k d u
  obtain ⟨hd, -, -⟩ := during_run _ _ mid _ _ hd hm
  have he : (s.run (.call k d u :: mid)).1 = ((s.call k d u).run mid).1 := rfl
  rw [he] at h ⊢
  generalize ((s.call k d u).run mid).1 = m at *
  obtain ⟨hc, used, c1, hb, hs, hrun⟩ := hd
  rcases hrun with ⟨hq, hf, hdn⟩ | ⟨hq, -⟩
  · have hw1 : Waiting s.client.clientId k d c1 := by
      cases u with
      | true =>
        obtain ⟨c1', b1, b2, -⟩ := begin_upload_wait s.client k d
        dsimp only at hb
        rw [b1] at hb; cases hb
        exact .upInit b2
      | false =>
        obtain ⟨c1', b1, b2, -⟩ := begin_download s.client k d
        dsimp only at hb
        rw [b1] at hb; cases hb
        exact .downInit b2
    have hw : ∀ (c : Client) (fs : List Frame) (c' : Client), Fed c fs c' → Waiting s.client.clientId k d c → c'.done = false →
        Waiting s.client.clientId k d c' := by
      intro c fs c' hf
      induction hf with
      | nil => exact fun h _ => h
      | @cons c ca cb f fs h1 h2 h3 ih =>
        intro hw hd'
        obtain ⟨y, b, hp, hcase⟩ := hw.step f
        rw [h2] at hp
        cases hp
        rcases hcase with ⟨-, hw'⟩ | ⟨hx, -⟩
        · exact ih hw' hd'
        · rcases hx with hx | hx
          · cases hx
          · cases h3 with
            | nil => rw [hx] at hd'; cases hd'
            | cons h1' _ _ => rw [hx] at h1'; cases h1'
    obtain ⟨c', b, hp, -⟩ := (hw _ _ _ hf hw1 hdn).step f
    exact ⟨_, hp⟩
  · rw [hq] at h; cases h

example : (ch95.run (.call obj95 [] true :: [.arrive (exampleFrame (initFrame 0x41#8 obj95 [8, 0, 0, 0])), .take])).1.running.map (·.2) = some false := rfl

/-! ## one call after the other -/

/-- C95.  With a conforming server at the other end, no time-outs and nobody else sending with the server's identifier, any number of reads and writes in any
schedule: the results are, in the order in which the calls got the lock, those of accesses to a map from objects to values, each complete before the next
starts; at most the last call has not returned yet.  Frames of others come in between at any time. -/
theorem C95_sequence (cfg : Config) (hcfg : cfg.Legal) (sid : Header) (ch : State) (server : Server) (es : List LEv)
    (h1 : ch.listens = some sid.key) (h2 : ch.running = none) (h3 : ch.reader = Rd.Reader.new false 1) :
    let l := (⟨ch, server, ch.client.sent.length, [], []⟩ : Link).run cfg sid es
    Proper cfg server.store l.calls →
      l.results = (replay server.store l.calls).take l.results.length ∧ l.results.length ≤ l.calls.length ∧ l.calls.length ≤ l.results.length + 1 ∧
      (l.ch.running = none → l.results = replay server.store l.calls ∧ l.server.store = l.calls.foldl after server.store) := by
  intro l hp
  have hi : LInv cfg sid server.store ⟨ch, server, ch.client.sent.length, [], []⟩ :=
    ⟨h1, by simp [h3, Rd.Reader.new], fun _ => Or.inl ⟨h2, by simp [h3, Rd.Reader.new], by simp [h3, Rd.Reader.new], rfl, rfl, rfl⟩⟩
  have hl : LInv cfg sid server.store l := linv_run cfg hcfg sid server.store es _ hi
  rcases hl.now hp with hr | hb
  · have hlen : l.results.length = l.calls.length := by rw [hr.res, replay_length]
    refine ⟨?_, by omega, by omega, fun _ => ⟨hr.res, hr.store⟩⟩
    rw [hlen, ← replay_length server.store, List.take_length]
    exact hr.res
  · obtain ⟨pre, k, d, u, t, c', s', e1, e2, e3, -⟩ := hb.ex
    have hlen : l.results.length = pre.length := by rw [e2, replay_length]
    have hc : l.calls.length = pre.length + 1 := by rw [e1]; simp
    refine ⟨?_, by omega, by omega, fun hn => by rw [hn] at e3; cases e3⟩
    rw [hlen, e1, replay_append, List.take_append_of_le_length (by rw [replay_length]; omega), ← replay_length server.store pre, List.take_length]
    exact e2

/-- a write and a read of another object and a read of the written one, with the answers arriving late -/
private def link95 : Link := ⟨ch95, ⟨fun _ => [1, 2, 3], .idle⟩, 0, [], []⟩
private def talk95 : List LEv :=
  [.call exampleObj [9, 8] false, .take, .foreign { exampleFrame (shortFrame 0#8) with id := 0x582#29 }, .serve, .take, .leave,
   .call obj95 [] true, .call exampleObj [] true, .serve, .take, .leave, .call exampleObj [] true, .serve, .take, .leave]

example : (link95.run exampleCfg exampleSid talk95).results = [⟨exampleObj, false, .ok []⟩, ⟨obj95, true, .ok [1, 2, 3]⟩, ⟨exampleObj, true, .ok [9, 8]⟩] ∧
    (link95.run exampleCfg exampleSid talk95).calls = [(exampleObj, [9, 8], false), (obj95, [], true), (exampleObj, [], true)] := ⟨rfl, rfl⟩

example : Proper exampleCfg link95.server.store [(exampleObj, [9, 8], false), (obj95, [], true), (exampleObj, [], true)] := by
  have : obj95 ≠ exampleObj := by decide
  simp [Proper, after, link95, exampleCfg, this]

example : ch95.listens = some exampleSid.key ∧ ch95.running = none ∧ ch95.reader = Rd.Reader.new false 1 := by decide +kernel

/-- C95.  In the same setting every call returns: whatever has happened so far, after 256 rounds in which the server answers what was sent and then the
call reads (with anything else in between, before and after), all calls that got the lock so far have returned at the next opportunity to do so.  The
number depends on nothing: not on the object, its contents or the history. -/
theorem C95_returns (cfg : Config) (hcfg : cfg.Legal) (sid : Header) (ch : State) (server : Server) (es : List LEv)
    (h1 : ch.listens = some sid.key) (h2 : ch.running = none) (h3 : ch.reader = Rd.Reader.new false 1) :
    let l := (⟨ch, server, ch.client.sent.length, [], []⟩ : Link).run cfg sid es
    Proper cfg server.store l.calls →
      ∀ rounds : List (List LEv), 256 ≤ rounds.length → (∀ r ∈ rounds, [LEv.serve, LEv.take].Sublist r) →
        l.calls.length ≤ (l.run cfg sid (rounds.flatten ++ [.leave])).results.length := by
  intro l hp
  have hi : LInv cfg sid server.store ⟨ch, server, ch.client.sent.length, [], []⟩ :=
    ⟨h1, by simp [h3, Rd.Reader.new], fun _ => Or.inl ⟨h2, by simp [h3, Rd.Reader.new], by simp [h3, Rd.Reader.new], rfl, rfl, rfl⟩⟩
  have hl : LInv cfg sid server.store l := linv_run cfg hcfg sid server.store es _ hi
  rcases hl.now hp with hr | hb
  · intro rounds _ _
    have hlen : l.results.length = l.calls.length := by rw [hr.res, replay_length]
    rw [← hlen]
    exact results_run cfg sid _ l
  · obtain ⟨n, a, hm, hn⟩ := busyN_of_busy hl.lst hl.len hb
    obtain ⟨pre, k, d, u, t, c', s', e1, e2, e3, -⟩ := hb.ex
    have hlen : l.results.length = pre.length := by rw [e2, replay_length]
    have hc : l.calls.length = pre.length + 1 := by rw [e1]; simp
    intro rounds hr hs
    have := busyN_rounds rounds hs hn (by omega) (busyN_zero hn)
    omega

/-- a read of ten bytes takes three frames: two rounds are not enough, three are -/
private def long95 : Link := ⟨ch95, ⟨fun _ => [1, 2, 3, 4, 5, 6, 7, 8, 9, 10], .idle⟩, 0, [], []⟩

example : let l := long95.run exampleCfg exampleSid [.call obj95 [] true]
    Proper exampleCfg long95.server.store l.calls ∧ l.calls.length = 1 ∧
    (l.run exampleCfg exampleSid ([[.serve, .take], [.serve, .leave, .take]].flatten ++ [.leave])).results = [] ∧
    (l.run exampleCfg exampleSid ([[.serve, .take], [.serve, .leave, .take], [.take, .serve, .take]].flatten ++ [.leave])).results =
      [⟨obj95, true, .ok [1, 2, 3, 4, 5, 6, 7, 8, 9, 10]⟩] := by
  refine ⟨?_, rfl, by decide +kernel, by decide +kernel⟩
  have : (long95.run exampleCfg exampleSid [.call obj95 [] true]).calls = [(obj95, [], true)] := rfl
  rw [this]
  simp [Proper, long95, exampleCfg]

/-! ## what does not hold -/

/-- C95 fails: enabling the reader does not empty it.  An answer that comes after the time-out but before the call returns stays in the buffer, and the
next read of the object takes it: it returns the old value, with no frame having arrived since its request. -/
theorem C95_stale_false : ∃ (s : State) (late : Frame), s.running = none ∧ s.reader.buffer = [] ∧
    (s.run [.call obj95 [] true, .expire, .arrive late, .leave, .call obj95 [] true, .take, .leave]).2 =
      [⟨obj95, true, .throws .timeout⟩, ⟨obj95, true, .ok [1, 2, 3, 4]⟩] :=
  ⟨ch95, exampleFrame (initFrame 0x43#8 obj95 [1, 2, 3, 4]), rfl, rfl, rfl⟩

/-- C95 fails: the left-over frame makes a transfer of another object fail, although the right answer arrives. -/
theorem C95_stale_other_false : ∃ (s : State) (late good : Frame), s.running = none ∧ s.reader.buffer = [] ∧
    (s.run [.call exampleObj [] true, .arrive good, .take, .leave]).2 = [⟨exampleObj, true, .ok [5, 6, 7, 8]⟩] ∧
    (s.run [.call obj95 [] true, .expire, .arrive late, .leave, .call exampleObj [] true, .take, .arrive good, .take, .leave]).2 =
      [⟨obj95, true, .throws .timeout⟩, ⟨exampleObj, true, .throws .timeout⟩] :=
  ⟨ch95, exampleFrame (initFrame 0x43#8 obj95 [1, 2, 3, 4]), exampleFrame (initFrame 0x43#8 exampleObj [5, 6, 7, 8]), rfl, rfl, rfl, rfl⟩

/-- C95 fails: before the initialisation the requests go out with the identifier 0, that of the network management.  The abort that follows a time-out
starts with the byte 80, the command "enter pre-operational", and its second byte, taken as the number of a node, is the low byte of the object's index. -/
theorem C95_uninitialised_false (junk : Client) (k : Obj) :
    ((State.fresh junk).run [.call k [] true, .expire, .leave]).1.client.sent.map (fun f => (f.toHeader, f.data[0], f.data[1])) =
      [(⟨0, false, false, false⟩, 0x40#8, k.index.extractLsb' 0 8), (⟨0, false, false, false⟩, 0x80#8, k.index.extractLsb' 0 8)] := by
  have hlo : ∀ i : BitVec 16, lo i = i.extractLsb' 0 8 := fun i => lo_eq i
  show [((uploadInit _ _).toHeader, _, _), ((abortRequest _ _ _ _).toHeader, _, _)] = _
  simp [uploadInit, abortRequest, frame, hlo, Header.default', State.fresh]
  exact ⟨by decide, rfl, by decide⟩

/-- C95 fails: `init` does not take the lock.  If it runs during a call that fails, the exception is made from a null pointer. -/
theorem C95_init_race_false : ∃ (s : State) (dict : Dict), s.running = none ∧
    (s.run [.call obj95 [] true, .init dict 1, .expire, .leave]).2 = [⟨obj95, true, .ub⟩] := ⟨ch95, [], rfl, rfl⟩

end Verif.Props
