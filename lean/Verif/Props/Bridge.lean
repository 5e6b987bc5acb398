import Verif.Model.Bridge
import Verif.Spec.Can
import Mathlib.Data.List.Forall2

/-!
# C16, C17: ROS bridge
-/

namespace Verif.Spec
open Verif Verif.Bridge

/-- the message describes a frame CAN allows: boolean flags, identifier in range, at most 8 bytes -/
def MsgDenotesValid (m : Msg) : Prop :=
  (m.isRtr = 0 ∨ m.isRtr = 1) ∧ (m.isExtended = 0 ∨ m.isExtended = 1) ∧ (m.isError = 0 ∨ m.isError = 1) ∧
  m.dlc.toNat ≤ 8 ∧ m.id.toNat < (if m.isExtended = 1 then 536870912 else 2048)

/-- message and frame say the same -/
def MsgMatches (m : Msg) (f : Frame) : Prop :=
  m.id.toNat = f.id.toNat ∧ m.dlc = f.dlc ∧ m.data = f.data ∧
  (m.isRtr = if f.isRtr then 1 else 0) ∧ (m.isExtended = if f.isExtended then 1 else 0) ∧
  (m.isError = if f.isError then 1 else 0)

end Verif.Spec

namespace Verif.Props
open Verif Verif.Bridge Verif.Spec

/-- C16.  Frame to message and back is the identity, for every frame. -/
theorem C16_frame_roundtrip (f : Frame) : toSocketCAN (toMessage f) = f := by
  obtain ⟨⟨id, e, r, x⟩, data, dlc⟩ := f
  have hid : (id.setWidth 32).setWidth 29 = id := by
    apply BitVec.eq_of_toNat_eq; simp
  simp only [toSocketCAN, toMessage, hid]
  cases e <;> cases r <;> cases x <;> rfl

example : let f : Frame := { id := 0x1ABCDEF0, isError := false, isRtr := true, isExtended := true, data := #v[1,2,0,0,0,0,0,9], dlc := 2 }
    toSocketCAN (toMessage f) = f ∧ (toMessage f).isRtr = 1 := by decide

/-- C16.  Message to frame and back is the identity when identifier and flags fit. -/
theorem C16_message_roundtrip (m : Msg) (hid : m.id.toNat < 2 ^ 29) (hr : m.isRtr = 0 ∨ m.isRtr = 1)
    (hx : m.isExtended = 0 ∨ m.isExtended = 1) (he : m.isError = 0 ∨ m.isError = 1) :
    toMessage (toSocketCAN m) = m := by
  obtain ⟨id, r, x, e, dlc, data⟩ := m
  simp only at hid hr hx he
  have h : (id.setWidth 29).setWidth 32 = id := by
    apply BitVec.eq_of_toNat_eq; simp [BitVec.toNat_setWidth]; omega
  simp only [toSocketCAN, toMessage, h]
  rcases hr with rfl | rfl <;> rcases hx with rfl | rfl <;> rcases he with rfl | rfl <;> rfl

example : let m : Msg := { id := 0x1ABCDEF0, isRtr := 1, isExtended := 1, isError := 0, dlc := 2, data := #v[1,2,0,0,0,0,0,9] }
    m.id.toNat < 2 ^ 29 ∧ (m.isRtr = 0 ∨ m.isRtr = 1) ∧ (m.isExtended = 0 ∨ m.isExtended = 1) ∧ (m.isError = 0 ∨ m.isError = 1) := by
  decide

/-- C16.  The produced message says the same as the frame. -/
theorem C16_message_matches (f : Frame) : MsgMatches (toMessage f) f := by
  refine ⟨?_, rfl, rfl, ?_, ?_, ?_⟩
  · simp [toMessage, BitVec.toNat_setWidth]; omega
  · simp [toMessage, ofBit]
  · simp [toMessage, ofBit]
  · simp [toMessage, ofBit]

example : let m : Msg := { id := 0x1ABCDEF0, isRtr := 1, isExtended := 1, isError := 0, dlc := 2, data := #v[1,2,0,0,0,0,0,9] }
    m.id.toNat < 2 ^ 29 ∧ toMessage (toSocketCAN m) = m := by decide

theorem valid_iff (f : Frame) : f.isValid = true ↔ ValidFrame f := by
  unfold Frame.isValid Header.isValid ValidFrame
  have := f.id.isLt
  cases f.isExtended <;> simp <;> omega

/-- C17.  For every sequence of received frames, exactly one message per valid frame is published, in order, saying the same,
and none for an invalid frame. -/
theorem C17_published_exactly_valid (fs : List Frame) [DecidablePred ValidFrame] :
    List.Forall₂ MsgMatches (published fs) (fs.filter (fun f => decide (ValidFrame f))) := by
  induction fs with
  | nil => exact List.Forall₂.nil
  | cons f fs ih =>
    unfold published at *
    rw [List.flatMap_cons, List.filter_cons]
    by_cases h : ValidFrame f
    · simp only [h, decide_true, if_true, frameCallback, (valid_iff f).2 h, Bool.not_true, Bool.false_eq_true, if_false,
        List.singleton_append]
      exact List.Forall₂.cons (C16_message_matches f) ih
    · have : f.isValid = false := by
        rw [← Bool.not_eq_true]; exact fun hc => h ((valid_iff f).1 hc)
      simp only [h, decide_false, Bool.false_eq_true, if_false, frameCallback, this, Bool.not_false, if_true, List.nil_append]
      exact ih

/-- a valid frame, one with a standard identifier out of range, one with nine bytes -/
example : let f : Frame := { id := 0x7FF, isError := false, isRtr := false, isExtended := false, data := Vector.replicate 8 1, dlc := 8 }
    published [f, { f with id := 0x800 }, { f with dlc := 9 }] = [toMessage f] := by decide

/-- C17 (part).  For every sequence of messages whose identifiers fit 29 bits and whose flags are 0 or 1, exactly one frame per
message denoting a valid frame is sent, in order, saying the same, and none for the others.
Missing from the full claim: messages with larger identifiers, see `C17_out_of_range_id_sent`. -/
theorem C17_sent_exactly_valid_partial (ms : List Msg) [DecidablePred MsgDenotesValid]
    (hfit : ∀ m ∈ ms, m.id.toNat < 2 ^ 29 ∧ (m.isRtr = 0 ∨ m.isRtr = 1) ∧ (m.isExtended = 0 ∨ m.isExtended = 1) ∧
      (m.isError = 0 ∨ m.isError = 1)) :
    List.Forall₂ MsgMatches (ms.filter (fun m => decide (MsgDenotesValid m))) (sent ms) := by
  induction ms with
  | nil => exact List.Forall₂.nil
  | cons m ms ih =>
    have ih' := ih (fun m' hm' => hfit m' (by simp [hm']))
    obtain ⟨hid, hr, hx, he⟩ := hfit m (by simp)
    have hmatch : MsgMatches m (toSocketCAN m) := by
      have := C16_message_matches (toSocketCAN m)
      rwa [C16_message_roundtrip m hid hr hx he] at this
    have hv : MsgDenotesValid m ↔ (toSocketCAN m).isValid = true := by
      rw [valid_iff]
      obtain ⟨a, b, c, d, e, f⟩ := hmatch
      unfold MsgDenotesValid ValidFrame
      rw [a, b]
      have hlt := (toSocketCAN m).id.isLt
      constructor
      · rintro ⟨_, _, _, h4, h5⟩
        refine ⟨h4, fun hxx => ?_⟩
        rw [hxx] at e
        simp only [Bool.false_eq_true, if_false] at e
        rw [e] at h5
        simpa using h5
      · rintro ⟨h4, h5⟩
        refine ⟨hr, hx, he, h4, ?_⟩
        cases hxx : (toSocketCAN m).isExtended
        · rw [hxx] at e
          simp only [Bool.false_eq_true, if_false] at e
          rw [e]
          simpa using h5 hxx
        · rw [hxx] at e
          simp only [if_true] at e
          rw [if_pos e]; omega
    unfold sent at *
    rw [List.flatMap_cons, List.filter_cons]
    by_cases h : MsgDenotesValid m
    · simp only [h, decide_true, if_true, msgCallback, hv.1 h, Bool.not_true, Bool.false_eq_true, if_false,
        List.singleton_append]
      exact List.Forall₂.cons hmatch ih'
    · have : (toSocketCAN m).isValid = false := by
        rw [← Bool.not_eq_true]; exact fun hc => h (hv.2 hc)
      simp only [h, decide_false, Bool.false_eq_true, if_false, msgCallback, this, Bool.not_false, if_true, List.nil_append]
      exact ih'

example : let m : Msg := { id := 0x7FF, isRtr := 0, isExtended := 0, isError := 0, dlc := 8, data := Vector.replicate 8 1 }
    let bad : Msg := { m with id := 0x800 }
    ∀ x ∈ [m, bad, m], x.id.toNat < 2 ^ 29 ∧ (x.isRtr = 0 ∨ x.isRtr = 1) ∧ (x.isExtended = 0 ∨ x.isExtended = 1) ∧
      (x.isError = 0 ∨ x.isError = 1) := by decide

/-- C17.  The full claim is false: a message with an identifier beyond 29 bits is not refused but sent under another one. -/
theorem C17_out_of_range_id_sent :
    ∃ m : Msg, ¬ MsgDenotesValid m ∧ ∃ f, sent [m] = [f] ∧ f.id.toNat ≠ m.id.toNat :=
  ⟨{ id := 0x20000005#32, isRtr := 0, isExtended := 0, isError := 0, dlc := 0, data := Vector.replicate 8 0 },
    by rintro ⟨_, _, _, _, h⟩; revert h; decide, _, rfl, by decide⟩

/-- C17.  Whatever is sent is a valid frame, for every message. -/
theorem C17_sent_always_valid (ms : List Msg) : ∀ f ∈ sent ms, ValidFrame f := by
  intro f hf
  unfold sent at hf
  rw [List.mem_flatMap] at hf
  obtain ⟨m, _, hm⟩ := hf
  unfold msgCallback at hm
  simp only at hm
  split at hm
  · cases hm
  · rename_i h
    rw [List.mem_singleton] at hm
    subst hm
    rw [← valid_iff]
    simpa using h

example : let m : Msg := { id := 0x7FF, isRtr := 0, isExtended := 0, isError := 0, dlc := 8, data := Vector.replicate 8 1 }
    let bad : Msg := { m with id := 0x800 }
    sent [m, bad, m] = [toSocketCAN m, toSocketCAN m] ∧ bad.id.toNat < 2 ^ 29 := by decide

end Verif.Props
