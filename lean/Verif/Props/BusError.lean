import Verif.Lemmas.BusError
import Verif.Props.CanLayer

/-! # C123: what the diagnostics of the CAN layer show of bus errors -/

namespace Verif.Props
open Verif Verif.Drv Verif.BErr Verif.Spec.BErr

private def bus123 : KFrame := { canId := 0x20000040, dlc := 8, data := #v[0, 0, 0, 0, 0, 0, 7, 8] }
private def ctrl123 : KFrame := { canId := 0x20000004, dlc := 2, data := #v[0, 0x10, 0, 0, 0, 0, 0, 0] }
private def data123 : KFrame := { canId := 0x181, dlc := 1, data := #v[1, 0, 0, 0, 0, 0, 0, 0] }
private def new123 : BErr.Sys := .fresh (Vector.replicate 8 0)
/-- initialised, the loop is entered, the layer listens -/
private def up123 : List BErr.Ev := [.op (.init "can0".toList false 0x1FF 0x44 .ok), .op .runBegin, .listen]

/-- C123.  In every history the error frame kept is the last one among the frames the listeners were called for while the layer listened. -/
theorem C123_last (s : BErr.Sys) (es : List BErr.Ev) : (s.run es).last = (((heard s es).filter (·.isError)).getLast?).getD s.last := by
  induction es generalizing s with
  | nil => rfl
  | cons e es ih =>
    show ((s.step e).run es).last = _
    rw [ih (s.step e)]
    have key : ∀ xs : List Frame, (s.step e).last = ((xs.filter (·.isError)).getLast?).getD s.last →
        (((heard (s.step e) es).filter (·.isError)).getLast?).getD (s.step e).last = (((xs ++ heard (s.step e) es).filter (·.isError)).getLast?).getD s.last := by
      intro xs hx
      rw [List.filter_append, List.getLast?_append]
      cases ((heard (s.step e) es).filter (·.isError)).getLast? <;> simp [hx]
    cases e with
    | op o =>
      refine key [] ?_
      simp only [BErr.Sys.step]
      split <;> rfl
    | listen => exact key [] rfl
    | unlisten => exact key [] rfl
    | deliver =>
      refine key (if s.listening then s.strand.take 1 else []) ?_
      simp only [BErr.Sys.step]
      cases hs : s.strand with
      | nil => cases s.listening <;> rfl
      | cons f fs =>
        simp only [hear_eq]
        cases s.listening <;> cases hf : f.isError <;> simp [hf]

example : ((new123.run (up123 ++ [.op (.readOk ctrl123), .op (.readOk data123), .deliver, .op (.readOk bus123), .deliver, .deliver])).last).dlc = 8 := by decide +kernel

/-- C123.  When a fatal error frame is read while the layer listens, then, as long as the driver is not initialised again and no other error frame is read, and once the
listeners have been called for all frames read, the diagnostics show the number of the error and the payload of this very frame. -/
theorem C123_shown_partial (s : BErr.Sys) (hl : s.listening = true) (k : KFrame) (he : IsErrorFrame k) (hf : Fatal s.d.fatalMask k) (hd : k.dlc.toNat ≤ 8) (es : List BErr.Ev)
    (hc : ∀ e ∈ es, Calm e) (hs : (s.run (.op (.readOk k) :: es)).strand = []) :
    ∃ rs vs, (s.run (.op (.readOk k) :: es)).diag = .ok (rs, vs) ∧ ("internal_error", .num (k.canId.toNat % 2 ^ 29 : Nat)) ∈ vs ∧
      ("can_error_frame", .text (CanL.hexBytes (payload k))) ∈ vs := by
  have hrun : s.run (.op (.readOk k) :: es) = (s.step (.op (.readOk k))).run es := rfl
  rw [hrun] at hs ⊢
  obtain ⟨h1, -, h3⟩ := calm_run es (s.step (.op (.readOk k))) hc (by simp [BErr.Sys.step, Driver.step, hl])
  generalize (s.step (.op (.readOk k))).run es = s' at *
  have hi := input_of s.d k
  have hlast : s'.last = fromKernel s.d.input k := by
    have hp : s'.pend = s'.last := by simp [Sys.pend, hs]
    rw [← hp, h1]
    simp [BErr.Sys.step, Driver.step, Sys.pend, List.filter_append, hi, (fromKernel_err s.d.input k).2 he]
  have hint : s'.d.state.internalError.toNat = k.canId.toNat % 2 ^ 29 := by
    rw [h3]
    simp only [BErr.Sys.step, Driver.step, Driver.readOk]
    rw [if_pos ⟨(err_iff k).2 he, fatal_and _ k hf⟩]
    rw [(set_not _).1, (set_int _ _).1]
    exact fromKernel_id _ _ he
  have hne : s'.d.state.internalError ≠ 0 := by
    obtain ⟨i, hi', hb, -⟩ := hf
    intro h0
    rw [h0] at hint
    have hb' : (k.canId.toNat % 2 ^ 29).testBit i = true := by
      rw [Nat.testBit_mod_two_pow]
      simp only [hi', decide_true, Bool.true_and]
      exact hb
    rw [← hint] at hb'
    simp at hb'
  have hto : s'.d.state.internalError.toInt = (k.canId.toNat % 2 ^ 29 : Nat) := by
    rw [← hint, BitVec.toInt_eq_toNat_of_lt]
    rw [hint]
    omega
  obtain ⟨rs, vs, g, -, -, -, -, g5, -, g7⟩ := C85_diag s'.d.state s'.last (by rw [hlast, fromKernel_dlc]; exact hd)
  refine ⟨rs, vs, g, (g5 _).2 ⟨hne, by rw [hto]⟩, (g7 _).2 ⟨hne, ?_⟩⟩
  rw [hlast, fromKernel_bytes _ _ hd]

example : IsErrorFrame bus123 ∧ Fatal (new123.run up123).d.fatalMask bus123 ∧ (∀ e ∈ [BErr.Ev.op (.readOk data123), .deliver, .op (.runEnd 0), .deliver], Calm e) ∧
    (new123.run (up123 ++ [.op (.readOk bus123), .op (.readOk data123), .deliver, .op (.runEnd 0), .deliver])).strand = [] := by
  refine ⟨by unfold IsErrorFrame; decide, ⟨6, by decide, by decide, by decide +kernel⟩, ?_, by decide +kernel⟩
  intro e he
  simp only [List.mem_cons, List.not_mem_nil, or_false] at he
  rcases he with rfl | rfl | rfl | rfl <;> simp only [Calm, IsErrorFrame] <;> decide

/-- C123.  If the kernel never reports more than 8 bytes, diagnostics are defined in every history; an internal error shown is the number of an error frame that was read,
and the payload shown is that of an error frame that was read, or empty if none reached the layer yet. -/
theorem C123_origin (junk : Vector Byte 8) (es : List BErr.Ev) (hd : ∀ k, BErr.Ev.op (.readOk k) ∈ es → k.dlc.toNat ≤ 8) :
    ∃ rs vs, ((BErr.Sys.fresh junk).run es).diag = .ok (rs, vs) ∧
      (∀ v, ("internal_error", v) ∈ vs → ∃ k, BErr.Ev.op (.readOk k) ∈ es ∧ IsErrorFrame k ∧ v = .num (k.canId.toNat % 2 ^ 29 : Nat)) ∧
      (∀ v, ("can_error_frame", v) ∈ vs → v = .text [] ∨ ∃ k, BErr.Ev.op (.readOk k) ∈ es ∧ IsErrorFrame k ∧ v = .text (CanL.hexBytes (payload k))) := by
  have h := BErr.run_inv (fun k => BErr.Ev.op (.readOk k) ∈ es) junk es _ (fresh_inv _ junk) (fun k hk => hk)
  generalize (BErr.Sys.fresh junk).run es = s at *
  have hlast : s.last.dlc.toNat ≤ 8 ∧ (s.last.data.toList.take s.last.dlc.toNat = [] ∨
      ∃ k, BErr.Ev.op (.readOk k) ∈ es ∧ IsErrorFrame k ∧ s.last.data.toList.take s.last.dlc.toNat = payload k) := by
    rcases h.last with h1 | ⟨⟨k, hk, h2, h3, h4⟩, h5⟩
    · rw [h1]
      exact ⟨by simp [Frame.ofHeader], Or.inl (by simp [Frame.ofHeader])⟩
    · exact ⟨by rw [h2]; exact hd k hk, Or.inr ⟨k, hk, h4.1 h5, h3 (hd k hk)⟩⟩
  obtain ⟨rs, vs, g, -, -, -, -, g5, -, g7⟩ := C85_diag s.d.state s.last hlast.1
  refine ⟨rs, vs, g, fun v hv => ?_, fun v hv => ?_⟩
  · obtain ⟨h1, h2⟩ := (g5 v).1 hv
    rcases h.int with h3 | ⟨k, hk, h4, h5⟩
    · exact absurd h3 h1
    · refine ⟨k, hk, h4, ?_⟩
      rw [h2, ← h5, BitVec.toInt_eq_toNat_of_lt]
      rw [h5]
      omega
  · obtain ⟨h1, h2⟩ := (g7 v).1 hv
    rcases hlast.2 with h3 | ⟨k, hk, h4, h5⟩
    · left; rw [h2, h3]; rfl
    · right; exact ⟨k, hk, h4, by rw [h2, h5]⟩

example : ∀ k, BErr.Ev.op (.readOk k) ∈ up123 ++ [.op (.readOk bus123), .deliver] → k.dlc.toNat ≤ 8 := by
  intro k hk
  simp [up123] at hk
  subst hk
  decide

/-- C123 does not hold without the conditions of `C123_shown_partial`: number and payload shown may belong to different error frames, here before the listeners were called for the
second one. -/
theorem C123_mixed_false : ∃ es : List BErr.Ev, ∃ rs vs, (new123.run es).diag = .ok (rs, vs) ∧ ("internal_error", .num 0x40) ∈ vs ∧
    ("can_error_frame", .text (CanL.hexBytes (payload ctrl123))) ∈ vs ∧ BErr.Ev.op (.readOk bus123) ∈ es ∧ payload ctrl123 ≠ payload bus123 := by
  refine ⟨up123 ++ [.op (.readOk ctrl123), .deliver, .op (.readOk bus123)], _, _, rfl, ?_, ?_, by simp, by decide⟩ <;> decide +kernel

/-- C123: an error frame that arrives after the thread of the driver was started and before the layer listens (can_layer.h:78, 79) is not kept: the diagnostics show a fatal
error with an empty payload for ever. -/
theorem C123_missed_false : ∃ es : List BErr.Ev, ∃ rs vs, (new123.run es).diag = .ok (rs, vs) ∧ ("internal_error", .num 0x40) ∈ vs ∧ ("can_error_frame", .text []) ∈ vs ∧
    BErr.Ev.op (.readOk bus123) ∈ es ∧ (new123.run es).strand = [] ∧ (new123.run es).listening = true := by
  refine ⟨[.op (.init "can0".toList false 0x1FF 0x44 .ok), .op .runBegin, .op (.readOk bus123), .deliver, .listen], _, _, rfl, ?_, ?_, by simp, ?_, ?_⟩ <;> decide +kernel

end Verif.Props
