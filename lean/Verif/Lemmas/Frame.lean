import Verif.Model.Frame
import Verif.Spec.Can

set_option linter.unusedSimpArgs false
namespace Verif
open Verif

/-- numeric value of the flags of a header -/
def flagVal (h : Header) : Nat :=
  (if h.isError then 1 else 0) + (if h.isRtr then 2 else 0) + (if h.isExtended then 4 else 0)

theorem or_hi (a k : Nat) (ha : a < 2 ^ 29) : a ||| (2 ^ 29 * k) = 2 ^ 29 * k + a := by
  rw [Nat.or_comm, Nat.two_pow_add_eq_or_of_lt ha]

theorem fullid_toNat (h : Header) : h.fullid.toNat = 2 ^ 29 * flagVal h + h.id.toNat := by
  obtain ⟨id, e, r, x⟩ := h
  have hid := id.isLt
  have hs : (id.setWidth 32).toNat = id.toNat := by simp; omega
  have key : ∀ k : Nat, k < 8 → (id.setWidth 32 ||| BitVec.ofNat 32 (2 ^ 29 * k)).toNat = 2 ^ 29 * k + id.toNat := by
    intro k hk
    rw [BitVec.toNat_or, hs, BitVec.toNat_ofNat, Nat.mod_eq_of_lt (by omega), or_hi _ _ hid]
  have step : ∀ a b c : BitVec 32, id.setWidth 32 ||| a ||| b ||| c = id.setWidth 32 ||| (a ||| b ||| c) := by
    intro a b c; simp only [BitVec.or_assoc]
  have masks : ∀ e r x : Bool, ((if e then Header.ERROR_MASK else 0#32) ||| (if r then Header.RTR_MASK else 0#32) |||
      (if x then Header.EXTENDED_MASK else 0#32)) =
      BitVec.ofNat 32 (2 ^ 29 * ((if e then 1 else 0) + (if r then 2 else 0) + (if x then 4 else 0))) := by decide
  have h := key ((if e then 1 else 0) + (if r then 2 else 0) + (if x then 4 else 0))
    (by cases e <;> cases r <;> cases x <;> decide)
  unfold Header.fullid
  rw [step]
  show (id.setWidth 32 ||| ((if e then Header.ERROR_MASK else 0#32) ||| (if r then Header.RTR_MASK else 0#32) |||
      (if x then Header.EXTENDED_MASK else 0#32))).toNat = _
  rw [masks, h]
  rfl

theorem flagVal_lt (h : Header) : flagVal h < 8 := by
  unfold flagVal; cases h.isError <;> cases h.isRtr <;> cases h.isExtended <;> decide

theorem flagVal_inj {h g : Header} (e : flagVal h = flagVal g) :
    h.isError = g.isError ∧ h.isRtr = g.isRtr ∧ h.isExtended = g.isExtended := by
  obtain ⟨_, e1, r1, x1⟩ := h
  obtain ⟨_, e2, r2, x2⟩ := g
  revert e
  cases e1 <;> cases r1 <;> cases x1 <;> cases e2 <;> cases r2 <;> cases x2 <;> simp [flagVal]

theorem fullid_inj {h g : Header} (e : h.fullid = g.fullid) : h = g := by
  have e' := congrArg BitVec.toNat e
  rw [fullid_toNat, fullid_toNat] at e'
  have h1 := h.id.isLt
  have h2 := g.id.isLt
  have hf : flagVal h = flagVal g := by omega
  have hi : h.id = g.id := BitVec.eq_of_toNat_eq (by omega)
  obtain ⟨a, b, c⟩ := flagVal_inj hf
  cases h; cases g; simp_all

/-- testing one flag bit of a word -/
theorem and_bit_ne_zero (w : BitVec 32) (k : Nat) (hk : k < 32) :
    (w &&& (1#32 <<< k) ≠ 0#32) ↔ w.toNat.testBit k = true := by
  constructor
  · intro h
    by_cases hb : w.toNat.testBit k = true
    · exact hb
    · exfalso; apply h
      apply BitVec.eq_of_getLsbD_eq
      intro i hi
      simp only [BitVec.getLsbD_and, BitVec.getLsbD_shiftLeft, BitVec.getLsbD_zero, hi, decide_true, Bool.true_and]
      by_cases e : i = k
      · subst e; simp [BitVec.getLsbD, hb] 
      · have : (1#32).getLsbD (i - k) = false ∨ i < k := by
          by_cases h2 : i < k
          · exact .inr h2
          · left; simp [BitVec.getLsbD_one]; omega
        rcases this with h | h <;> simp [h]
  · intro h h0
    have := congrArg (fun b => b.getLsbD k) h0
    have h2 : w.getLsbD k = true := h
    simp only [BitVec.getLsbD_and, BitVec.getLsbD_shiftLeft, hk, h2] at this
    simp at this

theorem mul_pow_testBit (k a i : Nat) (ha : a < 2 ^ 29) : (2 ^ 29 * k + a).testBit (29 + i) = k.testBit i := by
  rw [Nat.testBit_two_pow_mul_add _ ha, if_neg (by omega)]
  simp

end Verif
