import Verif.Lemmas.Measure

/-!
# C113: what a joint shows is what the drive sent last
-/

namespace Verif.Props
open Verif Verif.Pdo Verif.Meas Verif.Spec.Pdo Verif.Spec.Meas
open Verif.M402 (Dbl)
open Verif.Rob (Kind)

/-! ## A small drive for the examples: position and velocity, both 4 bytes, and the conversions that show them as they are -/

private def objs113 : List Obj := [⟨4, none⟩, ⟨4, some [7#8, 0#8, 0#8, 0#8]⟩]

private def W113 : Wiring :=
  { objs := objs113, frame := default, ty := 255, signed := fun _ => true, names := [0, 1], dbl := fun n => .fin n
    conv := fun k V => match k with | .pos => V 0 | .vel => V 1 | .eff => .fin 0 }

private theorem fits113 : Fits W113.objs := by
  refine ⟨by simp [W113, objs113], by decide, ?_⟩
  intro o ho v hv
  simp only [W113, objs113, List.mem_cons, List.not_mem_nil, or_false] at ho
  rcases ho with rfl | rfl
  · cases hv
  · injection hv with hv
    subst hv
    rfl

private def fr113 (p v : Byte) : Frame := { id := 0x181, isRtr := false, isExtended := false, isError := false, dlc := 8, data := #v[p, 0, 0, 0, v, 0, 0, 0] }

private def shown113 (es : List Ev) (k : Kind) : Option Rat :=
  match (Joint.fresh W113 (fun _ => .fin 99) (fun _ => .fin 98)).run W113 es with
  | .ok j => (match j.meas k with | .fin q => some q | _ => none)
  | _ => none

/-! ## The property -/

/-- C113 (partial: the values of one cycle may stem from different frames, see `C113_torn_false`, and the first cycle shows uninitialised memory, see
`C113_first_false`).  Let a drive's objects be mapped to a received PDO, with frames as long as the mapping says.  Whatever the order of frames, of reads of the objects by
others and of the steps of the cycle: what the joint shows is what the conversions made, when they were last evaluated, of numbers of which each is the value
its object had when the handle last looked: the integer in this object's bytes of the frame received last at that time, or its value known from the set-up if no
frame had been received.  Only objects the handle never found a value of are taken from the memory as it was. -/
theorem C113_shown_partial (W : Wiring) (fits : Fits W.objs) (vars : Nat → Dbl) (meas : Kind → Dbl) (h h' : List Ev)
    (full : ∀ f, Ev.frame f ∈ h → (sizesOf W.objs).sum ≤ f.dlc.toNat) (he : evaluated h = some h') :
    ∃ j V, (Joint.fresh W vars meas).run W h.reverse = .ok j ∧ (∀ k, j.meas k = W.conv k V) ∧
      ∀ i, i < W.objs.length →
        (∀ v, looked W.objs i h' = some v → ∃ n, IsInteger (W.signed i) v n ∧ V i = W.dbl n) ∧ (looked W.objs i h' = none → V i = vars i) := by
  obtain ⟨j, h1, -, -, h4⟩ := all W fits vars meas h full
  obtain ⟨j', g1, g2⟩ := h4 h' he
  have hsub : ∀ h h' : List Ev, evaluated h = some h' → ∀ e, e ∈ h' → e ∈ h := by
    intro h
    induction h with
    | nil => intro _ he; cases he
    | cons x h ih =>
      intro h' he e hm
      cases x with
      | eval => injection he with he; subst he; exact List.mem_cons_of_mem _ hm
      | frame f => exact List.mem_cons_of_mem _ (ih h' he e hm)
      | get i => exact List.mem_cons_of_mem _ (ih h' he e hm)
      | sync i => exact List.mem_cons_of_mem _ (ih h' he e hm)
  obtain ⟨j2, k1, k2, -, -⟩ := all W fits vars meas h' (fun f hm => full f (hsub h h' he _ hm))
  rw [g1] at k1
  injection k1 with k1
  subst k1
  refine ⟨j, j'.vars, h1, fun k => by rw [g2], fun i hi => ⟨fun v hv => ⟨_, integer (W.signed i) v, k2.vars i hi v hv⟩, fun hn => k2.other i hn⟩⟩

example : let h := [Ev.frame (fr113 9 9), .eval, .sync 1, .sync 0, .get 1, .frame (fr113 0xfe 3), .get 0]
    Fits W113.objs ∧ (∀ f, Ev.frame f ∈ h → (sizesOf W113.objs).sum ≤ f.dlc.toNat) ∧ (evaluated h).isSome ∧
    shown113 h.reverse .pos = some 254 ∧ shown113 h.reverse .vel = some 3 := by
  refine ⟨fits113, ?_, rfl, by decide +kernel, by decide +kernel⟩
  intro f hm
  simp only [List.mem_cons, reduceCtorEq, List.not_mem_nil, or_false, false_or, Ev.frame.injEq] at hm
  rcases hm with rfl | rfl <;> decide

/-- C113.  Until the conversions are evaluated again, what the joint shows stays as it is, whatever is received or read. -/
theorem C113_kept (W : Wiring) (fits : Fits W.objs) (vars : Nat → Dbl) (meas : Kind → Dbl) (h0 c : List Ev)
    (full : ∀ f, Ev.frame f ∈ c ++ h0 → (sizesOf W.objs).sum ≤ f.dlc.toNat) (hc : Ev.eval ∉ c) :
    ∃ j0 j, (Joint.fresh W vars meas).run W h0.reverse = .ok j0 ∧ (Joint.fresh W vars meas).run W (c ++ h0).reverse = .ok j ∧ j.meas = j0.meas := by
  induction c with
  | nil =>
    obtain ⟨j, h1, -⟩ := all W fits vars meas h0 full
    exact ⟨j, j, h1, h1, rfl⟩
  | cons e c ih =>
    obtain ⟨j0, j, a1, a2, a3⟩ := ih (fun f hm => full f (List.mem_cons_of_mem _ hm)) (fun hm => hc (List.mem_cons_of_mem _ hm))
    obtain ⟨j2, b1, b2, -⟩ := all W fits vars meas (c ++ h0) (fun f hm => full f (List.mem_cons_of_mem _ hm))
    rw [a2] at b1
    injection b1 with b1
    subst b1
    obtain ⟨j', g1, -, -, g4, -⟩ := inv_step fits b2 e (fun f he => full f (by rw [he]; exact List.mem_cons_self))
    refine ⟨j0, j', a1, ?_, ?_⟩
    · rw [List.cons_append, List.reverse_cons, run_append W _ _ j e a2, g1]
    · rw [g4 (fun he => hc (by rw [he]; exact List.mem_cons_self)), a3]

example : let h0 := [Ev.eval, .sync 1, .sync 0, .frame (fr113 5 6)]
    let c := [Ev.sync 0, .frame (fr113 1 2), .get 0]
    Ev.eval ∉ c ∧ shown113 (c ++ h0).reverse .pos = some 5 := by
  exact ⟨by simp, by decide +kernel⟩

private theorem looked_part (objs : List Obj) (i : Nat) (h0 : List Ev) (hv : lastValue objs i h0 ≠ none) : ∀ c : List Ev, Ev.sync i ∈ c →
    ∃ c1 c2 v, c = c1 ++ c2 ∧ lastValue objs i (c2 ++ h0) = some v ∧ looked objs i (c ++ h0) = some v := by
  have some_ : ∀ c : List Ev, lastValue objs i (c ++ h0) ≠ none := by
    intro c
    induction c with
    | nil => exact hv
    | cons e c ih =>
      cases e with
      | frame f => simp [lastValue, lastFrame]
      | get k => exact ih
      | sync k => exact ih
      | eval => exact ih
  intro c
  induction c with
  | nil => intro hm; cases hm
  | cons e c ih =>
    intro hm
    have hrec : Ev.sync i ∈ c → (looked objs i (e :: c ++ h0) = looked objs i (c ++ h0)) →
        ∃ c1 c2 v, e :: c = c1 ++ c2 ∧ lastValue objs i (c2 ++ h0) = some v ∧ looked objs i (e :: c ++ h0) = some v := by
      intro hm' heq
      obtain ⟨c1, c2, v, a1, a2, a3⟩ := ih hm'
      exact ⟨e :: c1, c2, v, by rw [a1]; rfl, a2, by rw [heq]; exact a3⟩
    cases e with
    | frame f => exact hrec (by simpa using hm) rfl
    | get k => exact hrec (by simpa using hm) rfl
    | eval => exact hrec (by simpa using hm) rfl
    | sync k =>
      by_cases hk : k = i
      · subst hk
        cases hl : lastValue objs k (c ++ h0) with
        | none => exact absurd hl (some_ c)
        | some v => exact ⟨[.sync k], c, v, rfl, hl, by simp [looked, hl]⟩
      · refine hrec ?_ (by simp [looked, hk])
        rcases List.mem_cons.1 hm with h | h
        · injection h with h
          exact absurd h.symm hk
        · exact h

/-- C113.  A cycle never shows anything older than it began with.  After a cycle (`c`, in which the handle looks at its objects, with frames and reads of others
in between), the number used for an object the handle looked at is the value of this object at some time during the cycle. -/
theorem C113_not_older (W : Wiring) (fits : Fits W.objs) (vars : Nat → Dbl) (meas : Kind → Dbl) (h0 c : List Ev)
    (full : ∀ f, Ev.frame f ∈ c ++ h0 → (sizesOf W.objs).sum ≤ f.dlc.toNat) :
    ∃ j V, (Joint.fresh W vars meas).run W (.eval :: (c ++ h0)).reverse = .ok j ∧ (∀ k, j.meas k = W.conv k V) ∧
      ∀ i, i < W.objs.length → Ev.sync i ∈ c → lastValue W.objs i h0 ≠ none →
        ∃ c1 c2 v n, c = c1 ++ c2 ∧ lastValue W.objs i (c2 ++ h0) = some v ∧ IsInteger (W.signed i) v n ∧ V i = W.dbl n := by
  obtain ⟨j, V, h1, h2, h3⟩ := C113_shown_partial W fits vars meas (.eval :: (c ++ h0)) (c ++ h0)
    (fun f hm => full f (by simpa using hm)) rfl
  refine ⟨j, V, h1, h2, ?_⟩
  intro i hi hs hv
  obtain ⟨c1, c2, v, a1, a2, a3⟩ := looked_part W.objs i h0 hv c hs
  obtain ⟨n, b1, b2⟩ := (h3 i hi).1 v a3
  exact ⟨c1, c2, v, n, a1, a2, b1, b2⟩

example : let h0 := [Ev.frame (fr113 5 6)]
    let c := [Ev.sync 1, .frame (fr113 7 8), .get 1, .sync 0, .get 1]
    (∀ i, i < W113.objs.length → Ev.sync i ∈ c ∧ lastValue W113.objs i h0 ≠ none) ∧
      shown113 (.eval :: (c ++ h0)).reverse .pos = some 5 ∧ shown113 (.eval :: (c ++ h0)).reverse .vel = some 8 := by
  refine ⟨?_, by decide +kernel, by decide +kernel⟩
  intro i hi
  have : i = 0 ∨ i = 1 := by
    simp only [W113, objs113, List.length_cons, List.length_nil] at hi
    omega
  rcases this with rfl | rfl <;> exact ⟨by simp, by simp [lastValue, lastFrame]⟩

/-- C113.  If no frame arrives while the handle looks at its objects, all numbers used stem from the one frame received last, whoever else has read the
objects before or in between and in whatever order the handle looks at them. -/
theorem C113_same_frame (W : Wiring) (fits : Fits W.objs) (vars : Nat → Dbl) (meas : Kind → Dbl) (h0 c : List Ev) (f : Frame)
    (full : ∀ f, Ev.frame f ∈ h0 → (sizesOf W.objs).sum ≤ f.dlc.toNat) (hf : lastFrame h0 = some f) (hc : ∀ g, Ev.frame g ∉ c) :
    ∃ j V, (Joint.fresh W vars meas).run W (.eval :: (c ++ h0)).reverse = .ok j ∧ (∀ k, j.meas k = W.conv k V) ∧
      ∀ i, i < W.objs.length → Ev.sync i ∈ c → ∃ n, IsInteger (W.signed i) (slice (sizesOf W.objs) i f) n ∧ V i = W.dbl n := by
  obtain ⟨j, V, h1, h2, h3⟩ := C113_not_older W fits vars meas h0 c (fun g hm => by
    rcases List.mem_append.1 hm with hm | hm
    · exact absurd hm (hc g)
    · exact full g hm)
  have hlast : ∀ c : List Ev, (∀ g, Ev.frame g ∉ c) → lastFrame (c ++ h0) = some f := by
    intro c
    induction c with
    | nil => intro _; exact hf
    | cons e c ih =>
      intro hc
      have := ih (fun g hm => hc g (List.mem_cons_of_mem _ hm))
      cases e with
      | frame g => exact absurd List.mem_cons_self (hc g)
      | get k => exact this
      | sync k => exact this
      | eval => exact this
  refine ⟨j, V, h1, h2, ?_⟩
  intro i hi hs
  obtain ⟨c1, c2, v, n, a1, a2, a3, a4⟩ := h3 i hi hs (by simp [lastValue, hf])
  have hl := hlast c2 (fun g hm => hc g (by rw [a1]; exact List.mem_append.2 (Or.inr hm)))
  simp only [lastValue, hl] at a2
  injection a2 with a2
  subst a2
  exact ⟨n, a3, a4⟩

example : let h0 := [Ev.get 0, .frame (fr113 5 6), .frame (fr113 1 1)]
    let c := [Ev.sync 0, .get 0, .sync 1, .get 1]
    lastFrame h0 = some (fr113 5 6) ∧ (∀ g, Ev.frame g ∉ c) ∧
      shown113 (.eval :: (c ++ h0)).reverse .pos = some 5 ∧ shown113 (.eval :: (c ++ h0)).reverse .vel = some 6 := by
  refine ⟨rfl, by simp, by decide +kernel, by decide +kernel⟩

/-- C113.  Position and velocity shown together need not belong together: with a frame arriving while the handle looks at its objects, the position is that of
one frame and the velocity that of the next, though every frame the drive sent had a velocity equal to its position. -/
theorem C113_torn_false :
    ∃ (W : Wiring) (es : List Ev), Fits W.objs ∧ (∀ f, Ev.frame f ∈ es → f.dlc = 8#8 ∧ f.data.toList.take 4 = f.data.toList.drop 4) ∧
      es.filter (fun e => match e with | .frame _ => false | _ => true) = cycle W ∧
      ∀ vars meas, ∃ j, (Joint.fresh W vars meas).run W es = .ok j ∧ j.meas .pos = .fin 1 ∧ j.meas .vel = .fin 2 := by
  refine ⟨W113, [.frame (fr113 1 1), .sync 0, .frame (fr113 2 2), .sync 1, .eval], fits113, ?_, rfl, ?_⟩
  · intro f hm
    simp only [List.mem_cons, reduceCtorEq, List.not_mem_nil, or_false, false_or, Ev.frame.injEq] at hm
    rcases hm with rfl | rfl <;> decide
  · intro vars meas
    exact ⟨_, rfl, rfl, rfl⟩

/-- C113.  The first cycle, that of the initialisation, shows the memory as it was, though the drive has sent its position. -/
theorem C113_first_false :
    ∃ (W : Wiring) (f : Frame), Fits W.objs ∧ f.dlc = 8#8 ∧ ∀ vars meas, ∃ j, (Joint.fresh W vars meas).run W (.frame f :: firstCycle) = .ok j ∧
      j.meas .pos = vars 0 ∧ ∃ j', j.run W (cycle W) = .ok j' ∧ j'.meas .pos = .fin 1 :=
  ⟨W113, fr113 1 1, fits113, rfl, fun _ _ => ⟨_, rfl, rfl, _, rfl, rfl⟩⟩

/-- C113.  The number used for an object is determined by its bytes. -/
theorem C113_integer_unique (signed : Bool) (bytes : List Byte) (n m : Int) (hn : IsInteger signed bytes n) (hm : IsInteger signed bytes m) : n = m := by
  obtain ⟨⟨a, ha⟩, hn⟩ := hn
  obtain ⟨⟨b, hb⟩, hm⟩ := hm
  generalize (bytes.zipIdx.map fun p => (p.1.toNat : Int) * 256 ^ p.2).sum = s at *
  have hp : (0 : Int) < 256 ^ bytes.length := Int.pow_pos (by decide)
  generalize (256 : Int) ^ bytes.length = p at *
  have hab : a = b := by
    have h1 : n - m = (a - b) * p := by rw [ha, hb, Int.sub_mul]; omega
    have h2 : -p < n - m ∧ n - m < p := by
      cases signed <;> simp only [if_true, Bool.false_eq_true, if_false] at hn hm <;> omega
    rw [h1] at h2
    have h3 : -1 < a - b := by
      apply Int.lt_of_mul_lt_mul_right (a := p) _ (Int.le_of_lt hp)
      omega
    have h4 : a - b < 1 := by
      apply Int.lt_of_mul_lt_mul_right (a := p) _ (Int.le_of_lt hp)
      omega
    omega
  rw [ha, hb, hab]

example : IsInteger true [0xfe#8, 0xff#8] (-2) ∧ IsInteger false [0xfe#8, 0xff#8] 65534 ∧ ¬ IsInteger true [0xfe#8, 0xff#8] 65534 := by
  refine ⟨⟨⟨-1, by decide⟩, by decide⟩, ⟨⟨0, by decide⟩, by decide⟩, ?_⟩
  intro h
  have := h.2
  simp at this

end Verif.Props
