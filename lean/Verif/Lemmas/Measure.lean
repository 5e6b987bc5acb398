import Verif.Spec.Measure
import Verif.Lemmas.PdoRx

/-!
# Lemmas for the measured values of a joint
-/

namespace Verif.Meas
open Verif Verif.Pdo Verif.Spec.Pdo Verif.Spec.Meas
open Verif.M402 (Dbl)
open Verif.Rob (Kind)

/-! ## integers -/

private def nat (bytes : List Byte) : Nat := bytes.foldr (fun b acc => b.toNat + 256 * acc) 0

private theorem nat_lt : ∀ bytes : List Byte, nat bytes < 256 ^ bytes.length
  | [] => by decide
  | b :: bs => by
    have h := nat_lt bs
    have hb := b.isLt
    simp only [nat, List.foldr_cons, List.length_cons] at h ⊢
    have e : (256 : Nat) ^ (bs.length + 1) = 256 ^ bs.length * 256 := Nat.pow_succ ..
    generalize (256 : Nat) ^ (bs.length + 1) = p at *
    generalize (256 : Nat) ^ bs.length = q at *
    omega

private theorem sum_nat : ∀ (bytes : List Byte) (k : Nat),
    ((bytes.zipIdx k).map fun p => (p.1.toNat : Int) * 256 ^ p.2).sum = (256 : Int) ^ k * (nat bytes : Int)
  | [], k => by simp [nat]
  | b :: bs, k => by
    simp only [List.zipIdx_cons, List.map_cons, List.sum_cons]
    rw [sum_nat bs (k + 1)]
    simp only [nat, List.foldr_cons]
    rw [Int.natCast_add, Int.natCast_mul, Int.pow_succ]
    grind

theorem integer (signed : Bool) (bytes : List Byte) : IsInteger signed bytes (valueOf signed bytes) := by
  by_cases hb : bytes = []
  · subst hb
    cases signed
    · exact ⟨⟨0, by decide⟩, by decide⟩
    · exact ⟨⟨0, by decide⟩, by decide⟩
  have h1 := nat_lt bytes
  have h2 := sum_nat bytes 0
  have hv : valueOf signed bytes = if signed && decide (128 * 256 ^ (bytes.length - 1) ≤ nat bytes) then (nat bytes : Int) - 256 ^ bytes.length
      else nat bytes := rfl
  have hp : (256 : Nat) ^ bytes.length = 256 ^ (bytes.length - 1) * 256 := by
    rw [← Nat.pow_succ]
    congr 1
    have := List.length_pos_iff.2 hb
    omega
  have hc : ((256 ^ bytes.length : Nat) : Int) = (256 : Int) ^ bytes.length := by rw [Int.natCast_pow]; rfl
  rw [Int.pow_zero, Int.one_mul] at h2
  unfold IsInteger
  rw [h2, ← hc, hv, ← hc]
  generalize (256 : Nat) ^ bytes.length = p at *
  generalize (256 : Nat) ^ (bytes.length - 1) = q at *
  generalize nat bytes = n at *
  cases signed with
  | false =>
    simp only [Bool.false_and, Bool.false_eq_true, if_false]
    exact ⟨⟨0, by omega⟩, by omega, by omega⟩
  | true =>
    simp only [Bool.true_and, decide_eq_true_eq, if_true]
    split
    · exact ⟨⟨-1, by omega⟩, by omega, by omega⟩
    · exact ⟨⟨0, by omega⟩, by omega, by omega⟩

/-! ## the invariant -/

/-- `h` are the events, latest first -/
structure Inv (W : Wiring) (j0 j : Joint) (h : List Ev) : Prop where
  rx : ∃ g, RInv (sizesOf W.objs) (initOf W.objs) j.rx g ∧ (∀ i, received (sizesOf W.objs) i g = (lastFrame h).map (slice (sizesOf W.objs) i)) ∧
    ∀ i, i < W.objs.length → (j.held i).length = (sizesOf W.objs).getD i 0 ∧
      (¬ news (sizesOf W.objs) i g → ∀ v, lastValue W.objs i h = some v → j.held i = v)
  vars : ∀ i, i < W.objs.length → ∀ v, looked W.objs i h = some v → j.vars i = W.dbl (valueOf (W.signed i) v)
  other : ∀ i, looked W.objs i h = none → j.vars i = j0.vars i
  out : ∀ i, W.objs.length ≤ i → j.vars i = j0.vars i

theorem inv_fresh (W : Wiring) (fits : Fits W.objs) (vars : Nat → Dbl) (meas : Kind → Dbl) :
    Inv W (.fresh W vars meas) (.fresh W vars meas) [] := by
  refine ⟨⟨[], rinv_init W.objs fits.2.2 _ _, fun i => by simp [received, lastFrame], ?_⟩, ?_, fun _ _ => rfl, fun _ _ => rfl⟩
  · intro i hi
    have ho : W.objs[i]? = some W.objs[i] := List.getElem?_eq_getElem hi
    refine ⟨?_, ?_⟩
    · simp only [Joint.fresh, ho, sizesOf]
      cases hv : W.objs[i].init with
      | none => simp [ho, hv]
      | some v => simp [ho, hv, fits.2.2 _ (List.getElem_mem hi) v hv]
    · intro _ v hv
      simp only [lastValue, lastFrame, initOf] at hv
      simp only [Joint.fresh, hv, Option.getD_some]
  · intro i _ v hv
    simp [looked] at hv

theorem lastValue_cons (objs : List Obj) (i : Nat) (e : Ev) (h : List Ev) (he : ∀ f, e ≠ .frame f) : lastValue objs i (e :: h) = lastValue objs i h := by
  cases e <;> first | rfl | exact absurd rfl (he _)

/-- reading an object -/
theorem inv_read {W : Wiring} {j0 j : Joint} {h : List Ev} (inv : Inv W j0 j h) (i : Nat) :
    ∃ j' o, j.read i = .ok (j', o) ∧ j'.vars = j.vars ∧ j'.meas = j.meas ∧
      (∃ g, RInv (sizesOf W.objs) (initOf W.objs) j'.rx g ∧
        (∀ k, received (sizesOf W.objs) k g = (lastFrame h).map (slice (sizesOf W.objs) k)) ∧
        ∀ k, k < W.objs.length → (j'.held k).length = (sizesOf W.objs).getD k 0 ∧
          (¬ news (sizesOf W.objs) k g → ∀ v, lastValue W.objs k h = some v → j'.held k = v)) ∧
      (i < W.objs.length → o = lastValue W.objs i h) ∧ (W.objs.length ≤ i → o = none) := by
  obtain ⟨g, hr, hrec, hh⟩ := inv.rx
  have hlen : (sizesOf W.objs).length = W.objs.length := by simp [sizesOf]
  by_cases hi : i < W.objs.length
  · obtain ⟨hl, hv⟩ := hh i hi
    obtain ⟨r', out, h1, h2, h3, -⟩ := rinv_read hr i (j.held i)
    obtain ⟨a1, a2, a3⟩ := h3 (by rw [hlen]; exact hi) hl
    have hstep : ∀ (v : List Byte), out = .ok v → lastValue W.objs i h = some v → v.length = (sizesOf W.objs).getD i 0 →
        ∃ j' o, j.read i = .ok (j', o) ∧ j'.vars = j.vars ∧ j'.meas = j.meas ∧
        (∃ g, RInv (sizesOf W.objs) (initOf W.objs) j'.rx g ∧
          (∀ k, received (sizesOf W.objs) k g = (lastFrame h).map (slice (sizesOf W.objs) k)) ∧
          ∀ k, k < W.objs.length → (j'.held k).length = (sizesOf W.objs).getD k 0 ∧
            (¬ news (sizesOf W.objs) k g → ∀ v, lastValue W.objs k h = some v → j'.held k = v)) ∧
        (i < W.objs.length → o = lastValue W.objs i h) ∧ (W.objs.length ≤ i → o = none) := by
      intro v ho hlv hvl
      have hread : j.rx.read i (j.held i) = .ok (r', v) := by
        simp only [Rpdo.step] at h1
        split at h1
        · rename_i r2 d hrd
          injection h1 with h1
          injection h1 with e1 e2
          injection e2 with e2
          rw [ho] at e2
          injection e2 with e2
          rw [hrd, e1, e2]
        · rename_i hrd
          injection h1 with h1
          injection h1 with e1 e2
          injection e2 with e2
          rw [ho] at e2
          cases e2
        · cases h1
      refine ⟨{ j with rx := r', held := fun k => if k = i then v else j.held k }, some v, by simp [Joint.read, hread], rfl, rfl,
        ⟨.read i (j.held i) :: g, h2, fun k => by simp only [received]; exact hrec k, ?_⟩, fun _ => hlv.symm, fun hge => absurd hge (by omega)⟩
      intro k hk
      dsimp only
      by_cases hki : k = i
      · subst hki
        simp only [if_true]
        exact ⟨hvl, fun _ w hw => by rw [hlv] at hw; injection hw⟩
      · simp only [hki, if_false]
        refine ⟨(hh k hk).1, fun hn => (hh k hk).2 ?_⟩
        intro hnews
        exact hn ⟨fun hc => hki hc.1.symm, hnews⟩
    cases hf : lastFrame h with
    | some f =>
      have hreci : received (sizesOf W.objs) i g = some (slice (sizesOf W.objs) i f) := by rw [hrec, hf]; rfl
      have hlv : lastValue W.objs i h = some (slice (sizesOf W.objs) i f) := by simp [lastValue, hf]
      by_cases hn : news (sizesOf W.objs) i g
      · obtain ⟨b, hb, ok⟩ := hr.buf i (by rw [hlen]; exact hi)
        have := hstep _ (a2 hn _ hreci) hlv (by rw [← ((ok.some _ hreci).2), ok.len, ok.size])
        rw [hf] at this
        exact this
      · have hheld := hv hn _ hlv
        have := hstep _ (a3 hn (Or.inl (by rw [hreci]; simp))) (by rw [hheld]; exact hlv) hl
        rw [hf] at this
        exact this
    | none =>
      have hreci : received (sizesOf W.objs) i g = none := by rw [hrec, hf]; rfl
      have hlv : lastValue W.objs i h = initOf W.objs i := by simp [lastValue, hf]
      have hnn : ¬ news (sizesOf W.objs) i g := by
        obtain ⟨b, hb, ok⟩ := hr.buf i (by rw [hlen]; exact hi)
        rw [← ok.dirty, (ok.none hreci).2]
        simp
      cases hini : initOf W.objs i with
      | some v =>
        have hheld := hv hnn v (by rw [hlv, hini])
        have := hstep _ (a3 hnn (Or.inr (by rw [hini]; simp))) (by rw [hheld, hlv, hini]) hl
        rw [hf] at this
        exact this
      | none =>
        have hout := a1 hreci hini
        have hread : ∃ x, j.rx.read i (j.held i) = .throws x := by
          simp only [Rpdo.step] at h1
          split at h1
          · rename_i r2 d hrd
            injection h1 with h1
            injection h1 with e1 e2
            injection e2 with e2
            rw [hout] at e2
            cases e2
          · rename_i x hrd
            exact ⟨x, hrd⟩
          · cases h1
        obtain ⟨x, hx⟩ := hread
        refine ⟨j, none, by simp [Joint.read, hx], rfl, rfl, ⟨g, hr, ?_, hh⟩, ?_, fun _ => rfl⟩
        · rw [← hf]; exact hrec
        · intro _; rw [hlv, hini]
  · have hread : j.rx.read i (j.held i) = .throws .badCast := by
      have : j.rx.bufs[i]? = none := List.getElem?_eq_none (by rw [hr.lenb, hlen]; omega)
      simp [Rpdo.read, this]
    exact ⟨j, none, by simp [Joint.read, hread], rfl, rfl, ⟨g, hr, hrec, hh⟩, fun h' => absurd h' hi, fun _ => rfl⟩

theorem inv_step {W : Wiring} (fits : Fits W.objs) {j0 j : Joint} {h : List Ev} (inv : Inv W j0 j h) (e : Ev)
    (hf : ∀ f, e = .frame f → (sizesOf W.objs).sum ≤ f.dlc.toNat) :
    ∃ j', j.step W e = .ok j' ∧ Inv W j0 j' (e :: h) ∧ (e = .eval → j'.meas = fun k => W.conv k j'.vars) ∧ (e ≠ .eval → j'.meas = j.meas) ∧
      ((∀ i, e ≠ .sync i) → j'.vars = j.vars) := by
  cases e with
  | frame f =>
    obtain ⟨g, hr, hrec, hh⟩ := inv.rx
    obtain ⟨r', h1, h2⟩ := rinv_frame hr fits.2.1 f (hf f rfl)
    have hhf : j.rx.handleFrame f = .ok r' := by
      simp only [Rpdo.step] at h1
      split at h1
      · rename_i r2 hrd
        injection h1 with h1
        injection h1 with e1 _
        rw [hrd, e1]
      · cases h1
      · cases h1
    refine ⟨{ j with rx := r' }, by simp [Joint.step, hhf], ⟨⟨.frame f :: g, h2, fun i => by simp [received, lastFrame], ?_⟩, ?_, ?_, inv.out⟩, by simp,
      fun _ => rfl, fun _ => rfl⟩
    · intro i hi
      exact ⟨(hh i hi).1, fun hn => absurd trivial hn⟩
    · intro i hi v hv; exact inv.vars i hi v hv
    · intro i hv; exact inv.other i hv
  | get i =>
    obtain ⟨j', o, h1, h2, h3, hrx, -, -⟩ := inv_read inv i
    refine ⟨j', by simp [Joint.step, h1], ⟨?_, ?_, ?_, by rw [h2]; exact inv.out⟩, by simp, fun _ => h3, fun _ => h2⟩
    · exact hrx
    · intro k hk v hv; rw [h2]; exact inv.vars k hk v hv
    · intro k hv; rw [h2]; exact inv.other k hv
  | sync i =>
    obtain ⟨j', o, h1, h2, h3, hrx, ho, ho'⟩ := inv_read inv i
    cases o with
    | none =>
      refine ⟨j', by simp [Joint.step, h1], ⟨hrx, ?_, ?_, by rw [h2]; exact inv.out⟩, by simp, fun _ => h3, fun hs => absurd rfl (hs i)⟩
      · intro k hk v hv
        rw [h2]
        simp only [looked] at hv
        split at hv
        · rename_i hik
          subst hik
          rw [← ho hk] at hv
          exact inv.vars _ hk v hv
        · exact inv.vars k hk v hv
      · intro k hv
        rw [h2]
        simp only [looked] at hv
        split at hv
        · split at hv
          · cases hv
          · exact inv.other k hv
        · exact inv.other k hv
    | some d =>
      have hi : i < W.objs.length := by
        rcases Nat.lt_or_ge i W.objs.length with hlt | hge
        · exact hlt
        · have := ho' hge; cases this
      have hlv := ho hi
      refine ⟨{ j' with vars := fun k => if k = i then W.dbl (valueOf (W.signed i) d) else j'.vars k }, by simp only [Joint.step, h1], ⟨hrx, ?_, ?_, ?_⟩, by simp, fun _ => h3, fun hs => absurd rfl (hs i)⟩
      · intro k hk v hv
        simp only [looked] at hv
        dsimp only
        by_cases hik : i = k
        · subst hik
          rw [if_pos rfl, ← hlv] at hv
          injection hv with hv
          simp [hv]
        · rw [if_neg hik] at hv
          rw [if_neg (fun hc => hik hc.symm), h2]
          exact inv.vars k hk v hv
      · intro k hv
        simp only [looked] at hv
        dsimp only
        by_cases hik : i = k
        · subst hik
          rw [if_pos rfl, ← hlv] at hv
          cases hv
        · rw [if_neg hik] at hv
          rw [if_neg (fun hc => hik hc.symm), h2]
          exact inv.other k hv
      · intro k hk
        dsimp only
        rw [if_neg (by omega), h2]
        exact inv.out k hk
  | eval =>
    exact ⟨_, rfl, ⟨inv.rx, inv.vars, inv.other, inv.out⟩, fun _ => rfl, fun hc => absurd rfl hc, fun _ => rfl⟩

theorem run_append (W : Wiring) : ∀ (es : List Ev) (j j' : Joint) (e : Ev), j.run W es = .ok j' → j.run W (es ++ [e]) = j'.step W e
  | [], j, j', e, h => by
    injection h with h
    subst h
    simp only [List.nil_append, Joint.run]
    cases j.step W e <;> rfl
  | x :: es, j, j', e, h => by
    simp only [List.cons_append, Joint.run] at h ⊢
    split at h
    · rename_i j1 h1
      exact run_append W es j1 j' e h
    · cases h
    · cases h

/-- all there is to say about a history -/
theorem all (W : Wiring) (fits : Fits W.objs) (vars : Nat → Dbl) (meas : Kind → Dbl) : ∀ h : List Ev,
    (∀ f, Ev.frame f ∈ h → (sizesOf W.objs).sum ≤ f.dlc.toNat) →
    ∃ j, (Joint.fresh W vars meas).run W h.reverse = .ok j ∧ Inv W (.fresh W vars meas) j h ∧
      (evaluated h = none → j.meas = meas) ∧
      ∀ h', evaluated h = some h' → ∃ j', (Joint.fresh W vars meas).run W h'.reverse = .ok j' ∧ j.meas = fun k => W.conv k j'.vars
  | [], _ => ⟨_, rfl, inv_fresh W fits vars meas, fun _ => rfl, fun h' hh => by cases hh⟩
  | e :: h, hf => by
    obtain ⟨j, h1, h2, h3, h4⟩ := all W fits vars meas h (fun f hm => hf f (List.mem_cons_of_mem _ hm))
    obtain ⟨j', g1, g2, g3, g4, g5⟩ := inv_step fits h2 e (fun f he => hf f (by rw [he]; exact List.mem_cons_self))
    refine ⟨j', ?_, g2, ?_, ?_⟩
    · rw [List.reverse_cons, run_append W _ _ j e h1, g1]
    · intro he
      cases e with
      | eval => cases he
      | frame f => rw [g4 (by simp)]; exact h3 he
      | get i => rw [g4 (by simp)]; exact h3 he
      | sync i => rw [g4 (by simp)]; exact h3 he
    · intro h' he
      cases e with
      | eval =>
        injection he with he
        subst he
        exact ⟨j, h1, by rw [g3 rfl, g5 (by simp)]⟩
      | frame f => rw [g4 (by simp)]; exact h4 h' he
      | get i => rw [g4 (by simp)]; exact h4 h' he
      | sync i => rw [g4 (by simp)]; exact h4 h' he

end Verif.Meas
