import Verif.Spec.Layer

set_option linter.unusedSimpArgs false
set_option linter.unusedVariables false
namespace Verif.Lay
open Verif Verif.Spec

variable {σ : Type}

theorem Tree.induct {P : Tree σ → Prop} (leaf : ∀ id st h tr, P (.leaf id st h tr))
    (group : ∀ stack st ms, (∀ t ∈ ms, P t) → P (.group stack st ms)) (t : Tree σ) : P t :=
  Tree.rec (motive_1 := P) (motive_2 := fun ms => ∀ t ∈ ms, P t) leaf group (by simp)
    (fun t ts ht hts => by
      intro x hx
      rcases List.mem_cons.1 hx with rfl | hx
      · exact ht
      · exact hts x hx) t

/-! generic sequencing -/

abbrev Meth (σ : Type) := Tree σ → Env σ → Tree σ × Env σ

def seqF (f : Meth σ) : List (Tree σ) → Env σ → List (Tree σ) × Env σ
  | [], e => ([], e)
  | t :: ts, e => let r := f t e; let r' := seqF f ts r.2; (r.1 :: r'.1, r'.2)

def seqR (f : Meth σ) : List (Tree σ) → Env σ → List (Tree σ) × Env σ
  | [], e => ([], e)
  | t :: ts, e => let r' := seqR f ts e; let r := f t r'.2; (r.1 :: r'.1, r.2)

def seqS (f : Meth σ) : List (Tree σ) → Bool → Env σ → List (Tree σ) × Env σ
  | [], _, e => ([], e)
  | t :: ts, ok, e =>
    let r := f t e
    if ok && !r.2.status.boundedWarn then (r.1 :: ts, r.2)
    else let r' := seqS f ts ok r.2; (r.1 :: r'.1, r'.2)

theorem shutdownList_eq (ts : List (Tree σ)) (e : Env σ) : shutdownList ts e = seqF Tree.shutdown ts e := by
  induction ts generalizing e with
  | nil => simp [shutdownList, seqF]
  | cons t ts ih => simp [shutdownList, seqF, ih]
theorem shutdownRev_eq (ts : List (Tree σ)) (e : Env σ) : shutdownRev ts e = seqR Tree.shutdown ts e := by
  induction ts generalizing e with
  | nil => simp [shutdownRev, seqR]
  | cons t ts ih => simp [shutdownRev, seqR, ih]
theorem haltList_eq (ts : List (Tree σ)) (e : Env σ) : haltList ts e = seqF Tree.halt ts e := by
  induction ts generalizing e with
  | nil => simp [haltList, seqF]
  | cons t ts ih => simp [haltList, seqF, ih]
theorem haltRev_eq (ts : List (Tree σ)) (e : Env σ) : haltRev ts e = seqR Tree.halt ts e := by
  induction ts generalizing e with
  | nil => simp [haltRev, seqR]
  | cons t ts ih => simp [haltRev, seqR, ih]
theorem readList_eq (ts : List (Tree σ)) (e : Env σ) : readList ts e = seqF Tree.read ts e := by
  induction ts generalizing e with
  | nil => simp [readList, seqF]
  | cons t ts ih => simp [readList, seqF, ih]
theorem writeList_eq (ts : List (Tree σ)) (e : Env σ) : writeList ts e = seqF Tree.write ts e := by
  induction ts generalizing e with
  | nil => simp [writeList, seqF]
  | cons t ts ih => simp [writeList, seqF, ih]
theorem writeRev_eq (ts : List (Tree σ)) (e : Env σ) : writeRev ts e = seqR Tree.write ts e := by
  induction ts generalizing e with
  | nil => simp [writeRev, seqR]
  | cons t ts ih => simp [writeRev, seqR, ih]
theorem diagList_eq (ts : List (Tree σ)) (e : Env σ) : diagList ts e = seqF Tree.diag ts e := by
  induction ts generalizing e with
  | nil => simp [diagList, seqF]
  | cons t ts ih => simp [diagList, seqF, ih]
theorem initList_eq (ts : List (Tree σ)) (ok : Bool) (e : Env σ) : initList ts ok e = seqS Tree.init ts ok e := by
  induction ts generalizing e with
  | nil => simp [initList, seqS]
  | cons t ts ih => simp [initList, seqS, ih]
theorem recoverList_eq (ts : List (Tree σ)) (ok : Bool) (e : Env σ) : recoverList ts ok e = seqS Tree.recover ts ok e := by
  induction ts generalizing e with
  | nil => simp [recoverList, seqS]
  | cons t ts ih => simp [recoverList, seqS, ih]

/-- severity of an environment -/
def sv (e : Env σ) : Nat := e.status.sev.toNat

theorem bounded_iff (e : Env σ) : e.status.boundedWarn = true ↔ sv e ≤ 1 := by
  simp only [Status.boundedWarn, sv, decide_eq_true_iff]; exact Iff.rfl

theorem not_bounded_iff (e : Env σ) : (!e.status.boundedWarn) = true ↔ 1 < sv e := by
  rw [Bool.not_eq_true', ← Bool.not_eq_true, bounded_iff]; omega

theorem set_mono (s : Status) (v : Sev) (r : Text) : s.sev.toNat ≤ (s.set v r).sev.toNat ∧ v.toNat ≤ (s.set v r).sev.toNat ∧
    (s.set v r).sev.toNat = max s.sev.toNat v.toNat := by
  simp only [Status.set]
  split <;> omega

theorem report_mono (s : Status) (r : Report) : s.sev.toNat ≤ (s.report r).sev.toNat := by
  cases r <;> exact (set_mono _ _ _).1

theorem reports_mono (rs : List Report) (s : Status) : s.sev.toNat ≤ (rs.foldl Status.report s).sev.toNat := by
  induction rs generalizing s with
  | nil => simp
  | cons r rs ih => exact Nat.le_trans (report_mono s r) (ih _)

theorem callHandler_mono (id : Nat) (h : Handlers σ) (m : Method) (st : LayerState) (e : Env σ) :
    sv e ≤ sv (callHandler id h m st e) := by
  unfold callHandler sv
  simp only
  split
  · exact reports_mono _ _
  · exact Nat.le_trans (reports_mono _ _) (set_mono _ _ _).1

theorem seqF_mono (f : Meth σ) (ts : List (Tree σ)) (h : ∀ t ∈ ts, ∀ e, sv e ≤ sv (f t e).2) (e : Env σ) :
    sv e ≤ sv (seqF f ts e).2 := by
  induction ts generalizing e with
  | nil => simp [seqF]
  | cons t ts ih => exact Nat.le_trans (h t (by simp) e) (ih (fun t ht => h t (by simp [ht])) _)

theorem seqR_mono (f : Meth σ) (ts : List (Tree σ)) (h : ∀ t ∈ ts, ∀ e, sv e ≤ sv (f t e).2) (e : Env σ) :
    sv e ≤ sv (seqR f ts e).2 := by
  induction ts generalizing e with
  | nil => simp [seqR]
  | cons t ts ih => exact Nat.le_trans (ih (fun t ht => h t (by simp [ht])) e) (h t (by simp) _)

theorem seqS_mono (f : Meth σ) (ts : List (Tree σ)) (ok : Bool) (h : ∀ t ∈ ts, ∀ e, sv e ≤ sv (f t e).2) (e : Env σ) :
    sv e ≤ sv (seqS f ts ok e).2 := by
  induction ts generalizing e with
  | nil => simp [seqS]
  | cons t ts ih =>
    unfold seqS
    simp only
    split
    · exact h t (by simp) e
    · exact Nat.le_trans (h t (by simp) e) (ih (fun t ht => h t (by simp [ht])) _)

/-- member results of an uninterrupted run: `R` always, `Q` if the run ends at most with a warning -/
theorem seqF_all (f : Meth σ) (ts : List (Tree σ)) (hm : ∀ t ∈ ts, ∀ e, sv e ≤ sv (f t e).2) {R Q : Tree σ → Prop}
    (hR : ∀ t ∈ ts, ∀ e, R (f t e).1) (hQ : ∀ t ∈ ts, ∀ e, sv (f t e).2 ≤ 1 → Q (f t e).1) (e : Env σ) :
    (∀ t ∈ (seqF f ts e).1, R t) ∧ (sv (seqF f ts e).2 ≤ 1 → ∀ t ∈ (seqF f ts e).1, Q t) := by
  induction ts generalizing e with
  | nil => simp [seqF]
  | cons t ts ih =>
    obtain ⟨a, b⟩ := ih (fun t ht => hm t (by simp [ht])) (fun t ht => hR t (by simp [ht])) (fun t ht => hQ t (by simp [ht]))
      (f t e).2
    have m2 := seqF_mono f ts (fun t ht => hm t (by simp [ht])) (f t e).2
    simp only [seqF]
    refine ⟨?_, ?_⟩
    · intro x hx
      rcases List.mem_cons.1 hx with rfl | hx
      · exact hR t (by simp) e
      · exact a x hx
    · intro hle x hx
      rcases List.mem_cons.1 hx with rfl | hx
      · exact hQ t (by simp) e (Nat.le_trans m2 hle)
      · exact b hle x hx

theorem seqR_all (f : Meth σ) (ts : List (Tree σ)) (hm : ∀ t ∈ ts, ∀ e, sv e ≤ sv (f t e).2) {R Q : Tree σ → Prop}
    (hR : ∀ t ∈ ts, ∀ e, R (f t e).1) (hQ : ∀ t ∈ ts, ∀ e, sv (f t e).2 ≤ 1 → Q (f t e).1) (e : Env σ) :
    (∀ t ∈ (seqR f ts e).1, R t) ∧ (sv (seqR f ts e).2 ≤ 1 → ∀ t ∈ (seqR f ts e).1, Q t) := by
  induction ts generalizing e with
  | nil => simp [seqR]
  | cons t ts ih =>
    obtain ⟨a, b⟩ := ih (fun t ht => hm t (by simp [ht])) (fun t ht => hR t (by simp [ht])) (fun t ht => hQ t (by simp [ht])) e
    have m2 := hm t (by simp) (seqR f ts e).2
    simp only [seqR]
    refine ⟨?_, ?_⟩
    · intro x hx
      rcases List.mem_cons.1 hx with rfl | hx
      · exact hR t (by simp) _
      · exact a x hx
    · intro hle x hx
      rcases List.mem_cons.1 hx with rfl | hx
      · exact hQ t (by simp) _ hle
      · exact b (Nat.le_trans m2 hle) x hx

theorem seqS_all (f : Meth σ) (ts : List (Tree σ)) (ok : Bool) (hm : ∀ t ∈ ts, ∀ e, sv e ≤ sv (f t e).2) {R Q : Tree σ → Prop}
    (hR0 : ∀ t ∈ ts, R t) (hR : ∀ t ∈ ts, ∀ e, R (f t e).1) (hQ : ∀ t ∈ ts, ∀ e, sv (f t e).2 ≤ 1 → Q (f t e).1)
    (e : Env σ) :
    (∀ t ∈ (seqS f ts ok e).1, R t) ∧ (sv (seqS f ts ok e).2 ≤ 1 → ∀ t ∈ (seqS f ts ok e).1, Q t) := by
  induction ts generalizing e with
  | nil => simp [seqS]
  | cons t ts ih =>
    obtain ⟨a, b⟩ := ih (fun t ht => hm t (by simp [ht])) (fun t ht => hR0 t (by simp [ht])) (fun t ht => hR t (by simp [ht]))
      (fun t ht => hQ t (by simp [ht])) (f t e).2
    have m2 := seqS_mono f ts ok (fun t ht => hm t (by simp [ht])) (f t e).2
    unfold seqS
    simp only
    split
    · rename_i hc
      rw [Bool.and_eq_true, not_bounded_iff] at hc
      refine ⟨?_, fun hle => by simp only at hle; omega⟩
      intro x hx
      rcases List.mem_cons.1 hx with rfl | hx
      · exact hR t (by simp) e
      · exact hR0 x (by simp [hx])
    · refine ⟨?_, ?_⟩
      · intro x hx
        rcases List.mem_cons.1 hx with rfl | hx
        · exact hR t (by simp) e
        · exact a x hx
      · intro hle x hx
        rcases List.mem_cons.1 hx with rfl | hx
        · exact hQ t (by simp) e (Nat.le_trans m2 hle)
        · exact b hle x hx

/-! uniformity as a membership statement -/

theorem uniformAll_iff (s : LayerState) (ms : List (Tree σ)) : UniformAll s ms ↔ ∀ t ∈ ms, Uniform s t := by
  induction ms with
  | nil => simp [UniformAll]
  | cons t ts ih => simp [UniformAll, ih]

theorem uniform_group (s st : LayerState) (stack : Bool) (ms : List (Tree σ)) :
    Uniform s (.group stack st ms) ↔ st = s ∧ ∀ t ∈ ms, Uniform s t := by
  rw [Uniform, uniformAll_iff]

theorem uniform_leaf (s st : LayerState) (id : Nat) (h : Handlers σ) (tr : List Method) :
    Uniform s (.leaf id st h tr) ↔ st = s := by rw [Uniform]

theorem lifeOkAll_iff (ms : List (Tree σ)) : LifeOkAll ms ↔ ∀ t ∈ ms, LifeOk t := by
  induction ms with
  | nil => simp [LifeOkAll]
  | cons t ts ih => simp [LifeOkAll, ih]

theorem lifeOk_group (st : LayerState) (stack : Bool) (ms : List (Tree σ)) :
    LifeOk (.group stack st ms) ↔ ∀ t ∈ ms, LifeOk t := by
  rw [LifeOk, lifeOkAll_iff]

theorem lifeOk_leaf (id : Nat) (st : LayerState) (h : Handlers σ) (tr : List Method) :
    LifeOk (.leaf id st h tr) ↔ ∃ p, lifeAfter tr = some p ∧ phaseOf st = some p := by rw [LifeOk]

theorem lifeAfter_snoc (tr : List Method) (m : Method) : lifeAfter (tr ++ [m]) = (lifeAfter tr).bind (lifeCycle · m) := by
  simp [lifeAfter, List.foldl_append]

/-! status is monotone under every method -/

theorem shutdown_mono (t : Tree σ) : ∀ e, sv e ≤ sv (t.shutdown e).2 := by
  induction t using Tree.induct with
  | leaf id st h tr =>
    intro e; unfold Tree.shutdown; split
    · exact callHandler_mono _ _ _ _ _
    · exact Nat.le_refl _
  | group stack st ms ih =>
    intro e; unfold Tree.shutdown; split
    · cases stack
      · simp only [Bool.false_eq_true, if_false, shutdownList_eq]; exact seqF_mono _ _ ih _
      · simp only [if_true, shutdownRev_eq]; exact seqR_mono _ _ ih _
    · exact Nat.le_refl _

theorem halt_mono (t : Tree σ) : ∀ e, sv e ≤ sv (t.halt e).2 := by
  induction t using Tree.induct with
  | leaf id st h tr =>
    intro e; unfold Tree.halt; split
    · exact callHandler_mono _ _ _ _ _
    · exact Nat.le_refl _
  | group stack st ms ih =>
    intro e; unfold Tree.halt; split
    · simp only [haltList_eq]; exact seqF_mono _ _ ih _
    · exact Nat.le_refl _

theorem finishInit_mono (t : Tree σ) (e : Env σ) : sv e ≤ sv (finishInit t e).2 := by
  unfold finishInit
  split
  · exact shutdown_mono _ _
  · cases t <;> exact Nat.le_refl _

theorem finishRecover_mono (t : Tree σ) (e : Env σ) : sv e ≤ sv (finishRecover t e).2 := by
  unfold finishRecover
  split
  · exact halt_mono _ _
  · cases t <;> exact Nat.le_refl _

theorem init_mono (t : Tree σ) : ∀ e, sv e ≤ sv (t.init e).2 := by
  induction t using Tree.induct with
  | leaf id st h tr =>
    intro e; unfold Tree.init; split
    · split
      · exact Nat.le_trans (callHandler_mono _ _ _ _ _) (finishInit_mono _ _)
      · exact finishInit_mono _ _
    · exact Nat.le_refl _
  | group stack st ms ih =>
    intro e; unfold Tree.init; split
    · split
      · simp only [initList_eq]
        exact Nat.le_trans (seqS_mono _ _ _ ih _) (finishInit_mono _ _)
      · exact finishInit_mono _ _
    · exact Nat.le_refl _

theorem recover_mono (t : Tree σ) : ∀ e, sv e ≤ sv (t.recover e).2 := by
  induction t using Tree.induct with
  | leaf id st h tr =>
    intro e; unfold Tree.recover; split
    · split
      · exact Nat.le_trans (callHandler_mono _ _ _ _ _) (finishRecover_mono _ _)
      · exact finishRecover_mono _ _
    · exact Nat.le_refl _
  | group stack st ms ih =>
    intro e; unfold Tree.recover; split
    · split
      · simp only [recoverList_eq]
        exact Nat.le_trans (seqS_mono _ _ _ ih _) (finishRecover_mono _ _)
      · exact finishRecover_mono _ _
    · exact Nat.le_refl _

theorem failTail_mono (rev stack : Bool) (st : LayerState) (ms : List (Tree σ)) (e : Env σ) :
    sv e ≤ sv (failTail rev stack st ms e).2 := by
  unfold failTail
  split
  · refine Nat.le_trans ?_ (halt_mono _ _)
    cases rev
    · simp only [Bool.false_eq_true, if_false, haltList_eq]; exact seqF_mono _ _ (fun t _ => halt_mono t) _
    · simp only [if_true, haltRev_eq]; exact seqR_mono _ _ (fun t _ => halt_mono t) _
  · exact Nat.le_refl _

theorem read_mono (t : Tree σ) : ∀ e, sv e ≤ sv (t.read e).2 := by
  induction t using Tree.induct with
  | leaf id st h tr =>
    intro e; unfold Tree.read; split
    · exact callHandler_mono _ _ _ _ _
    · exact Nat.le_refl _
  | group stack st ms ih =>
    intro e; unfold Tree.read; split
    · simp only [readList_eq]
      exact Nat.le_trans (seqF_mono _ _ ih _) (failTail_mono _ _ _ _ _)
    · exact Nat.le_refl _

theorem write_mono (t : Tree σ) : ∀ e, sv e ≤ sv (t.write e).2 := by
  induction t using Tree.induct with
  | leaf id st h tr =>
    intro e; unfold Tree.write; split
    · exact callHandler_mono _ _ _ _ _
    · exact Nat.le_refl _
  | group stack st ms ih =>
    intro e; unfold Tree.write; split
    · refine Nat.le_trans ?_ (failTail_mono _ _ _ _ _)
      cases stack
      · simp only [Bool.false_eq_true, if_false, writeList_eq]; exact seqF_mono _ _ ih _
      · simp only [if_true, writeRev_eq]; exact seqR_mono _ _ ih _
    · exact Nat.le_refl _

theorem diag_mono (t : Tree σ) : ∀ e, sv e ≤ sv (t.diag e).2 := by
  induction t using Tree.induct with
  | leaf id st h tr =>
    intro e; unfold Tree.diag; split
    · exact callHandler_mono _ _ _ _ _
    · exact Nat.le_refl _
  | group stack st ms ih =>
    intro e; unfold Tree.diag; split
    · simp only [diagList_eq]; exact seqF_mono _ _ ih _
    · exact Nat.le_refl _

/-! uniform trees stay uniform -/

theorem shutdown_uniform (s : LayerState) (t : Tree σ) : ∀ e, Uniform s t → Uniform .off (t.shutdown e).1 := by
  induction t using Tree.induct with
  | leaf id st h tr =>
    intro e hu; unfold Tree.shutdown; split
    · simp [uniform_leaf]
    · rename_i hst; simp [uniform_leaf]; simpa using hst
  | group stack st ms ih =>
    intro e hu
    rw [uniform_group] at hu
    unfold Tree.shutdown; split
    · rw [uniform_group]
      refine ⟨rfl, ?_⟩
      cases stack
      · simp only [Bool.false_eq_true, if_false, shutdownList_eq]
        exact (seqF_all _ ms (fun t _ => shutdown_mono t) (R := Uniform .off) (Q := fun _ => True)
          (fun t ht e => ih t ht e (hu.2 t ht)) (fun _ _ _ _ => trivial) e).1
      · simp only [if_true, shutdownRev_eq]
        exact (seqR_all _ ms (fun t _ => shutdown_mono t) (R := Uniform .off) (Q := fun _ => True)
          (fun t ht e => ih t ht e (hu.2 t ht)) (fun _ _ _ _ => trivial) e).1
    · rename_i hst
      have hst : st = .off := by simpa using hst
      rw [uniform_group]
      exact ⟨hst, fun t ht => by rw [← hst, hu.1]; exact hu.2 t ht⟩

/-- a group whose members are each uniform (in possibly different states) is completely off after shutdown, unless it was
already off -/
theorem shutdown_group (stack : Bool) (st : LayerState) (hst : st ≠ .off) (ms : List (Tree σ))
    (h : ∀ t ∈ ms, ∃ s, Uniform s t) (e : Env σ) : Uniform .off ((Tree.group stack st ms).shutdown e).1 := by
  unfold Tree.shutdown
  rw [if_pos hst, uniform_group]
  refine ⟨rfl, ?_⟩
  cases stack
  · simp only [Bool.false_eq_true, if_false, shutdownList_eq]
    exact (seqF_all _ ms (fun t _ => shutdown_mono t) (R := Uniform .off) (Q := fun _ => True)
      (fun t ht e => by obtain ⟨s, hs⟩ := h t ht; exact shutdown_uniform s t e hs) (fun _ _ _ _ => trivial) e).1
  · simp only [if_true, shutdownRev_eq]
    exact (seqR_all _ ms (fun t _ => shutdown_mono t) (R := Uniform .off) (Q := fun _ => True)
      (fun t ht e => by obtain ⟨s, hs⟩ := h t ht; exact shutdown_uniform s t e hs) (fun _ _ _ _ => trivial) e).1

/-- state after `halt` -/
def haltState (s : LayerState) : LayerState := if s.toNat > LayerState.halt.toNat then .error else s

theorem halt_uniform (s : LayerState) (t : Tree σ) : ∀ e, Uniform s t → Uniform (haltState s) (t.halt e).1 := by
  induction t using Tree.induct with
  | leaf id st h tr =>
    intro e hu
    rw [uniform_leaf] at hu; subst hu
    unfold Tree.halt haltState; split <;> simp [uniform_leaf]
  | group stack st ms ih =>
    intro e hu
    rw [uniform_group] at hu
    obtain ⟨rfl, hu⟩ := hu
    unfold Tree.halt; split
    · rename_i hgt
      rw [uniform_group]
      refine ⟨by simp [haltState, hgt], ?_⟩
      simp only [haltList_eq]
      exact (seqF_all _ ms (fun t _ => halt_mono t) (R := Uniform (haltState st)) (Q := fun _ => True)
        (fun t ht e => ih t ht e (hu t ht)) (fun _ _ _ _ => trivial) e).1
    · rename_i hgt
      rw [uniform_group]
      have : haltState st = st := by simp [haltState, hgt]
      rw [this]
      exact ⟨rfl, hu⟩

/-- halting members that are each uniformly ready or error makes them all error -/
theorem halt_members (ms : List (Tree σ)) (h : ∀ t ∈ ms, Uniform .error t ∨ Uniform .ready t) (e : Env σ) :
    (∀ t ∈ (haltList ms e).1, Uniform .error t) ∧ (∀ t ∈ (haltRev ms e).1, Uniform .error t) := by
  have key : ∀ t ∈ ms, ∀ e, Uniform .error (t.halt e).1 := by
    intro t ht e
    rcases h t ht with hu | hu
    · exact halt_uniform _ t e hu
    · exact halt_uniform _ t e hu
  rw [haltList_eq, haltRev_eq]
  exact ⟨(seqF_all _ ms (fun t _ => halt_mono t) (R := Uniform .error) (Q := fun _ => True) key (fun _ _ _ _ => trivial) e).1,
    (seqR_all _ ms (fun t _ => halt_mono t) (R := Uniform .error) (Q := fun _ => True) key (fun _ _ _ _ => trivial) e).1⟩

theorem halt_group (stack : Bool) (st : LayerState) (hst : st.toNat > 4 ∨ st = .error) (ms : List (Tree σ))
    (h : ∀ t ∈ ms, Uniform .error t ∨ Uniform .ready t) (h' : st = .error → ∀ t ∈ ms, Uniform .error t) (e : Env σ) :
    Uniform .error ((Tree.group stack st ms).halt e).1 := by
  unfold Tree.halt
  split
  · rw [uniform_group]; exact ⟨rfl, (halt_members ms h e).1⟩
  · rename_i hn
    rcases hst with hst | hst
    · exact absurd hst hn
    · rw [uniform_group]; exact ⟨hst, h' hst⟩

theorem init_uniform (t : Tree σ) : ∀ e, Uniform .off t →
    (sv (t.init e).2 ≤ 1 → Uniform .ready (t.init e).1) ∧ (1 < sv (t.init e).2 → Uniform .off (t.init e).1) := by
  induction t using Tree.induct with
  | leaf id st h tr =>
    intro e hu
    rw [uniform_leaf] at hu; subst hu
    unfold Tree.init
    simp only [if_true]
    have fin : ∀ (t : Tree σ) (e : Env σ), (∃ id st h tr, t = .leaf id st h tr) →
        (sv (finishInit t e).2 ≤ 1 → Uniform .ready (finishInit t e).1) ∧
        (1 < sv (finishInit t e).2 → Uniform .off (finishInit t e).1) := by
      rintro t e ⟨id, st, h, tr, rfl⟩
      have hm := shutdown_mono (Tree.leaf id st h tr) e
      unfold finishInit
      split
      · rename_i hc
        rw [not_bounded_iff] at hc
        refine ⟨fun hle => by omega, fun _ => shutdown_uniform st _ _ (by rw [uniform_leaf])⟩
      · rename_i hc
        rw [not_bounded_iff] at hc
        exact ⟨fun _ => by rw [uniform_leaf], fun hgt => by simp only at hgt; omega⟩
    split
    · exact fin _ _ ⟨_, _, _, _, rfl⟩
    · exact fin _ _ ⟨_, _, _, _, rfl⟩
  | group stack st ms ih =>
    intro e hu
    rw [uniform_group] at hu
    obtain ⟨rfl, hu⟩ := hu
    unfold Tree.init
    simp only [if_true]
    split
    · rename_i hb
      simp only [initList_eq]
      obtain ⟨a, b⟩ := seqS_all Tree.init ms e.status.boundedWarn (fun t _ => init_mono t)
        (R := fun t => ∃ s, Uniform s t) (Q := Uniform .ready) (fun t ht => ⟨_, hu t ht⟩)
        (fun t ht e => by
          obtain ⟨p, q⟩ := ih t ht e (hu t ht)
          by_cases hc : sv (t.init e).2 ≤ 1
          · exact ⟨_, p hc⟩
          · exact ⟨_, q (by omega)⟩)
        (fun t ht e hle => (ih t ht e (hu t ht)).1 hle) e
      have hmono := shutdown_mono (Tree.group stack .init (seqS Tree.init ms e.status.boundedWarn e).1)
        (seqS Tree.init ms e.status.boundedWarn e).2
      unfold finishInit
      split
      · rename_i hc
        rw [not_bounded_iff] at hc
        exact ⟨fun hle => by omega, fun _ => shutdown_group _ _ (by simp) _ a _⟩
      · rename_i hc
        rw [not_bounded_iff] at hc
        refine ⟨fun hle => ?_, fun hgt => by simp only at hgt; omega⟩
        simp only
        rw [uniform_group]
        exact ⟨rfl, b (by omega)⟩
    · rename_i hb
      have hb' : 1 < sv e := by rw [bounded_iff] at hb; omega
      unfold finishInit
      rw [if_pos ((not_bounded_iff e).2 hb')]
      have hm := shutdown_mono (Tree.group stack .off ms) e
      exact ⟨fun hle => by omega, fun _ => shutdown_uniform .off _ _ (by rw [uniform_group]; exact ⟨rfl, hu⟩)⟩

theorem recover_uniform (t : Tree σ) : ∀ e, Uniform .error t →
    (sv (t.recover e).2 ≤ 1 → Uniform .ready (t.recover e).1) ∧ (1 < sv (t.recover e).2 → Uniform .error (t.recover e).1) := by
  induction t using Tree.induct with
  | leaf id st h tr =>
    intro e hu
    rw [uniform_leaf] at hu; subst hu
    unfold Tree.recover
    simp only [if_true]
    have fin : ∀ (t : Tree σ) (e : Env σ), (∃ id st h tr, t = .leaf id st h tr ∧ (st = .error ∨ st = .recover)) →
        (sv (finishRecover t e).2 ≤ 1 → Uniform .ready (finishRecover t e).1) ∧
        (1 < sv (finishRecover t e).2 → Uniform .error (finishRecover t e).1) := by
      rintro t e ⟨id, st, h, tr, rfl, hs⟩
      have hm := halt_mono (Tree.leaf id st h tr) e
      unfold finishRecover
      split
      · rename_i hc
        rw [not_bounded_iff] at hc
        refine ⟨fun hle => by omega, fun _ => ?_⟩
        have hh : haltState st = .error := by rcases hs with rfl | rfl <;> rfl
        have := halt_uniform st (Tree.leaf id st h tr) e (by rw [uniform_leaf])
        rwa [hh] at this
      · rename_i hc
        rw [not_bounded_iff] at hc
        exact ⟨fun _ => by rw [uniform_leaf], fun hgt => by simp only at hgt; omega⟩
    split
    · exact fin _ _ ⟨_, _, _, _, rfl, Or.inr rfl⟩
    · exact fin _ _ ⟨_, _, _, _, rfl, Or.inl rfl⟩
  | group stack st ms ih =>
    intro e hu
    rw [uniform_group] at hu
    obtain ⟨rfl, hu⟩ := hu
    unfold Tree.recover
    simp only [if_true]
    split
    · rename_i hb
      simp only [recoverList_eq]
      obtain ⟨a, b⟩ := seqS_all Tree.recover ms e.status.boundedWarn (fun t _ => recover_mono t)
        (R := fun t => Uniform .error t ∨ Uniform .ready t) (Q := Uniform .ready) (fun t ht => Or.inl (hu t ht))
        (fun t ht e => by
          obtain ⟨p, q⟩ := ih t ht e (hu t ht)
          by_cases hc : sv (t.recover e).2 ≤ 1
          · exact Or.inr (p hc)
          · exact Or.inl (q (by omega)))
        (fun t ht e hle => (ih t ht e (hu t ht)).1 hle) e
      have hmono := halt_mono (Tree.group stack .recover (seqS Tree.recover ms e.status.boundedWarn e).1)
        (seqS Tree.recover ms e.status.boundedWarn e).2
      unfold finishRecover
      split
      · rename_i hc
        rw [not_bounded_iff] at hc
        exact ⟨fun hle => by omega, fun _ => halt_group _ _ (Or.inl (by decide)) _ a (fun h => by cases h) _⟩
      · rename_i hc
        rw [not_bounded_iff] at hc
        refine ⟨fun hle => ?_, fun hgt => by simp only at hgt; omega⟩
        simp only
        rw [uniform_group]
        exact ⟨rfl, b (by omega)⟩
    · rename_i hb
      have hb' : 1 < sv e := by rw [bounded_iff] at hb; omega
      unfold finishRecover
      rw [if_pos ((not_bounded_iff e).2 hb')]
      have hm := halt_mono (Tree.group stack .error ms) e
      exact ⟨fun hle => by omega, fun _ => halt_uniform .error _ _ (by rw [uniform_group]; exact ⟨rfl, hu⟩)⟩

theorem failTail_uniform (rev stack : Bool) (s : LayerState) (hs : s = .error ∨ s = .ready) (ms : List (Tree σ)) (e : Env σ)
    (hR : ∀ t ∈ ms, Uniform .error t ∨ Uniform s t) (hQ : sv e ≤ 1 → ∀ t ∈ ms, Uniform s t) :
    (sv (failTail rev stack s ms e).2 ≤ 1 → Uniform s (failTail rev stack s ms e).1) ∧
    (1 < sv (failTail rev stack s ms e).2 → Uniform .error (failTail rev stack s ms e).1) := by
  have hm := failTail_mono rev stack s ms e
  have hR' : ∀ t ∈ ms, Uniform .error t ∨ Uniform .ready t := by
    intro t ht
    rcases hs with rfl | rfl
    · exact Or.inl ((hR t ht).elim id id)
    · exact hR t ht
  unfold failTail at *
  split
  · rename_i hc
    rw [if_pos hc] at hm
    rw [not_bounded_iff] at hc
    refine ⟨fun hle => by omega, fun _ => ?_⟩
    have hmem : ∀ t ∈ (if rev = true then haltRev ms e else haltList ms e).1, Uniform .error t := by
      cases rev
      · exact (halt_members ms hR' e).1
      · exact (halt_members ms hR' e).2
    exact halt_group stack s (by rcases hs with rfl | rfl; exact Or.inr rfl; exact Or.inl (by decide)) _
      (fun t ht => Or.inl (hmem t ht)) (fun _ => hmem) _
  · rename_i hc
    rw [not_bounded_iff] at hc
    refine ⟨fun hle => ?_, fun hgt => by simp only at hgt; omega⟩
    simp only
    rw [uniform_group]
    exact ⟨rfl, hQ (by omega)⟩

theorem off_read (t : Tree σ) (e : Env σ) (h : t.state = .off) : t.read e = (t, e) := by
  cases t <;> simp only [Tree.state] at h <;> subst h <;> simp [Tree.read, LayerState.toNat]

theorem off_write (t : Tree σ) (e : Env σ) (h : t.state = .off) : t.write e = (t, e) := by
  cases t <;> simp only [Tree.state] at h <;> subst h <;> simp [Tree.write, LayerState.toNat]

theorem uniform_state (s : LayerState) (t : Tree σ) (h : Uniform s t) : t.state = s := by
  cases t with
  | leaf => rw [uniform_leaf] at h; exact h
  | group => rw [uniform_group] at h; exact h.1

theorem read_uniform (s : LayerState) (hs : s = .error ∨ s = .ready) (t : Tree σ) : ∀ e, Uniform s t →
    (sv (t.read e).2 ≤ 1 → Uniform s (t.read e).1) ∧
    (1 < sv (t.read e).2 → Uniform .error (t.read e).1 ∨ Uniform s (t.read e).1) ∧
    (1 < sv (t.read e).2 → (∃ b st ms, t = .group b st ms) → Uniform .error (t.read e).1) := by
  have hoff : s.toNat > LayerState.off.toNat := by rcases hs with rfl | rfl <;> decide
  induction t using Tree.induct with
  | leaf id st h tr =>
    intro e hu
    rw [uniform_leaf] at hu; subst hu
    unfold Tree.read
    rw [if_pos hoff]
    refine ⟨fun _ => by rw [uniform_leaf], fun _ => Or.inr (by rw [uniform_leaf]), ?_⟩
    rintro _ ⟨_, _, _, h⟩; cases h
  | group stack st ms ih =>
    intro e hu
    rw [uniform_group] at hu
    obtain ⟨rfl, hu⟩ := hu
    unfold Tree.read
    rw [if_pos hoff]
    simp only [readList_eq]
    obtain ⟨a, b⟩ := seqF_all Tree.read ms (fun t _ => read_mono t)
      (R := fun t => Uniform .error t ∨ Uniform st t) (Q := Uniform st)
      (fun t ht e => by
        obtain ⟨p, q, _⟩ := ih t ht e (hu t ht)
        by_cases hc : sv (t.read e).2 ≤ 1
        · exact Or.inr (p hc)
        · exact q (by omega))
      (fun t ht e hle => (ih t ht e (hu t ht)).1 hle) e
    obtain ⟨c, d⟩ := failTail_uniform false stack st hs _ _ a b
    exact ⟨c, fun h => Or.inl (d h), fun h _ => d h⟩

theorem write_uniform (s : LayerState) (hs : s = .error ∨ s = .ready) (t : Tree σ) : ∀ e, Uniform s t →
    (sv (t.write e).2 ≤ 1 → Uniform s (t.write e).1) ∧
    (1 < sv (t.write e).2 → Uniform .error (t.write e).1 ∨ Uniform s (t.write e).1) ∧
    (1 < sv (t.write e).2 → (∃ b st ms, t = .group b st ms) → Uniform .error (t.write e).1) := by
  have hoff : s.toNat > LayerState.off.toNat := by rcases hs with rfl | rfl <;> decide
  induction t using Tree.induct with
  | leaf id st h tr =>
    intro e hu
    rw [uniform_leaf] at hu; subst hu
    unfold Tree.write
    rw [if_pos hoff]
    refine ⟨fun _ => by rw [uniform_leaf], fun _ => Or.inr (by rw [uniform_leaf]), ?_⟩
    rintro _ ⟨_, _, _, h⟩; cases h
  | group stack st ms ih =>
    intro e hu
    rw [uniform_group] at hu
    obtain ⟨rfl, hu⟩ := hu
    have hmem : ∀ t ∈ ms, ∀ e, Uniform .error (t.write e).1 ∨ Uniform st (t.write e).1 := by
      intro t ht e
      obtain ⟨p, q, _⟩ := ih t ht e (hu t ht)
      by_cases hc : sv (t.write e).2 ≤ 1
      · exact Or.inr (p hc)
      · exact q (by omega)
    unfold Tree.write
    rw [if_pos hoff]
    cases stack
    · simp only [writeList_eq, Bool.false_eq_true, if_false]
      obtain ⟨a, b⟩ := seqF_all Tree.write ms (fun t _ => write_mono t)
        (R := fun t => Uniform .error t ∨ Uniform st t) (Q := Uniform st) hmem
        (fun t ht e hle => (ih t ht e (hu t ht)).1 hle) e
      obtain ⟨c, d⟩ := failTail_uniform false false st hs _ _ a b
      exact ⟨c, fun h => Or.inl (d h), fun h _ => d h⟩
    · simp only [writeRev_eq, if_true]
      obtain ⟨a, b⟩ := seqR_all Tree.write ms (fun t _ => write_mono t)
        (R := fun t => Uniform .error t ∨ Uniform st t) (Q := Uniform st) hmem
        (fun t ht e hle => (ih t ht e (hu t ht)).1 hle) e
      obtain ⟨c, d⟩ := failTail_uniform true true st hs _ _ a b
      exact ⟨c, fun h => Or.inl (d h), fun h _ => d h⟩

theorem diag_uniform (s : LayerState) (t : Tree σ) : ∀ e, Uniform s t → Uniform s (t.diag e).1 := by
  induction t using Tree.induct with
  | leaf id st h tr =>
    intro e hu
    rw [uniform_leaf] at hu; subst hu
    unfold Tree.diag; split <;> rw [uniform_leaf]
  | group stack st ms ih =>
    intro e hu
    rw [uniform_group] at hu
    unfold Tree.diag; split
    · rw [uniform_group]
      simp only [diagList_eq]
      exact ⟨hu.1, (seqF_all _ ms (fun t _ => diag_mono t) (R := Uniform s) (Q := fun _ => True)
        (fun t ht e => ih t ht e (hu.2 t ht)) (fun _ _ _ _ => trivial) e).1⟩
    · rw [uniform_group]; exact hu

/-! life cycle of every leaf -/

theorem lifeOk_step (id : Nat) (st st' : LayerState) (h : Handlers σ) (tr : List Method) (m : Method) (p p' : Phase)
    (hok : LifeOk (.leaf id st h tr)) (hp : phaseOf st = some p) (hc : lifeCycle p m = some p') (hp' : phaseOf st' = some p') :
    LifeOk (.leaf id st' h (tr ++ [m])) := by
  rw [lifeOk_leaf] at *
  obtain ⟨q, h1, h2⟩ := hok
  rw [hp] at h2
  obtain rfl := Option.some.inj h2
  exact ⟨p', by rw [lifeAfter_snoc, h1]; exact hc, hp'⟩

theorem lifeOk_stable (id : Nat) (st : LayerState) (h : Handlers σ) (tr : List Method) (hok : LifeOk (.leaf id st h tr)) :
    st = .off ∨ st = .error ∨ st = .ready := by
  rw [lifeOk_leaf] at hok
  obtain ⟨q, _, h2⟩ := hok
  cases st <;> simp [phaseOf] at h2 <;> simp

theorem shutdown_life (t : Tree σ) : ∀ e, LifeOk t → LifeOk (t.shutdown e).1 := by
  induction t using Tree.induct with
  | leaf id st h tr =>
    intro e hok
    unfold Tree.shutdown
    rcases lifeOk_stable id st h tr hok with rfl | rfl | rfl
    · simpa using hok
    · rw [if_pos (by simp)]; exact lifeOk_step _ _ _ _ _ _ .halted .off hok rfl rfl rfl
    · rw [if_pos (by simp)]; exact lifeOk_step _ _ _ _ _ _ .running .off hok rfl rfl rfl
  | group stack st ms ih =>
    intro e hok
    rw [lifeOk_group] at hok
    unfold Tree.shutdown; split
    · rw [lifeOk_group]
      cases stack
      · simp only [Bool.false_eq_true, if_false, shutdownList_eq]
        exact (seqF_all _ ms (fun t _ => shutdown_mono t) (R := LifeOk) (Q := fun _ => True)
          (fun t ht e => ih t ht e (hok t ht)) (fun _ _ _ _ => trivial) e).1
      · simp only [if_true, shutdownRev_eq]
        exact (seqR_all _ ms (fun t _ => shutdown_mono t) (R := LifeOk) (Q := fun _ => True)
          (fun t ht e => ih t ht e (hok t ht)) (fun _ _ _ _ => trivial) e).1
    · rw [lifeOk_group]; exact hok

theorem halt_life (t : Tree σ) : ∀ e, LifeOk t → LifeOk (t.halt e).1 := by
  induction t using Tree.induct with
  | leaf id st h tr =>
    intro e hok
    unfold Tree.halt
    rcases lifeOk_stable id st h tr hok with rfl | rfl | rfl
    · simpa [LayerState.toNat] using hok
    · simpa [LayerState.toNat] using hok
    · rw [if_pos (by decide)]; exact lifeOk_step _ _ _ _ _ _ .running .halted hok rfl rfl rfl
  | group stack st ms ih =>
    intro e hok
    rw [lifeOk_group] at hok
    unfold Tree.halt; split
    · rw [lifeOk_group]
      simp only [haltList_eq]
      exact (seqF_all _ ms (fun t _ => halt_mono t) (R := LifeOk) (Q := fun _ => True)
          (fun t ht e => ih t ht e (hok t ht)) (fun _ _ _ _ => trivial) e).1
    · rw [lifeOk_group]; exact hok

theorem haltMembers_life (ms : List (Tree σ)) (e : Env σ) (h : ∀ t ∈ ms, LifeOk t) :
    (∀ t ∈ (haltList ms e).1, LifeOk t) ∧ (∀ t ∈ (haltRev ms e).1, LifeOk t) := by
  rw [haltList_eq, haltRev_eq]
  exact ⟨(seqF_all _ ms (fun t _ => halt_mono t) (R := LifeOk) (Q := fun _ => True)
      (fun t ht e => halt_life t e (h t ht)) (fun _ _ _ _ => trivial) e).1,
    (seqR_all _ ms (fun t _ => halt_mono t) (R := LifeOk) (Q := fun _ => True)
      (fun t ht e => halt_life t e (h t ht)) (fun _ _ _ _ => trivial) e).1⟩

theorem lifeAfter_step (tr : List Method) (m : Method) (p p' : Phase) (h : lifeAfter tr = some p) (hc : lifeCycle p m = some p') :
    lifeAfter (tr ++ [m]) = some p' := by rw [lifeAfter_snoc, h]; exact hc

theorem init_life (t : Tree σ) : ∀ e, LifeOk t → LifeOk (t.init e).1 := by
  induction t using Tree.induct with
  | leaf id st h tr =>
    intro e hok
    unfold Tree.init
    by_cases hst : st = .off
    · subst hst
      simp only [if_true]
      obtain ⟨p, h1, h2⟩ := (lifeOk_leaf _ _ _ _).1 hok
      obtain rfl := Option.some.inj h2
      have hi : lifeAfter (tr ++ [.init]) = some .running := lifeAfter_step tr _ _ _ h1 rfl
      split
      · unfold finishInit
        split
        · unfold Tree.shutdown
          rw [if_pos (by simp), lifeOk_leaf]
          exact ⟨.off, lifeAfter_step _ _ _ _ hi rfl, rfl⟩
        · simp only; rw [lifeOk_leaf]; exact ⟨.running, hi, rfl⟩
      · rename_i hb
        unfold finishInit
        rw [if_pos (by simpa using hb)]
        exact shutdown_life _ _ hok
    · rw [if_neg hst]; exact hok
  | group stack st ms ih =>
    intro e hok
    rw [lifeOk_group] at hok
    have fin : ∀ (st' : LayerState) (ms' : List (Tree σ)) e', (∀ t ∈ ms', LifeOk t) →
        LifeOk (finishInit (Tree.group stack st' ms') e').1 := by
      intro st' ms' e' h'
      unfold finishInit
      split
      · exact shutdown_life _ _ (by rw [lifeOk_group]; exact h')
      · simp only; rw [lifeOk_group]; exact h'
    unfold Tree.init
    split
    · split
      · simp only [initList_eq]
        exact fin _ _ _ (seqS_all _ ms _ (fun t _ => init_mono t) (R := LifeOk) (Q := fun _ => True) hok
          (fun t ht e => ih t ht e (hok t ht)) (fun _ _ _ _ => trivial) e).1
      · exact fin _ _ _ hok
    · rw [lifeOk_group]; exact hok

theorem recover_life (t : Tree σ) : ∀ e, LifeOk t → LifeOk (t.recover e).1 := by
  induction t using Tree.induct with
  | leaf id st h tr =>
    intro e hok
    unfold Tree.recover
    by_cases hst : st = .error
    · subst hst
      simp only [if_true]
      obtain ⟨p, h1, h2⟩ := (lifeOk_leaf _ _ _ _).1 hok
      obtain rfl := Option.some.inj h2
      have hi : lifeAfter (tr ++ [.recover]) = some .running := lifeAfter_step tr _ _ _ h1 rfl
      split
      · unfold finishRecover
        split
        · unfold Tree.halt
          rw [if_pos (by decide), lifeOk_leaf]
          exact ⟨.halted, lifeAfter_step _ _ _ _ hi rfl, rfl⟩
        · simp only; rw [lifeOk_leaf]; exact ⟨.running, hi, rfl⟩
      · rename_i hb
        unfold finishRecover
        rw [if_pos (by simpa using hb)]
        exact halt_life _ _ hok
    · rw [if_neg hst]; exact hok
  | group stack st ms ih =>
    intro e hok
    rw [lifeOk_group] at hok
    have fin : ∀ (st' : LayerState) (ms' : List (Tree σ)) e', (∀ t ∈ ms', LifeOk t) →
        LifeOk (finishRecover (Tree.group stack st' ms') e').1 := by
      intro st' ms' e' h'
      unfold finishRecover
      split
      · exact halt_life _ _ (by rw [lifeOk_group]; exact h')
      · simp only; rw [lifeOk_group]; exact h'
    unfold Tree.recover
    split
    · split
      · simp only [recoverList_eq]
        exact fin _ _ _ (seqS_all _ ms _ (fun t _ => recover_mono t) (R := LifeOk) (Q := fun _ => True) hok
          (fun t ht e => ih t ht e (hok t ht)) (fun _ _ _ _ => trivial) e).1
      · exact fin _ _ _ hok
    · rw [lifeOk_group]; exact hok

theorem failTail_life (rev stack : Bool) (st : LayerState) (ms : List (Tree σ)) (e : Env σ) (h : ∀ t ∈ ms, LifeOk t) :
    LifeOk (failTail rev stack st ms e).1 := by
  unfold failTail
  split
  · apply halt_life
    rw [lifeOk_group]
    cases rev
    · exact (haltMembers_life ms e h).1
    · exact (haltMembers_life ms e h).2
  · rw [lifeOk_group]; exact h

theorem read_life (t : Tree σ) : ∀ e, LifeOk t → LifeOk (t.read e).1 := by
  induction t using Tree.induct with
  | leaf id st h tr =>
    intro e hok
    unfold Tree.read
    rcases lifeOk_stable id st h tr hok with rfl | rfl | rfl
    · simpa [LayerState.toNat] using hok
    · rw [if_pos (by decide)]; exact lifeOk_step _ _ _ _ _ _ .halted .halted hok rfl rfl rfl
    · rw [if_pos (by decide)]; exact lifeOk_step _ _ _ _ _ _ .running .running hok rfl rfl rfl
  | group stack st ms ih =>
    intro e hok
    rw [lifeOk_group] at hok
    unfold Tree.read; split
    · simp only [readList_eq]
      exact failTail_life _ _ _ _ _ (seqF_all _ ms (fun t _ => read_mono t) (R := LifeOk) (Q := fun _ => True)
          (fun t ht e => ih t ht e (hok t ht)) (fun _ _ _ _ => trivial) e).1
    · rw [lifeOk_group]; exact hok

theorem write_life (t : Tree σ) : ∀ e, LifeOk t → LifeOk (t.write e).1 := by
  induction t using Tree.induct with
  | leaf id st h tr =>
    intro e hok
    unfold Tree.write
    rcases lifeOk_stable id st h tr hok with rfl | rfl | rfl
    · simpa [LayerState.toNat] using hok
    · rw [if_pos (by decide)]; exact lifeOk_step _ _ _ _ _ _ .halted .halted hok rfl rfl rfl
    · rw [if_pos (by decide)]; exact lifeOk_step _ _ _ _ _ _ .running .running hok rfl rfl rfl
  | group stack st ms ih =>
    intro e hok
    rw [lifeOk_group] at hok
    unfold Tree.write; split
    · apply failTail_life
      cases stack
      · simp only [Bool.false_eq_true, if_false, writeList_eq]
        exact (seqF_all _ ms (fun t _ => write_mono t) (R := LifeOk) (Q := fun _ => True)
          (fun t ht e => ih t ht e (hok t ht)) (fun _ _ _ _ => trivial) e).1
      · simp only [if_true, writeRev_eq]
        exact (seqR_all _ ms (fun t _ => write_mono t) (R := LifeOk) (Q := fun _ => True)
          (fun t ht e => ih t ht e (hok t ht)) (fun _ _ _ _ => trivial) e).1
    · rw [lifeOk_group]; exact hok

theorem diag_life (t : Tree σ) : ∀ e, LifeOk t → LifeOk (t.diag e).1 := by
  induction t using Tree.induct with
  | leaf id st h tr =>
    intro e hok
    unfold Tree.diag
    rcases lifeOk_stable id st h tr hok with rfl | rfl | rfl
    · simpa [LayerState.toNat] using hok
    · rw [if_pos (by decide)]; exact lifeOk_step _ _ _ _ _ _ .halted .halted hok rfl rfl rfl
    · rw [if_pos (by decide)]; exact lifeOk_step _ _ _ _ _ _ .running .running hok rfl rfl rfl
  | group stack st ms ih =>
    intro e hok
    rw [lifeOk_group] at hok
    unfold Tree.diag; split
    · rw [lifeOk_group]
      simp only [diagList_eq]
      exact (seqF_all _ ms (fun t _ => diag_mono t) (R := LifeOk) (Q := fun _ => True)
          (fun t ht e => ih t ht e (hok t ht)) (fun _ _ _ _ => trivial) e).1
    · rw [lifeOk_group]; exact hok

theorem call_life (t : Tree σ) (m : Method) (e : Env σ) (h : LifeOk t) : LifeOk (t.call m e).1 := by
  cases m
  · exact read_life t e h
  · exact write_life t e h
  · exact diag_life t e h
  · exact init_life t e h
  · exact shutdown_life t e h
  · exact halt_life t e h
  · exact recover_life t e h

theorem run_life (ops : List (Method × Status)) (t : Tree σ) (e : Env σ) (h : LifeOk t) : LifeOk (t.run e ops).1 := by
  induction ops generalizing t e with
  | nil => exact h
  | cons o ops ih => obtain ⟨m, s⟩ := o; exact ih _ _ (call_life t m _ h)

/-! order -/

theorem seqF_inOrder (f : Meth σ) (ts : List (Tree σ)) (e : Env σ) : InOrder f ts e (seqF f ts e).1 (seqF f ts e).2 := by
  induction ts generalizing e with
  | nil => exact .nil e
  | cons t ts ih => exact .cons _ _ _ _ _ _ _ rfl (ih _)

theorem _root_.Verif.Spec.InOrder.append {f : Meth σ} {a a' b b' : List (Tree σ)} {e1 e2 e3 : Env σ} (h1 : InOrder f a e1 a' e2)
    (h2 : InOrder f b e2 b' e3) : InOrder f (a ++ b) e1 (a' ++ b') e3 := by
  induction h1 with
  | nil => exact h2
  | cons t ts e t' e' ts' e'' hf _ ih => exact .cons _ _ _ _ _ _ _ hf (ih h2)

theorem seqR_inOrder (f : Meth σ) (ts : List (Tree σ)) (e : Env σ) :
    InOrder f ts.reverse e (seqR f ts e).1.reverse (seqR f ts e).2 := by
  induction ts generalizing e with
  | nil => exact .nil e
  | cons t ts ih =>
    simp only [seqR, List.reverse_cons]
    exact (ih e).append (.cons _ _ _ _ _ _ _ rfl (.nil _))

/-- a run that stops at the first failing member -/
theorem seqS_cases (f : Meth σ) (hm : ∀ t e, sv e ≤ sv (f t e).2) (ts : List (Tree σ)) (e : Env σ) (hb : sv e ≤ 1) :
    (InOrder f ts e (seqS f ts true e).1 (seqS f ts true e).2 ∧ sv (seqS f ts true e).2 ≤ 1) ∨
    (∃ pre m post pre' e1, ts = pre ++ m :: post ∧ InOrder f pre e pre' e1 ∧ sv e1 ≤ 1 ∧ 1 < sv (f m e1).2 ∧
      seqS f ts true e = (pre' ++ (f m e1).1 :: post, (f m e1).2)) := by
  induction ts generalizing e with
  | nil => exact Or.inl ⟨.nil e, hb⟩
  | cons t ts ih =>
    by_cases hc : sv (f t e).2 ≤ 1
    · have heq : seqS f (t :: ts) true e = ((f t e).1 :: (seqS f ts true (f t e).2).1, (seqS f ts true (f t e).2).2) := by
        rw [seqS]
        simp only
        rw [if_neg]
        rw [Bool.true_and, not_bounded_iff]; omega
      rcases ih _ hc with ⟨h1, h2⟩ | ⟨pre, m, post, pre', e1, h1, h2, h3, h4, h5⟩
      · left; rw [heq]; exact ⟨.cons _ _ _ _ _ _ _ rfl h1, h2⟩
      · right
        refine ⟨t :: pre, m, post, (f t e).1 :: pre', e1, by rw [h1]; rfl, .cons _ _ _ _ _ _ _ rfl h2, h3, h4, ?_⟩
        rw [heq, h5]; rfl
    · right
      refine ⟨[], t, ts, [], e, rfl, .nil e, hb, by omega, ?_⟩
      rw [seqS]
      simp only
      rw [if_pos]
      · rfl
      · rw [Bool.true_and, not_bounded_iff]; omega

end Verif.Lay
