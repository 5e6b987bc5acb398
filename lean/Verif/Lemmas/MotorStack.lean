import Verif.Spec.MotorStack
import Verif.Lemmas.Layer

/-!
# Lemmas about motors in a chain
-/

namespace Verif.MStk
open Verif Verif.Lay Verif.M402 Verif.Spec Verif.Spec.MStk

variable {ρ : Type}

/-- a statement about a motor: state of its layer, core at a reference point, core now, severity of the status -/
abbrev Stm := LayerState → Core → Core → Nat → Prop

/-- it stays true when the status gets worse -/
def Mono (P : Stm) : Prop := ∀ st a b v v', v ≤ v' → P st a b v → P st a b v'

/-- `f` on the tree leads from `Pre` to `P` for its motors and leaves all others alone -/
def Tr (f : Meth (World ρ)) (Pre P : Stm) (t : Tree (World ρ)) : Prop :=
  ∀ (l : List (Nat × LayerState)) (e : Env (World ρ)) (c : Nat → Core), Made t l → (l.map (·.1)).Nodup → (∀ p ∈ l, Pre p.2 (c p.1) (core e.world p.1) (sv e)) →
    ∃ l', Made (f t e).1 l' ∧ l'.map (·.1) = l.map (·.1) ∧ (∀ i, i ∉ l.map (·.1) → core (f t e).2.world i = core e.world i) ∧
      ∀ p ∈ l', P p.2 (c p.1) (core (f t e).2.world p.1) (sv (f t e).2)

/-- the same for a list of trees -/
def TrAll (g : List (Tree (World ρ)) → Env (World ρ) → List (Tree (World ρ)) × Env (World ρ)) (Pre P : Stm) (ts : List (Tree (World ρ))) : Prop :=
  ∀ (l : List (Nat × LayerState)) (e : Env (World ρ)) (c : Nat → Core), MadeAll ts l → (l.map (·.1)).Nodup → (∀ p ∈ l, Pre p.2 (c p.1) (core e.world p.1) (sv e)) →
    ∃ l', MadeAll (g ts e).1 l' ∧ l'.map (·.1) = l.map (·.1) ∧ (∀ i, i ∉ l.map (·.1) → core (g ts e).2.world i = core e.world i) ∧
      ∀ p ∈ l', P p.2 (c p.1) (core (g ts e).2.world p.1) (sv (g ts e).2)

theorem disjoint_ids {a b : List (Nat × LayerState)} (h : ((a ++ b).map (·.1)).Nodup) :
    (a.map (·.1)).Nodup ∧ (b.map (·.1)).Nodup ∧ ∀ i, i ∈ a.map (·.1) → i ∉ b.map (·.1) := by
  rw [List.map_append, List.nodup_append] at h
  exact ⟨h.1, h.2.1, fun i ha hb => h.2.2 i ha i hb rfl⟩

theorem mem_ids {a : List (Nat × LayerState)} {p : Nat × LayerState} (h : p ∈ a) : p.1 ∈ a.map (·.1) := List.mem_map_of_mem h

theorem seqF_tr (f : Meth (World ρ)) {Pre P : Stm} (hPre : Mono Pre) (hP : Mono P) (ts : List (Tree (World ρ)))
    (hm : ∀ t ∈ ts, ∀ e, sv e ≤ sv (f t e).2) (h : ∀ t ∈ ts, Tr f Pre P t) : TrAll (seqF f) Pre P ts := by
  induction ts with
  | nil =>
    intro l e c hl hn hp
    have hl : l = [] := by unfold MadeAll at hl; exact hl
    subst hl
    exact ⟨[], by unfold seqF MadeAll; rfl, rfl, fun _ _ => rfl, fun p hp => by cases hp⟩
  | cons t ts ih =>
    intro l e c hl hn hp
    obtain ⟨a, b, rfl, ha, hb⟩ : ∃ a b, l = a ++ b ∧ Made t a ∧ MadeAll ts b := by unfold MadeAll at hl; exact hl
    obtain ⟨na, nb, hd⟩ := disjoint_ids hn
    obtain ⟨a', a1, a2, a3, a4⟩ := h t List.mem_cons_self a e c ha na (fun p hp' => hp p (List.mem_append_left _ hp'))
    have hm' : ∀ t ∈ ts, ∀ e, sv e ≤ sv (f t e).2 := fun t ht => hm t (List.mem_cons_of_mem _ ht)
    obtain ⟨b', b1, b2, b3, b4⟩ := ih hm' (fun t ht => h t (List.mem_cons_of_mem _ ht)) b (f t e).2 c hb nb (fun p hp' => by
      rw [a3 p.1 (fun hx => hd _ hx (mem_ids hp'))]
      exact hPre _ _ _ _ _ (hm t List.mem_cons_self e) (hp p (List.mem_append_right _ hp')))
    refine ⟨a' ++ b', ?_, ?_, ?_, ?_⟩
    · unfold seqF MadeAll
      exact ⟨a', b', rfl, a1, b1⟩
    · rw [List.map_append, List.map_append, a2, b2]
    · intro i hi
      rw [List.map_append, List.mem_append, not_or] at hi
      unfold seqF
      exact (b3 i hi.2).trans (a3 i hi.1)
    · intro p hp'
      unfold seqF
      rcases List.mem_append.1 hp' with hq | hq
      · have hin : p.1 ∈ a.map (·.1) := by rw [← a2]; exact mem_ids hq
        dsimp only
        rw [b3 p.1 (hd _ hin)]
        exact hP _ _ _ _ _ (seqF_mono f ts hm' _) (a4 p hq)
      · exact b4 p hq

theorem seqR_tr (f : Meth (World ρ)) {Pre P : Stm} (hPre : Mono Pre) (hP : Mono P) (ts : List (Tree (World ρ)))
    (hm : ∀ t ∈ ts, ∀ e, sv e ≤ sv (f t e).2) (h : ∀ t ∈ ts, Tr f Pre P t) : TrAll (seqR f) Pre P ts := by
  induction ts with
  | nil =>
    intro l e c hl hn hp
    have hl : l = [] := by unfold MadeAll at hl; exact hl
    subst hl
    exact ⟨[], by unfold seqR MadeAll; rfl, rfl, fun _ _ => rfl, fun p hp => by cases hp⟩
  | cons t ts ih =>
    intro l e c hl hn hp
    obtain ⟨a, b, rfl, ha, hb⟩ : ∃ a b, l = a ++ b ∧ Made t a ∧ MadeAll ts b := by unfold MadeAll at hl; exact hl
    obtain ⟨na, nb, hd⟩ := disjoint_ids hn
    have hm' : ∀ t ∈ ts, ∀ e, sv e ≤ sv (f t e).2 := fun t ht => hm t (List.mem_cons_of_mem _ ht)
    obtain ⟨b', b1, b2, b3, b4⟩ := ih hm' (fun t ht => h t (List.mem_cons_of_mem _ ht)) b e c hb nb (fun p hp' => hp p (List.mem_append_right _ hp'))
    obtain ⟨a', a1, a2, a3, a4⟩ := h t List.mem_cons_self a (seqR f ts e).2 c ha na (fun p hp' => by
      rw [b3 p.1 (hd _ (mem_ids hp'))]
      exact hPre _ _ _ _ _ (seqR_mono f ts hm' e) (hp p (List.mem_append_left _ hp')))
    refine ⟨a' ++ b', ?_, ?_, ?_, ?_⟩
    · unfold seqR MadeAll
      exact ⟨a', b', rfl, a1, b1⟩
    · rw [List.map_append, List.map_append, a2, b2]
    · intro i hi
      rw [List.map_append, List.mem_append, not_or] at hi
      unfold seqR
      exact (a3 i hi.1).trans (b3 i hi.2)
    · intro p hp'
      unfold seqR
      rcases List.mem_append.1 hp' with hq | hq
      · exact a4 p hq
      · have hin : p.1 ∈ b.map (·.1) := by rw [← b2]; exact mem_ids hq
        dsimp only
        rw [a3 p.1 (fun hx => hd _ hx hin)]
        exact hP _ _ _ _ _ (hm t List.mem_cons_self _) (b4 p hq)

/-! halting -/

/-- what halting does to a motor -/
def haltCore (c : Core) : Core :=
  if c.hs = .faultReaction ∨ c.hs = .fault then c
  else if c.hs ≠ .enabled then { c with target := c.hs }
  else { c with target := .quickStop, cw := opQuickStop.apply c.cw }

theorem core_halt (i : Nat) (w : World ρ) : core (haltMotor i w).1 i = haltCore (core w i) := by
  unfold haltMotor World.put haltCore core Motor.handleHalt
  simp only [if_true]
  by_cases h1 : (w.motors i).hs = .faultReaction ∨ (w.motors i).hs = .fault
  · rw [if_pos h1, if_pos h1]
  · rw [if_neg h1, if_neg h1]
    by_cases h2 : (w.motors i).hs = .enabled
    · rw [if_neg (fun h => h h2), if_neg (fun h => h h2), h2]
      rfl
    · rw [if_pos h2, if_pos h2]

theorem core_put_other (i j : Nat) (w : World ρ) (m : Motor) (h : j ≠ i) : core (w.put i m) j = core w j := by
  unfold World.put core
  simp only [if_neg h]

theorem halt_tr {P : Stm} (hP : Mono P) (hh : ∀ st a b v, st.toNat > LayerState.halt.toNat → P st a b v → P .error a (haltCore b) v)
    (t : Tree (World ρ)) : Tr Tree.halt P P t := by
  induction t using Tree.induct with
  | leaf id st h tr =>
    intro l e c hl hn hp
    unfold Tree.halt
    by_cases hst : st.toNat > LayerState.halt.toNat
    · rw [if_pos hst]
      unfold Made at hl
      rcases hl with ⟨o, rfl, rfl⟩ | ⟨hcalm, rfl⟩
      · have hw : ∀ i, core (callHandler id (motorHandlers o id) .halt .halt e).world i = core (haltMotor id e.world).1 i := fun i => rfl
        refine ⟨[(id, .error)], ?_, rfl, ?_, ?_⟩
        · unfold Made
          exact .inl ⟨o, rfl, rfl⟩
        · intro i hi
          rw [hw]
          exact core_put_other id i _ _ (by simpa using hi)
        · intro p hp'
          obtain rfl := List.mem_singleton.1 hp'
          dsimp only
          rw [hw, core_halt]
          exact hP _ _ _ _ _ (callHandler_mono _ _ _ _ _) (hh _ _ _ _ hst (hp (id, st) List.mem_cons_self))
      · exact ⟨[], by unfold Made; exact .inr ⟨hcalm, rfl⟩, rfl, fun i _ => hcalm _ _ _ _ _, fun p hp => by cases hp⟩
    · rw [if_neg hst]
      exact ⟨l, hl, rfl, fun _ _ => rfl, hp⟩
  | group stack st ms ih =>
    intro l e c hl hn hp
    unfold Tree.halt
    by_cases hst : st.toNat > LayerState.halt.toNat
    · rw [if_pos hst]
      simp only [haltList_eq]
      unfold Made at hl
      obtain ⟨l', h1, h2, h3, h4⟩ := seqF_tr Tree.halt hP hP ms (fun t _ => halt_mono t) ih l e c hl hn hp
      exact ⟨l', by unfold Made; exact h1, h2, h3, h4⟩
    · rw [if_neg hst]
      exact ⟨l, hl, rfl, fun _ _ => rfl, hp⟩

/-- a group after its members were called -/
theorem tail_tr {Pre P : Stm} (hP : Mono P) (hh : ∀ st a b v, st.toNat > LayerState.halt.toNat → P st a b v → P .error a (haltCore b) v)
    (g : List (Tree (World ρ)) → Env (World ρ) → List (Tree (World ρ)) × Env (World ρ)) (ms : List (Tree (World ρ))) (h : TrAll g Pre P ms)
    (rev stack : Bool) (st : LayerState) (l : List (Nat × LayerState)) (e : Env (World ρ)) (c : Nat → Core) (hl : MadeAll ms l)
    (hn : (l.map (·.1)).Nodup) (hp : ∀ p ∈ l, Pre p.2 (c p.1) (core e.world p.1) (sv e)) :
    ∃ l', Made (failTail rev stack st (g ms e).1 (g ms e).2).1 l' ∧ l'.map (·.1) = l.map (·.1) ∧
      (∀ i, i ∉ l.map (·.1) → core (failTail rev stack st (g ms e).1 (g ms e).2).2.world i = core e.world i) ∧
      ∀ p ∈ l', P p.2 (c p.1) (core (failTail rev stack st (g ms e).1 (g ms e).2).2.world p.1) (sv (failTail rev stack st (g ms e).1 (g ms e).2).2) := by
  obtain ⟨l1, a1, a2, a3, a4⟩ := h l e c hl hn hp
  unfold failTail
  split
  · have hall : TrAll (fun ms e => if rev then haltRev ms e else haltList ms e) P P (g ms e).1 := by
      cases rev
      · simp only [haltList_eq, Bool.false_eq_true, if_false]
        exact seqF_tr Tree.halt hP hP _ (fun t _ => halt_mono t) (fun t _ => halt_tr hP hh t)
      · simp only [haltRev_eq, if_true]
        exact seqR_tr Tree.halt hP hP _ (fun t _ => halt_mono t) (fun t _ => halt_tr hP hh t)
    obtain ⟨l2, b1, b2, b3, b4⟩ := hall l1 (g ms e).2 c a1 (by rw [a2]; exact hn) a4
    obtain ⟨l3, d1, d2, d3, d4⟩ := halt_tr hP hh (.group stack st (if rev then haltRev (g ms e).1 (g ms e).2 else haltList (g ms e).1 (g ms e).2).1) l2 _ c
      (by unfold Made; exact b1) (by rw [b2, a2]; exact hn) b4
    refine ⟨l3, d1, by rw [d2, b2, a2], fun i hi => ?_, d4⟩
    exact (d3 i (by rw [b2, a2]; exact hi)).trans ((b3 i (by rw [a2]; exact hi)).trans (a3 i hi))
  · exact ⟨l1, by unfold Made; exact a1, a2, a3, a4⟩

/-- one cycle of reading or writing: `rd` says which -/
def cyc (rd : Bool) : Meth (World ρ) := if rd then Tree.read else Tree.write

/-- the handler of a motor in a cycle -/
def cycMotor (rd : Bool) (i : Nat) (st : LayerState) (w : World ρ) : World ρ × List Report × Option Text :=
  if rd then readMotor i st w else writeMotor i w

theorem cyc_mono (rd : Bool) (t : Tree (World ρ)) (e : Env (World ρ)) : sv e ≤ sv (cyc rd t e).2 := by
  cases rd
  · exact write_mono t e
  · exact read_mono t e

theorem cycMotor_other (rd : Bool) (i j : Nat) (st : LayerState) (w : World ρ) (h : j ≠ i) : core (cycMotor rd i st w).1 j = core w j := by
  cases rd
  · show core (writeMotor i w).1 j = core w j
    unfold writeMotor
    dsimp only
    split
    · unfold World.put core
      simp only [if_neg h]
    · exact core_put_other _ _ _ _ h
  · show core (readMotor i st w).1 j = core w j
    unfold readMotor
    split
    · rfl
    · split
      · exact core_put_other _ _ _ _ h
      · exact core_put_other _ _ _ _ h

theorem cyc_tr (rd : Bool) {s : LayerState} (hs : s.toNat > LayerState.off.toNat) {P : Stm} (hP : Mono P)
    (hh : ∀ st a b v, st.toNat > LayerState.halt.toNat → P st a b v → P .error a (haltCore b) v)
    (hstep : ∀ id o (e : Env (World ρ)), P s (core e.world id) (core (cycMotor rd id s e.world).1 id)
      (sv (callHandler id (motorHandlers o id) (if rd then .read else .write) s e)))
    (t : Tree (World ρ)) (hu : Uniform s t) : Tr (cyc rd) (fun _ a b _ => b = a) P t := by
  induction t using Tree.induct with
  | leaf id st h tr =>
    rw [uniform_leaf] at hu
    subst hu
    intro l e c hl hn hp
    have hrun : cyc rd (.leaf id st h tr) e = (.leaf id st h (tr ++ [if rd then .read else .write]), callHandler id h (if rd then .read else .write) st e) := by
      cases rd
      · show Tree.write _ _ = _
        unfold Tree.write
        rw [if_pos hs]; rfl
      · show Tree.read _ _ = _
        unfold Tree.read
        rw [if_pos hs]; rfl
    rw [hrun]
    unfold Made at hl
    rcases hl with ⟨o, rfl, rfl⟩ | ⟨hcalm, rfl⟩
    · have hw : ∀ i, core (callHandler id (motorHandlers o id) (if rd then .read else .write) st e).world i = core (cycMotor rd id st e.world).1 i := by
        intro i; cases rd <;> rfl
      refine ⟨[(id, st)], ?_, rfl, ?_, ?_⟩
      · unfold Made
        exact .inl ⟨o, rfl, rfl⟩
      · intro i hi
        rw [hw]
        exact cycMotor_other rd id i st _ (by simpa using hi)
      · intro p hp'
        obtain rfl := List.mem_singleton.1 hp'
        dsimp only
        rw [hw, ← hp (id, st) List.mem_cons_self]
        exact hstep id o e
    · exact ⟨[], by unfold Made; exact .inr ⟨hcalm, rfl⟩, rfl, fun i _ => hcalm _ _ _ _ _, fun p hp => by cases hp⟩
  | group stack st ms ih =>
    rw [uniform_group] at hu
    obtain ⟨rfl, hu⟩ := hu
    intro l e c hl hn hp
    unfold Made at hl
    have hmono : Mono (fun _ a b _ => b = a) := fun _ _ _ _ _ _ h => h
    have hF := seqF_tr (cyc rd) hmono hP ms (fun t _ => cyc_mono rd t) (fun t ht => ih t ht (hu t ht))
    have hR := seqR_tr (cyc rd) hmono hP ms (fun t _ => cyc_mono rd t) (fun t ht => ih t ht (hu t ht))
    cases rd
    · show ∃ l', Made (Tree.write _ _).1 l' ∧ _ ∧ (∀ i, _ → core (Tree.write _ _).2.world i = _) ∧ ∀ p ∈ l', P p.2 _ (core (Tree.write _ _).2.world p.1) (sv (Tree.write _ _).2)
      unfold Tree.write
      rw [if_pos hs]
      cases stack
      · simp only [Bool.false_eq_true, if_false, writeList_eq]
        exact tail_tr hP hh (seqF Tree.write) ms hF _ _ _ l e c hl hn hp
      · simp only [if_true, writeRev_eq]
        exact tail_tr hP hh (seqR Tree.write) ms hR _ _ _ l e c hl hn hp
    · show ∃ l', Made (Tree.read _ _).1 l' ∧ _ ∧ (∀ i, _ → core (Tree.read _ _).2.world i = _) ∧ ∀ p ∈ l', P p.2 _ (core (Tree.read _ _).2.world p.1) (sv (Tree.read _ _).2)
      unfold Tree.read
      rw [if_pos hs]
      simp only [readList_eq]
      exact tail_tr hP hh (seqF Tree.read) ms hF _ _ _ l e c hl hn hp

/-- in a uniform tree all motors are in that state -/
theorem made_uniform {s : LayerState} (t : Tree (World ρ)) : ∀ l, Made t l → Uniform s t → ∀ p ∈ l, p.2 = s := by
  induction t using Tree.induct with
  | leaf id st h tr =>
    intro l hl hu p hp
    rw [uniform_leaf] at hu
    unfold Made at hl
    rcases hl with ⟨o, _, rfl⟩ | ⟨_, rfl⟩
    · obtain rfl := List.mem_singleton.1 hp; exact hu
    · cases hp
  | group stack st ms ih =>
    intro l hl hu p hp
    rw [uniform_group] at hu
    unfold Made at hl
    have key : ∀ ts : List (Tree (World ρ)), (∀ t ∈ ts, ∀ l, Made t l → Uniform s t → ∀ p ∈ l, p.2 = s) → (∀ t ∈ ts, Uniform s t) →
        ∀ l, MadeAll ts l → ∀ p ∈ l, p.2 = s := by
      intro ts
      induction ts with
      | nil => intro _ _ l hl p hp; unfold MadeAll at hl; subst hl; cases hp
      | cons t ts ih2 =>
        intro h1 h2 l hl p hp
        unfold MadeAll at hl
        obtain ⟨a, b, rfl, ha, hb⟩ := hl
        rcases List.mem_append.1 hp with hq | hq
        · exact h1 t List.mem_cons_self a ha (h2 t List.mem_cons_self) p hq
        · exact ih2 (fun t ht => h1 t (List.mem_cons_of_mem _ ht)) (fun t ht => h2 t (List.mem_cons_of_mem _ ht)) b hb p hq
    exact key ms ih hu.2 l hl p hp

end Verif.MStk
