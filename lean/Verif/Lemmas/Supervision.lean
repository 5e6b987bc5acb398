import Verif.Spec.Supervision
import Verif.Lemmas.Layer
import Verif.Lemmas.Driver
import Verif.Lemmas.Frame

/-!
# Lemmas about watching a chain
-/

namespace Verif.Sup
open Verif Verif.Lay Verif.Drv Verif.Spec Verif.Spec.Sup Verif.MStk

theorem from_error (old : Frame) (k : KFrame) : (fromKernel old k).isError = decide (k.canId &&& CAN_ERR_FLAG ≠ 0#32) := by
  unfold fromKernel
  dsimp only
  split <;> simp_all

theorem from_header (old : Frame) (k : KFrame) (h : (fromKernel old k).isError = false) : (fromKernel old k).toHeader = (fromKernel default k).toHeader := by
  rw [from_error, decide_eq_false_iff_not] at h
  unfold fromKernel
  dsimp only
  rw [if_neg h, if_neg h]

theorem key_error_ne (g h : Header) (hg : g.isError = false) (hh : h.isError = true) : h.key ≠ g.key := by
  intro e
  unfold Header.key at e
  rw [hg, hh] at e
  simp only [if_true, Bool.false_eq_true, if_false] at e
  have : (⟨0, true, false, false⟩ : Header).fullid = g.fullid := by rw [← e]; decide
  have := fullid_inj this
  rw [← this] at hg
  cases hg

theorem carries_iff (old : Frame) (k : KFrame) (h : Header) (hh : h.isError = false) : (fromKernel old k).key = h.key ↔ Carries k h := by
  unfold Carries
  constructor
  · intro e
    cases he : (fromKernel old k).isError with
    | true => exact absurd e (key_error_ne h _ hh he)
    | false =>
      rw [← from_header old k he]
      apply fullid_inj
      unfold Header.key at e
      rw [hh, he] at e
      simpa using e
  · intro e
    have he : (fromKernel old k).isError = false := by
      have h1 : (fromKernel default k).isError = false := by rw [e]; exact hh
      rw [from_error] at h1 ⊢
      exact h1
    rw [from_header old k he, e]

theorem nmtHeader_eq (id : Byte) : Many.nmtHeader id = errorControl id := by
  unfold Many.nmtHeader errorControl Header.msg Header.mk'
  congr 1
  apply BitVec.eq_of_toNat_eq
  simp only [BitVec.toNat_setWidth, BitVec.toNat_add, BitVec.toNat_ofNat]
  have := id.isLt
  omega

theorem emcyHeader_eq (c : BitVec 32) : Emcy.header c = emergencyHeader c := by
  unfold Emcy.header emergencyHeader
  congr 1

theorem nmt_id (n : Nmt.Node) (f : Frame) (now : Int) : (n.handleNMT f now).1.id = n.id ∧ (n.handleNMT f now).1.listening = n.listening := by
  unfold Nmt.Node.handleNMT
  split
  · exact ⟨rfl, rfl⟩
  · unfold Nmt.Node.switchState
    dsimp only
    split <;> exact ⟨rfl, rfl⟩

/-- what a step does to the nodes and emergency handlers -/
theorem step_nodes (b : Bus) (e : In) (i : Nat) :
    (b.step e).cobs = b.cobs ∧
    ((b.step e).nodes i = b.nodes i ∨ ∃ k, e = .read k ∧ Carries k (errorControl (b.nodes i).id) ∧ (b.nodes i).listening = true ∧
      (b.step e).nodes i = ((b.nodes i).handleNMT (fromKernel b.driver.input k) b.now).1) ∧
    ((b.step e).emcys i = b.emcys i ∨ ∃ k, e = .read k ∧ Carries k (emergencyHeader (b.cobs i)) ∧
      (b.step e).emcys i = (b.emcys i).handleEMCY (fromKernel b.driver.input k)) ∧
    ((b.step e).now = b.now + elapsed [e]) := by
  cases e with
  | read k =>
    refine ⟨rfl, ?_, ?_, by simp [Bus.step, Bus.deliver, elapsed]⟩
    · show (if _ then _ else _) = _ ∨ _
      by_cases h : (b.nodes i).listening ∧ (fromKernel b.driver.input k).key = (Many.nmtHeader (b.nodes i).id).key
      · right
        refine ⟨k, rfl, ?_, h.1, ?_⟩
        · rw [← carries_iff b.driver.input k _ rfl, ← nmtHeader_eq]
          exact h.2
        · exact if_pos h
      · left
        exact if_neg h
    · show (if _ then _ else _) = _ ∨ _
      by_cases h : (fromKernel b.driver.input k).key = (Emcy.header (b.cobs i)).key
      · right
        refine ⟨k, rfl, ?_, ?_⟩
        · rw [← carries_iff b.driver.input k _ rfl, ← emcyHeader_eq]
          exact h
        · exact if_pos h
      · left
        exact if_neg h
  | readError e => exact ⟨rfl, .inl rfl, .inl rfl, by simp [Bus.step, elapsed]⟩
  | send f ec =>
    unfold Bus.step
    dsimp only
    split <;> exact ⟨rfl, .inl rfl, .inl rfl, by simp [elapsed]⟩
  | time d => exact ⟨rfl, .inl rfl, .inl rfl, by simp [Bus.step, elapsed]⟩

theorem step_ids (b : Bus) (e : In) (i : Nat) : ((b.step e).nodes i).id = (b.nodes i).id ∧ ((b.step e).nodes i).listening = (b.nodes i).listening := by
  rcases (step_nodes b e i).2.1 with h | ⟨k, -, -, -, h⟩
  · rw [h]; exact ⟨rfl, rfl⟩
  · rw [h]; exact nmt_id _ _ _

theorem mayEnd_step (b : Bus) (x e : In) (f : Fault) : MayEnd (b.step x) f e ↔ MayEnd b f e := by
  cases f <;> cases e <;> simp only [MayEnd, (step_nodes b x 0).1, (step_ids b x _).1]

theorem mayEnd_run (b : Bus) (xs : List In) (e : In) (f : Fault) : MayEnd (b.run xs) f e ↔ MayEnd b f e := by
  induction xs generalizing b with
  | nil => rfl
  | cons x xs ih => exact (ih (b.step x)).trans (mayEnd_step b x e f)

theorem driver_step (b : Bus) (e : In) : (∃ o, o ≠ .runBegin ∧ b.driver.step o = .ok (b.step e).driver) ∨ (b.step e).driver = b.driver := by
  cases e with
  | read k => exact .inl ⟨.readOk k, (fun h => nomatch h), rfl⟩
  | readError e => exact .inl ⟨.readError e, (fun h => nomatch h), rfl⟩
  | send f ec =>
    unfold Bus.step
    dsimp only
    split
    · rename_i r d h
      exact .inl ⟨.send f ec, (fun h => nomatch h), by unfold Driver.step; dsimp only; rw [h]⟩
    · exact .inr rfl
  | time d => exact .inr rfl

theorem bus_keeps (b : Bus) (e : In) (h : b.driver.state.driver ≠ .ready) :
    (b.step e).driver.state.driver ≠ .ready ∧ (b.step e).driver.wire = b.driver.wire := by
  rcases driver_step b e with ⟨o, h1, h2⟩ | h1
  · exact step_notReady _ _ o h1 h h2
  · rw [h1]; exact ⟨h, rfl⟩

theorem step_keeps (b : Bus) (f : Fault) (e : In) (h : Has b f) (he : ¬ MayEnd b f e) : Has (b.step e) f := by
  cases f with
  | bus => exact (bus_keeps b e h).1
  | emergency i =>
    rcases (step_nodes b e i).2.2.1 with h1 | ⟨k, rfl, h2, -⟩
    · simp only [Has] at h ⊢
      rw [h1]; exact h
    · exact absurd h2 he
  | down i =>
    rcases (step_nodes b e i).2.1 with h1 | ⟨k, rfl, h2, -⟩
    · simp only [Has] at h ⊢
      rw [h1]; exact h
    · exact absurd h2 he
  | silent i =>
    rcases (step_nodes b e i).2.1 with h1 | ⟨k, rfl, h2, -⟩
    · simp only [Has] at h ⊢
      rw [h1, (step_nodes b e i).2.2.2]
      obtain ⟨v, a1, a2, a3⟩ := h
      exact ⟨v, a1, a2, by omega⟩
    · exact absurd h2 he

theorem run_keeps (b : Bus) (f : Fault) (es : List In) (h : Has b f) (he : ∀ e ∈ es, ¬ MayEnd b f e) : Has (b.run es) f := by
  induction es generalizing b with
  | nil => exact h
  | cons e es ih =>
    refine ih (b.step e) (step_keeps b f e h (he e List.mem_cons_self)) ?_
    intro x hx
    rw [mayEnd_step]
    exact he x (List.mem_cons_of_mem _ hx)

theorem interval_known (n : Nmt.Node) (v : Nat) (h : Interval n v) (s : Option (BitVec 16)) :
    ∃ x : BitVec 16, n.hb.interval s = (n.hb, some x) ∧ x.toNat = v := by
  unfold Nmt.Hb.interval
  rcases h with ⟨h1, h2, h3⟩ | ⟨h1, rfl⟩
  · exact ⟨n.hb.buf, by simp [h1, h2], h3⟩
  · exact ⟨0, by simp [h1], rfl⟩

theorem from_data (old : Frame) (k : KFrame) (i : Nat) (hi : i < 8) (h : i < k.dlc.toNat) : (fromKernel old k).data[i] = k.data[i] := by
  unfold fromKernel
  dsimp only
  split <;> simp [h]

theorem nmt_state (n : Nmt.Node) (f : Frame) (now : Int) (v : Nat) (h : Interval n v) :
    (n.handleNMT f now).1.state = f.data[0] ∧ (n.handleNMT f now).1.hb = n.hb ∧ (v ≠ 0 → (n.handleNMT f now).1.hbTimeout = now + 3 * v) := by
  obtain ⟨x, hx, hv⟩ := interval_known n v h none
  unfold Nmt.Node.handleNMT
  rw [hx]
  dsimp only
  unfold Nmt.Node.switchState
  dsimp only
  have hz : v ≠ 0 → x ≠ 0 := by
    rintro h1 rfl
    exact h1 (by rw [← hv]; rfl)
  split
  · refine ⟨rfl, rfl, fun h1 => ?_⟩
    show (if x ≠ 0 then _ else _) = _
    rw [if_pos (hz h1), hv]
  · rename_i hne
    refine ⟨by simpa using hne, rfl, fun h1 => ?_⟩
    show (if x ≠ 0 then _ else _) = _
    rw [if_pos (hz h1), hv]

theorem byte_mask (x : Byte) (j : Nat) (hj : j ≠ 5) (h : x.getLsbD j = true) : (x &&& ~~~ (32 : Byte)) ≠ 0 := by
  intro e
  have hlt : j < 8 := by
    apply Classical.byContradiction
    intro hn
    rw [BitVec.getLsbD_of_ge _ _ (by omega)] at h
    cases h
  have h1 : ∀ n, n < 8 → n ≠ 5 → (~~~ (32 : Byte)).getLsbD n = true := by decide
  have := congrArg (fun y => y.getLsbD j) e
  simp only [BitVec.getLsbD_and, h, h1 j hlt hj] at this
  simp at this

/-- where the driver goes to the nodes -/
theorem step_read_node (b : Bus) (k : KFrame) (i : Nat) (hl : (b.nodes i).listening = true) (hc : Carries k (errorControl (b.nodes i).id)) :
    (b.step (.read k)).nodes i = ((b.nodes i).handleNMT (fromKernel b.driver.input k) b.now).1 := by
  show (if _ then _ else _) = _
  exact if_pos ⟨hl, by rw [nmtHeader_eq]; exact (carries_iff b.driver.input k _ rfl).2 hc⟩

theorem step_read_emcy (b : Bus) (k : KFrame) (i : Nat) (hc : Carries k (emergencyHeader (b.cobs i))) :
    (b.step (.read k)).emcys i = (b.emcys i).handleEMCY (fromKernel b.driver.input k) := by
  show (if _ then _ else _) = _
  exact if_pos (by rw [emcyHeader_eq]; exact (carries_iff b.driver.input k _ rfl).2 hc)

/-! cycles -/

variable {σ : Type}

theorem someOf_iff (P : Handlers σ → Prop) (ms : List (Tree σ)) : SomeOf P ms ↔ ∃ t ∈ ms, SomeLeaf P t := by
  induction ms with
  | nil => unfold SomeOf; simp
  | cons t ts ih => unfold SomeOf; rw [ih]; simp

theorem everyOf_iff (P : Handlers σ → Prop) (ms : List (Tree σ)) : EveryOf P ms ↔ ∀ t ∈ ms, EveryLeaf P t := by
  induction ms with
  | nil => unfold EveryOf; simp
  | cons t ts ih => unfold EveryOf; rw [ih]; simp

theorem everyLeaf_group (P : Handlers σ → Prop) (s : Bool) (st : LayerState) (ms : List (Tree σ)) :
    EveryLeaf P (.group s st ms) ↔ ∀ t ∈ ms, EveryLeaf P t := by
  rw [← everyOf_iff]; unfold EveryLeaf; rfl

theorem someLeaf_group (P : Handlers σ → Prop) (s : Bool) (st : LayerState) (ms : List (Tree σ)) :
    SomeLeaf P (.group s st ms) ↔ ∃ t ∈ ms, SomeLeaf P t := by
  rw [← someOf_iff]; unfold SomeLeaf; rfl

/-- the fault stays through `g`, and the layers stay such that it does -/
def Stays (f : Fault) (g : Meth (World Bus)) (t : Tree (World Bus)) : Prop :=
  EveryLeaf (Keeps f) t → (∀ e, EveryLeaf (Keeps f) (g t e).1) ∧ ∀ e, Has e.world.rest f → Has (g t e).2.world.rest f

theorem seqF_stays (f : Fault) (g : Meth (World Bus)) (ts : List (Tree (World Bus))) (h : ∀ t ∈ ts, Stays f g t) (hk : ∀ t ∈ ts, EveryLeaf (Keeps f) t) :
    ∀ e, (∀ t ∈ (seqF g ts e).1, EveryLeaf (Keeps f) t) ∧ (Has e.world.rest f → Has (seqF g ts e).2.world.rest f) := by
  induction ts with
  | nil => intro e; unfold seqF; exact ⟨fun t ht => (by cases ht), id⟩
  | cons t ts ih =>
    intro e
    obtain ⟨a1, a2⟩ := h t List.mem_cons_self (hk t List.mem_cons_self)
    obtain ⟨b1, b2⟩ := ih (fun t ht => h t (List.mem_cons_of_mem _ ht)) (fun t ht => hk t (List.mem_cons_of_mem _ ht)) (g t e).2
    unfold seqF
    refine ⟨fun u hu => ?_, fun he => b2 (a2 e he)⟩
    rcases List.mem_cons.1 hu with rfl | hu
    · exact a1 e
    · exact b1 u hu

theorem seqR_stays (f : Fault) (g : Meth (World Bus)) (ts : List (Tree (World Bus))) (h : ∀ t ∈ ts, Stays f g t) (hk : ∀ t ∈ ts, EveryLeaf (Keeps f) t) :
    ∀ e, (∀ t ∈ (seqR g ts e).1, EveryLeaf (Keeps f) t) ∧ (Has e.world.rest f → Has (seqR g ts e).2.world.rest f) := by
  induction ts with
  | nil => intro e; unfold seqR; exact ⟨fun t ht => (by cases ht), id⟩
  | cons t ts ih =>
    intro e
    obtain ⟨a1, a2⟩ := h t List.mem_cons_self (hk t List.mem_cons_self)
    obtain ⟨b1, b2⟩ := ih (fun t ht => h t (List.mem_cons_of_mem _ ht)) (fun t ht => hk t (List.mem_cons_of_mem _ ht)) e
    unfold seqR
    refine ⟨fun u hu => ?_, fun he => a2 _ (b2 he)⟩
    rcases List.mem_cons.1 hu with rfl | hu
    · exact a1 _
    · exact b1 u hu

theorem call_world (id : Nat) (h : Handlers σ) (m : Method) (st : LayerState) (e : Env σ) :
    (callHandler id h m st e).world = (h.run m st e.world e.status).1 := rfl

theorem halt_stays (f : Fault) (t : Tree (World Bus)) : Stays f Tree.halt t := by
  induction t using Tree.induct with
  | leaf id st h tr =>
    intro hk
    have hk' : Keeps f h := by unfold EveryLeaf at hk; exact hk
    refine ⟨fun e => ?_, fun e he => ?_⟩
    · unfold Tree.halt; split <;> (unfold EveryLeaf; exact hk')
    · unfold Tree.halt
      split
      · exact hk' _ _ _ _ (.inr (.inr rfl)) he
      · exact he
  | group stack st ms ih =>
    intro hk
    rw [everyLeaf_group] at hk
    refine ⟨fun e => ?_, fun e he => ?_⟩
    · unfold Tree.halt
      split
      · rw [everyLeaf_group, haltList_eq]
        exact (seqF_stays f _ ms ih hk e).1
      · rw [everyLeaf_group]; exact hk
    · unfold Tree.halt
      split
      · rw [haltList_eq]
        exact (seqF_stays f _ ms ih hk e).2 he
      · exact he

theorem failTail_stays (f : Fault) (rev stack : Bool) (st : LayerState) (ms : List (Tree (World Bus))) (hk : ∀ t ∈ ms, EveryLeaf (Keeps f) t) (e : Env (World Bus)) :
    EveryLeaf (Keeps f) (failTail rev stack st ms e).1 ∧ (Has e.world.rest f → Has (failTail rev stack st ms e).2.world.rest f) := by
  unfold failTail
  split
  · dsimp only
    have hr : ∀ r, r = (if rev then haltRev ms e else haltList ms e) → (∀ t ∈ r.1, EveryLeaf (Keeps f) t) ∧ (Has e.world.rest f → Has r.2.world.rest f) := by
      rintro r rfl
      cases rev
      · simp only [Bool.false_eq_true, if_false]; rw [haltList_eq]; exact seqF_stays f _ ms (fun t _ => halt_stays f t) hk e
      · simp only [if_true]; rw [haltRev_eq]; exact seqR_stays f _ ms (fun t _ => halt_stays f t) hk e
    obtain ⟨h1, h2⟩ := hr _ rfl
    have h3 := halt_stays f (.group stack st (if rev then haltRev ms e else haltList ms e).1) ((everyLeaf_group _ _ _ _).2 h1)
    exact ⟨h3.1 _, fun he => h3.2 _ (h2 he)⟩
  · exact ⟨(everyLeaf_group _ _ _ _).2 hk, id⟩

theorem read_stays (f : Fault) (t : Tree (World Bus)) : Stays f Tree.read t := by
  induction t using Tree.induct with
  | leaf id st h tr =>
    intro hk
    have hk' : Keeps f h := by unfold EveryLeaf at hk; exact hk
    refine ⟨fun e => ?_, fun e he => ?_⟩
    · unfold Tree.read; split <;> (unfold EveryLeaf; exact hk')
    · unfold Tree.read
      split
      · exact hk' _ _ _ _ (.inl rfl) he
      · exact he
  | group stack st ms ih =>
    intro hk
    rw [everyLeaf_group] at hk
    have key : ∀ e, EveryLeaf (Keeps f) (Tree.read (.group stack st ms) e).1 ∧ (Has e.world.rest f → Has (Tree.read (.group stack st ms) e).2.world.rest f) := by
      intro e
      unfold Tree.read
      split
      · rw [readList_eq]
        obtain ⟨h1, h2⟩ := seqF_stays f _ ms ih hk e
        obtain ⟨h3, h4⟩ := failTail_stays f false stack st _ h1 (seqF Tree.read ms e).2
        exact ⟨h3, fun he => h4 (h2 he)⟩
      · exact ⟨(everyLeaf_group _ _ _ _).2 hk, id⟩
    exact ⟨fun e => (key e).1, fun e => (key e).2⟩

theorem write_stays (f : Fault) (t : Tree (World Bus)) : Stays f Tree.write t := by
  induction t using Tree.induct with
  | leaf id st h tr =>
    intro hk
    have hk' : Keeps f h := by unfold EveryLeaf at hk; exact hk
    refine ⟨fun e => ?_, fun e he => ?_⟩
    · unfold Tree.write; split <;> (unfold EveryLeaf; exact hk')
    · unfold Tree.write
      split
      · exact hk' _ _ _ _ (.inr (.inl rfl)) he
      · exact he
  | group stack st ms ih =>
    intro hk
    rw [everyLeaf_group] at hk
    have key : ∀ e, EveryLeaf (Keeps f) (Tree.write (.group stack st ms) e).1 ∧ (Has e.world.rest f → Has (Tree.write (.group stack st ms) e).2.world.rest f) := by
      intro e
      unfold Tree.write
      split
      · dsimp only
        have hr : ∀ r, r = (if stack then writeRev ms e else writeList ms e) → (∀ t ∈ r.1, EveryLeaf (Keeps f) t) ∧ (Has e.world.rest f → Has r.2.world.rest f) := by
          rintro r rfl
          cases stack
          · simp only [Bool.false_eq_true, if_false]; rw [writeList_eq]; exact seqF_stays f _ ms ih hk e
          · simp only [if_true]; rw [writeRev_eq]; exact seqR_stays f _ ms ih hk e
        obtain ⟨h1, h2⟩ := hr _ rfl
        obtain ⟨h3, h4⟩ := failTail_stays f stack stack st _ h1 (if stack then writeRev ms e else writeList ms e).2
        exact ⟨h3, fun he => h4 (h2 he)⟩
      · exact ⟨(everyLeaf_group _ _ _ _).2 hk, id⟩
    exact ⟨fun e => (key e).1, fun e => (key e).2⟩

/-- a call of the layer that watches ends with an error -/
def Alarm (f : Fault) (m : Method) (P : Handlers (World Bus) → Prop) : Prop :=
  ∀ id h e, P h → Keeps f h → Has e.world.rest f → 1 < sv (callHandler id h m .ready e)

theorem read_detects (f : Fault) (P : Handlers (World Bus) → Prop) (ha : Alarm f .read P) (t : Tree (World Bus)) (hk : EveryLeaf (Keeps f) t) (hw : SomeLeaf P t)
    (hu : Uniform .ready t) (e : Env (World Bus)) (he : Has e.world.rest f) : 1 < sv (t.read e).2 := by
  induction t using Tree.induct generalizing e with
  | leaf id st h tr =>
    have hk' : Keeps f h := by unfold EveryLeaf at hk; exact hk
    have hw' : P h := by unfold SomeLeaf at hw; exact hw
    have hst : st = .ready := by unfold Uniform at hu; exact hu
    subst hst
    exact ha id h e hw' hk' he
  | group stack st ms ih =>
    rw [everyLeaf_group] at hk
    rw [someLeaf_group] at hw
    obtain ⟨rfl, hu'⟩ : st = .ready ∧ ∀ t ∈ ms, Uniform .ready t := by
      unfold Uniform at hu; rw [uniformAll_iff] at hu; exact hu
    have key : ∀ (ts : List (Tree (World Bus))) (e : Env (World Bus)), (∀ t ∈ ts, t ∈ ms) → (∃ t ∈ ts, SomeLeaf P t) → Has e.world.rest f → 1 < sv (seqF Tree.read ts e).2 := by
      intro ts
      induction ts with
      | nil => rintro e - ⟨t, ht, -⟩; cases ht
      | cons t ts iht =>
        intro e hsub hsome he
        unfold seqF
        have hm : ∀ u ∈ ts, ∀ e, sv e ≤ sv (u.read e).2 := fun u _ => read_mono u
        obtain ⟨u, hu1, hu2⟩ := hsome
        rcases List.mem_cons.1 hu1 with rfl | hu1
        · exact Nat.lt_of_lt_of_le (ih u (hsub u List.mem_cons_self) (hk u (hsub u List.mem_cons_self)) hu2 (hu' u (hsub u List.mem_cons_self)) e he) (seqF_mono Tree.read ts hm _)
        · exact iht _ (fun x hx => hsub x (List.mem_cons_of_mem _ hx)) ⟨u, hu1, hu2⟩ ((read_stays f t (hk t (hsub t List.mem_cons_self))).2 e he)
    have h1 := key ms e (fun _ h => h) hw he
    show 1 < sv (failTail false stack .ready (readList ms e).1 (readList ms e).2).2
    rw [readList_eq]
    exact Nat.lt_of_lt_of_le h1 (failTail_mono _ _ _ _ _)

theorem write_detects (f : Fault) (P : Handlers (World Bus) → Prop) (ha : Alarm f .write P) (t : Tree (World Bus)) (hk : EveryLeaf (Keeps f) t) (hw : SomeLeaf P t)
    (hu : Uniform .ready t) (e : Env (World Bus)) (he : Has e.world.rest f) : 1 < sv (t.write e).2 := by
  induction t using Tree.induct generalizing e with
  | leaf id st h tr =>
    have hk' : Keeps f h := by unfold EveryLeaf at hk; exact hk
    have hw' : P h := by unfold SomeLeaf at hw; exact hw
    have hst : st = .ready := by unfold Uniform at hu; exact hu
    subst hst
    exact ha id h e hw' hk' he
  | group stack st ms ih =>
    rw [everyLeaf_group] at hk
    rw [someLeaf_group] at hw
    obtain ⟨rfl, hu'⟩ : st = .ready ∧ ∀ t ∈ ms, Uniform .ready t := by
      unfold Uniform at hu; rw [uniformAll_iff] at hu; exact hu
    have keyF : ∀ (ts : List (Tree (World Bus))) (e : Env (World Bus)), (∀ t ∈ ts, t ∈ ms) → (∃ t ∈ ts, SomeLeaf P t) → Has e.world.rest f → 1 < sv (seqF Tree.write ts e).2 := by
      intro ts
      induction ts with
      | nil => rintro e - ⟨t, ht, -⟩; cases ht
      | cons t ts iht =>
        intro e hsub hsome he
        unfold seqF
        have hm : ∀ u ∈ ts, ∀ e, sv e ≤ sv (u.write e).2 := fun u _ => write_mono u
        obtain ⟨u, hu1, hu2⟩ := hsome
        rcases List.mem_cons.1 hu1 with rfl | hu1
        · exact Nat.lt_of_lt_of_le (ih u (hsub u List.mem_cons_self) (hk u (hsub u List.mem_cons_self)) hu2 (hu' u (hsub u List.mem_cons_self)) e he) (seqF_mono Tree.write ts hm _)
        · exact iht _ (fun x hx => hsub x (List.mem_cons_of_mem _ hx)) ⟨u, hu1, hu2⟩ ((write_stays f t (hk t (hsub t List.mem_cons_self))).2 e he)
    have keyR : ∀ (ts : List (Tree (World Bus))) (e : Env (World Bus)), (∀ t ∈ ts, t ∈ ms) → (∃ t ∈ ts, SomeLeaf P t) → Has e.world.rest f → 1 < sv (seqR Tree.write ts e).2 := by
      intro ts
      induction ts with
      | nil => rintro e - ⟨t, ht, -⟩; cases ht
      | cons t ts iht =>
        intro e hsub hsome he
        unfold seqR
        obtain ⟨u, hu1, hu2⟩ := hsome
        rcases List.mem_cons.1 hu1 with rfl | hu1
        · refine ih u (hsub u List.mem_cons_self) (hk u (hsub u List.mem_cons_self)) hu2 (hu' u (hsub u List.mem_cons_self)) _ ?_
          exact (seqR_stays f _ ts (fun t _ => write_stays f t) (fun t ht => hk t (hsub t (List.mem_cons_of_mem _ ht))) e).2 he
        · exact Nat.lt_of_lt_of_le (iht e (fun x hx => hsub x (List.mem_cons_of_mem _ hx)) ⟨u, hu1, hu2⟩ he) (write_mono t _)
    show 1 < sv (failTail stack stack .ready (if stack then writeRev ms e else writeList ms e).1 (if stack then writeRev ms e else writeList ms e).2).2
    refine Nat.lt_of_lt_of_le ?_ (failTail_mono _ _ _ _ _)
    cases stack
    · simp only [Bool.false_eq_true, if_false]; rw [writeList_eq]; exact keyF ms e (fun _ h => h) hw he
    · simp only [if_true]; rw [writeRev_eq]; exact keyR ms e (fun _ h => h) hw he

/-! the layers that watch -/

theorem error_call (id : Nat) (h : Handlers σ) (m : Method) (st : LayerState) (e : Env σ) (x : Text) (hr : Report.error x ∈ (h.run m st e.world e.status).2.1) :
    1 < sv (callHandler id h m st e) := by
  have gen : ∀ (rs : List Report) (s : Status), Report.error x ∈ rs → 1 < (rs.foldl Status.report s).sev.toNat := by
    intro rs
    induction rs with
    | nil => intro s h; cases h
    | cons r rs ih =>
      intro s h
      rw [List.foldl_cons]
      rcases List.mem_cons.1 h with rfl | h
      · exact Nat.lt_of_lt_of_le (Nat.lt_of_lt_of_le (by decide : 1 < Sev.error.toNat) (set_mono s .error x).2.1) (reports_mono rs _)
      · exact ih _ h
  unfold sv callHandler
  dsimp only
  have h1 := gen _ e.status hr
  split
  · exact h1
  · exact Nat.lt_of_lt_of_le h1 (set_mono _ .error _).1

theorem throw_call (id : Nat) (h : Handlers σ) (m : Method) (st : LayerState) (e : Env σ) (x : Text) (hr : (h.run m st e.world e.status).2.2 = some x) :
    1 < sv (callHandler id h m st e) := by
  unfold sv callHandler
  dsimp only
  rw [hr]
  exact Nat.lt_of_lt_of_le (by decide : 1 < Sev.error.toNat) (set_mono _ .error _).2.1

theorem node_read_rest (pre sdo pdo out o i st w s) : ((nodeHandlers pre sdo pdo out o i).run .read st w s).1.rest = w.rest.run (pre w) := by
  unfold nodeHandlers
  dsimp only
  split <;> rfl

theorem node_alarm (pre sdo pdo out o i id) (e : Env (World Bus)) (f : Fault) (hf : f = .down i ∨ f = .silent i)
    (h : Has (e.world.rest.run (pre e.world)) f) : 1 < sv (callHandler id (nodeHandlers pre sdo pdo out o i) .read .ready e) := by
  generalize hb : e.world.rest.run (pre e.world) = b at h
  have hcase : (b.nodes i).handleRead .ready b.now (sdo { e.world with rest := b }) = .heartbeatProblem ∨
      (b.nodes i).handleRead .ready b.now (sdo { e.world with rest := b }) = .notOperational ∨
      (b.nodes i).handleRead .ready b.now (sdo { e.world with rest := b }) = .exception := by
    unfold Nmt.Node.handleRead
    rw [if_pos (by decide)]
    rcases hf with rfl | rfl
    · simp only [Has] at h
      cases (b.nodes i).checkHeartbeat b.now (sdo { e.world with rest := b }) with
      | none => exact .inr (.inr rfl)
      | some x =>
        cases x
        · exact .inl rfl
        · dsimp only
          rw [if_pos (show (b.nodes i).state ≠ Nmt.Operational from h)]
          exact .inr (.inl rfl)
    · simp only [Has] at h
      obtain ⟨v, h1, h2, h3⟩ := h
      obtain ⟨x, hx, hv⟩ := interval_known _ v h1 (sdo { e.world with rest := b })
      have hc : (b.nodes i).checkHeartbeat b.now (sdo { e.world with rest := b }) = some false := by
        unfold Nmt.Node.checkHeartbeat
        rw [hx]
        dsimp only
        rw [if_neg (by rintro rfl; exact h2 (by rw [← hv]; rfl))]
        congr 1
        rw [decide_eq_false_iff_not]
        omega
      rw [hc]
      exact .inl rfl
  have hrun : ∀ r, (b.nodes i).handleRead .ready b.now (sdo { e.world with rest := b }) = r →
      (nodeHandlers pre sdo pdo out o i).run .read .ready e.world e.status = (match r with
        | .nothing => ({ e.world with rest := b }, [], none)
        | .heartbeatProblem => ({ e.world with rest := b }, [.error "heartbeat problem".toList], none)
        | .notOperational => ({ e.world with rest := b }, [.error "not operational".toList], none)
        | .exception => ({ e.world with rest := b }, [], some "heartbeat interval".toList)
        | .pdo => ({ ({ e.world with rest := b } : World Bus) with status := (pdo { e.world with rest := b }).status, display := (pdo { e.world with rest := b }).display },
            (pdo { e.world with rest := b }).reports, none)) := by
    rintro r rfl
    unfold nodeHandlers
    dsimp only
    rw [hb]
    rfl
  rcases hcase with h1 | h1 | h1
  · exact error_call _ _ _ _ _ "heartbeat problem".toList (by rw [hrun _ h1]; exact List.mem_singleton.2 rfl)
  · exact error_call _ _ _ _ _ "not operational".toList (by rw [hrun _ h1]; exact List.mem_singleton.2 rfl)
  · exact throw_call _ _ _ _ _ "heartbeat interval".toList (by rw [hrun _ h1])

theorem can_alarm (pre o id) (e : Env (World Bus)) (m : Method) (hm : m = .read ∨ m = .write)
    (h : Has (e.world.rest.run (pre e.world)) .bus) : 1 < sv (callHandler id (canHandlers pre o) m .ready e) := by
  have hr : CanL.cycleReports (e.world.rest.run (pre e.world)).driver.state .ready = [.error "CAN not ready".toList] := by
    unfold CanL.cycleReports
    exact if_pos ⟨by decide, h⟩
  refine error_call _ _ _ _ _ "CAN not ready".toList ?_
  rcases hm with rfl | rfl
  · show _ ∈ CanL.cycleReports (e.world.rest.run (pre e.world)).driver.state .ready
    rw [hr]; exact List.mem_singleton.2 rfl
  · show _ ∈ CanL.cycleReports (e.world.rest.run (pre e.world)).driver.state .ready
    rw [hr]; exact List.mem_singleton.2 rfl

theorem emcy_alarm (pre o i id) (e : Env (World Bus)) (h : Has (e.world.rest.run (pre e.world)) (.emergency i)) :
    1 < sv (callHandler id (emcyHandlers pre o i) .read .ready e) := by
  refine error_call _ _ _ _ _ "Node has emergency error".toList ?_
  show _ ∈ (if ((e.world.rest.run (pre e.world)).emcys i).handleRead .ready then [Report.error "Node has emergency error".toList] else [])
  have h' : ((e.world.rest.run (pre e.world)).emcys i).handleRead .ready = true := by
    unfold Emcy.Handler.handleRead
    simp only [Has] at h
    rw [h]; rfl
  rw [if_pos h']
  exact List.mem_singleton.2 rfl

theorem alarm_read (f : Fault) : Alarm f .read (Watches f) := by
  intro id h e hw hk he
  have := hk .read .ready e.world e.status (.inl rfl) he
  cases f with
  | bus =>
    obtain ⟨pre, o, rfl⟩ := hw
    exact can_alarm pre o id e .read (.inl rfl) this
  | emergency i =>
    obtain ⟨pre, o, rfl⟩ := hw
    exact emcy_alarm pre o i id e this
  | down i =>
    obtain ⟨pre, sdo, pdo, out, o, rfl⟩ := hw
    rw [node_read_rest] at this
    exact node_alarm pre sdo pdo out o i id e _ (.inl rfl) this
  | silent i =>
    obtain ⟨pre, sdo, pdo, out, o, rfl⟩ := hw
    rw [node_read_rest] at this
    exact node_alarm pre sdo pdo out o i id e _ (.inr rfl) this

theorem send_mayEnd (b : Bus) (f : Fault) (g : Frame) (ec : Int) : ¬ MayEnd b f (.send g ec) := by cases f <;> exact fun h => h

theorem can_keeps (f : Fault) (pre o) (h : ∀ w, ∀ x ∈ pre w, ¬ MayEnd w.rest f x) : Keeps f (canHandlers pre o) := by
  intro m st w s hm hw
  rcases hm with rfl | rfl | rfl
  · exact run_keeps _ f _ hw (h w)
  · exact run_keeps _ f _ hw (h w)
  · exact hw

theorem emcy_keeps (f : Fault) (pre o i) (h : ∀ w, ∀ x ∈ pre w, ¬ MayEnd w.rest f x) : Keeps f (emcyHandlers pre o i) := by
  intro m st w s hm hw
  rcases hm with rfl | rfl | rfl
  · exact run_keeps _ f _ hw (h w)
  · exact hw
  · exact hw

theorem node_keeps (f : Fault) (pre sdo pdo out o i) (h : ∀ w, ∀ x ∈ pre w, ¬ MayEnd w.rest f x) : Keeps f (nodeHandlers pre sdo pdo out o i) := by
  intro m st w s hm hw
  rcases hm with rfl | rfl | rfl
  · rw [node_read_rest]
    exact run_keeps _ f _ hw (h w)
  · have h1 := run_keeps _ f _ hw (h w)
    unfold nodeHandlers
    dsimp only
    split
    · exact h1
    · exact h1
    · refine run_keeps _ f _ h1 ?_
      intro x hx
      obtain ⟨p, -, rfl⟩ := List.mem_map.1 hx
      exact send_mayEnd _ _ _ _
    · refine run_keeps _ f _ h1 ?_
      intro x hx
      obtain ⟨p, -, rfl⟩ := List.mem_map.1 hx
      exact send_mayEnd _ _ _ _
  · exact hw

theorem motor_keeps (f : Fault) (o : Handlers (World Bus)) (i : Nat) : Keeps f (motorHandlers o i) := by
  intro m st w s hm hw
  rcases hm with rfl | rfl | rfl
  · show Has (readMotor i st w).1.rest f
    unfold readMotor
    dsimp only
    split
    · exact hw
    · split <;> exact hw
  · show Has (writeMotor i w).1.rest f
    unfold writeMotor
    dsimp only
    split <;> exact hw
  · exact hw

end Verif.Sup
