import Verif.Lemmas.DummyLife

/-!
# Lemmas for C116: how far a call has come
-/

namespace Verif.Spec.DumL
open Verif Verif.DumL
open Verif.Drv (DriverState)

/-! ### Shutting down -/

/-- how far a shutdown has come that began with the results `r` and the frames `q` -/
def SAt (r : List Result) (q : List Frame) : Nat → DL → Prop
  | 0, s => s.results = r ∧ s.user = .flushing ∧ s.thread = .waiting ∧ s.state = .ready ∧ q <+: s.delivered ++ s.queue
  | 1, s => s.results = r ∧ s.user = .flushing ∧ s.thread = .waiting ∧ s.state = .ready ∧ q <+: s.delivered ∧ s.queue = []
  | 2, s => s.results = r ∧ s.user = .closing ∧ s.thread = .waiting ∧ s.state = .ready ∧ q <+: s.delivered
  | 3, s => s.results = r ∧ s.user = .dropping ∧ (s.thread = .waiting ∨ s.thread = .ended) ∧ s.state = .closed ∧ q <+: s.delivered
  | 4, s => s.results = r ∧ s.user = .interrupting false ∧ (s.thread = .waiting ∨ s.thread = .ended) ∧ s.state = .closed ∧ q <+: s.delivered ∧ s.bus = false
  | 5, s => s.results = r ∧ s.user = .joining false ∧ (s.thread = .waiting ∨ s.thread = .ended) ∧ s.state = .closed ∧ q <+: s.delivered ∧ s.bus = false ∧ s.interrupted = true
  | 6, s => s.results = r ∧ s.user = .joining false ∧ s.thread = .ended ∧ s.state = .closed ∧ q <+: s.delivered ∧ s.bus = false
  | 7, s => r ++ [.shutdown] <+: s.results ∧ s.user ≠ .waiting ∧ s.thread = .none ∧ s.state = .closed ∧ q <+: s.delivered ∧ s.bus = false
  | _, _ => False

/-- the step that leads on -/
def sleads : Nat → Ev → Bool
  | 0, .wake => true
  | 1, .poll => true
  | 2, .close => true
  | 3, .drop => true
  | 4, .interrupt => true
  | 5, .interrupted => true
  | 6, .join => true
  | _, _ => false

theorem pre_app {α : Type} {a b : List α} (c : List α) (h : a <+: b) : a <+: b ++ c := List.IsPrefix.trans h (List.prefix_append _ _)

theorem sat_le {r : List Result} {q : List Frame} {k : Nat} {s : DL} (h : SAt r q k s) : k ≤ 7 := by
  by_cases hk : k ≤ 7
  · exact hk
  · exfalso
    have : ∃ m, k = m + 8 := ⟨k - 8, by omega⟩
    obtain ⟨m, rfl⟩ := this
    exact h

/-- the next stage -/
def snext (s : DL) : Nat → Ev → Nat
  | 0, .wake => 1
  | 0, .poll => if s.queue = [] then 2 else 0
  | 1, .poll => 2
  | 1, .arrive _ => 0
  | 1, .send _ => 0
  | 2, .close => 3
  | 3, .drop => 4
  | 4, .interrupt => 5
  | 5, .interrupted => 6
  | 5, .wake => if s.thread = .waiting then 6 else 5
  | 5, .join => if s.thread = .ended then 7 else 5
  | 6, .join => 7
  | k, _ => k

set_option maxHeartbeats 2000000 in
theorem sat_step {r : List Result} {q : List Frame} {s : DL} (e : Ev) (k : Nat) (hi : ¬ IsInit e) (hs : Ses s) (h : SAt r q k s) :
    SAt r q (snext s k e) (s.step e) := by
  have hint := hs.int
  have hk := sat_le h
  match k, h with
  | 0, h =>
    obtain ⟨h1, h2, h3, h4, h5⟩ := h
    cases e <;> simp only [DL.step, DL.send, DL.enqueue, DL.wake, DL.top, snext] <;> (repeat' split) <;> simp_all [SAt, IsInit]
    all_goals (rw [← List.append_assoc]; exact pre_app _ h5)
  | 1, h =>
    obtain ⟨h1, h2, h3, h4, h5, h6⟩ := h
    cases e <;> simp only [DL.step, DL.send, DL.enqueue, DL.wake, DL.top, snext] <;> (repeat' split) <;> simp_all [SAt, IsInit, pre_app]
  | 2, h =>
    obtain ⟨h1, h2, h3, h4, h5⟩ := h
    cases e <;> simp only [DL.step, DL.send, DL.enqueue, DL.wake, DL.top, DL.setDriverState, snext] <;> (repeat' split) <;> simp_all [SAt, IsInit, pre_app]
  | 3, h =>
    obtain ⟨h1, h2, h3, h4, h5⟩ := h
    cases e <;> simp only [DL.step, DL.send, DL.enqueue, DL.wake, DL.top, DL.setDriverState, snext] <;> (repeat' split) <;> simp_all [SAt, IsInit, pre_app]
  | 4, h =>
    obtain ⟨h1, h2, h3, h4, h5, h6⟩ := h
    cases e <;> simp only [DL.step, DL.send, DL.enqueue, DL.wake, DL.top, DL.setDriverState, snext] <;> (repeat' split) <;> simp_all [SAt, IsInit, pre_app] <;> grind
  | 5, h =>
    obtain ⟨h1, h2, h3, h4, h5, h6, h7⟩ := h
    cases e <;> simp only [DL.step, DL.send, DL.enqueue, DL.wake, DL.top, DL.setDriverState, snext] <;> (repeat' split) <;> simp_all [SAt, IsInit, pre_app] <;> grind
  | 6, h =>
    obtain ⟨h1, h2, h3, h4, h5, h6⟩ := h
    cases e <;> simp only [DL.step, DL.send, DL.enqueue, DL.wake, DL.top, DL.setDriverState, snext] <;> (repeat' split) <;> simp_all [SAt, IsInit, pre_app]
  | 7, h =>
    obtain ⟨h1, h2, h3, h4, h5, h6⟩ := h
    cases e <;> simp only [DL.step, DL.send, DL.enqueue, DL.wake, DL.top, DL.setDriverState, snext] <;> (repeat' split) <;> simp_all [SAt, IsInit, pre_app]
  | k + 8, _ => omega

theorem snext_ge (s : DL) (k : Nat) (e : Ev) (hf : ¬ Feeds e) : k ≤ snext s k e ∧ (sleads k e = true → k < snext s k e) := by
  unfold snext
  split <;> simp_all [Feeds, sleads] <;> (repeat' split) <;> simp_all

theorem sat_run {r : List Result} {q : List Frame} (es : List Ev) : ∀ (s : DL) (k : Nat), (∀ e ∈ es, ¬ IsInit e) → Ses s → SAt r q k s →
    ∃ k', SAt r q k' (s.run es) ∧ ((∀ e ∈ es, ¬ Feeds e) → k ≤ k' ∧ ((∃ e ∈ es, sleads k e = true) → k < k')) := by
  induction es with
  | nil => intro s k _ _ h; exact ⟨k, h, fun _ => ⟨Nat.le_refl _, fun ⟨e, he, _⟩ => nomatch he⟩⟩
  | cons e es ih =>
    intro s k hi hs h
    have h1 := sat_step e k (hi e List.mem_cons_self) hs h
    obtain ⟨k', h2, h3⟩ := ih _ _ (fun x hx => hi x (List.mem_cons_of_mem _ hx)) (ses_step hs e) h1
    refine ⟨k', h2, fun hf => ?_⟩
    obtain ⟨g1, g2⟩ := h3 (fun x hx => hf x (List.mem_cons_of_mem _ hx))
    obtain ⟨g3, g4⟩ := snext_ge s k e (hf e List.mem_cons_self)
    refine ⟨by omega, ?_⟩
    rintro ⟨x, hx, hl⟩
    rcases List.mem_cons.1 hx with rfl | hx
    · have := g4 hl; omega
    · by_cases hk : snext s k e = k
      · rw [hk] at g2; exact g2 ⟨x, hx, hl⟩
      · omega

theorem round_sleads {es : List Ev} (h : Round es) (k : Nat) (hk : k < 7) : ∃ e ∈ es, sleads k e = true := by
  match k, hk with
  | 0, _ => exact ⟨_, h.wake, rfl⟩
  | 1, _ => exact ⟨_, h.poll, rfl⟩
  | 2, _ => exact ⟨_, h.close, rfl⟩
  | 3, _ => exact ⟨_, h.drop, rfl⟩
  | 4, _ => exact ⟨_, h.interrupt, rfl⟩
  | 5, _ => exact ⟨_, h.interrupted, rfl⟩
  | 6, _ => exact ⟨_, h.join, rfl⟩
  | k + 7, hk => omega

theorem sat_rounds {r : List Result} {q : List Frame} (rs : List (List Ev)) : ∀ (s : DL) (k : Nat),
    (∀ x ∈ rs, Round x ∧ ∀ e ∈ x, ¬ IsInit e ∧ ¬ Feeds e) → Ses s → SAt r q k s → ∃ k', SAt r q k' (s.run rs.flatten) ∧ min 7 (k + rs.length) ≤ k' := by
  induction rs with
  | nil => intro s k _ _ h; exact ⟨k, h, by simp; omega⟩
  | cons x rs ih =>
    intro s k hr hs h
    have hx := hr x List.mem_cons_self
    obtain ⟨k1, h1, h2⟩ := sat_run x s k (fun e he => (hx.2 e he).1) hs h
    obtain ⟨g1, g2⟩ := h2 (fun e he => (hx.2 e he).2)
    obtain ⟨k2, h3, h4⟩ := ih _ k1 (fun y hy => hr y (List.mem_cons_of_mem _ hy)) (ses_run x hs) h1
    refine ⟨k2, by rw [List.flatten_cons, run_append]; exact h3, ?_⟩
    have := sat_le h
    simp only [List.length_cons]
    by_cases hlt : k < 7
    · have := g2 (round_sleads hx.1 k hlt); omega
    · omega

theorem sat_done {r : List Result} {q : List Frame} {k : Nat} {s : DL} (h : SAt r q k s) (hr : r ++ [.shutdown] <+: s.results) : SAt r q 7 s := by
  have hk := sat_le h
  have hne : s.results ≠ r := by
    rintro rfl
    have := hr.length_le
    simp at this
    omega
  match k, h with
  | 0, h => exact absurd h.1 hne
  | 1, h => exact absurd h.1 hne
  | 2, h => exact absurd h.1 hne
  | 3, h => exact absurd h.1 hne
  | 4, h => exact absurd h.1 hne
  | 5, h => exact absurd h.1 hne
  | 6, h => exact absurd h.1 hne
  | 7, h => exact h
  | k + 8, _ => omega

/-- a driver that is shut down stays so, and calls nobody, until it is initialised again -/
theorem off_run (es : List Ev) : ∀ (s : DL), (∀ e ∈ es, ¬ IsInit e) → s.user ≠ .waiting → s.thread = .none → s.state = .closed → s.bus = false →
    (s.run es).state = .closed ∧ (s.run es).bus = false ∧ (s.run es).thread = .none ∧ (s.run es).delivered = s.delivered := by
  induction es with
  | nil => intro s _ _ h1 h2 h3; exact ⟨h2, h3, h1, rfl⟩
  | cons e es ih =>
    intro s hi hw h1 h2 h3
    have he := hi e List.mem_cons_self
    have : (s.step e).user ≠ .waiting ∧ (s.step e).thread = .none ∧ (s.step e).state = .closed ∧ (s.step e).bus = false ∧ (s.step e).delivered = s.delivered := by
      cases e <;> simp only [DL.step, DL.send, DL.enqueue, DL.setDriverState] <;> (repeat' split) <;> simp_all [IsInit]
    obtain ⟨g1, g2, g3, g4, g5⟩ := this
    obtain ⟨k1, k2, k3, k4⟩ := ih _ (fun x hx => hi x (List.mem_cons_of_mem _ hx)) g1 g2 g3 g4
    exact ⟨k1, k2, k3, k4.trans g5⟩

/-- a shutdown that waits for a thread that is not there -/
theorem hung_run (es : List Ev) : ∀ (s : DL), s.user = .flushing → s.thread = .none → s.state = .ready → s.queue ≠ [] →
    (s.run es).user = .flushing ∧ (s.run es).results = s.results := by
  induction es with
  | nil => intro s h _ _ _; exact ⟨h, rfl⟩
  | cons e es ih =>
    intro s h1 h2 h3 h4
    have : (s.step e).user = .flushing ∧ (s.step e).thread = .none ∧ (s.step e).state = .ready ∧ (s.step e).queue ≠ [] ∧ (s.step e).results = s.results := by
      cases e <;> simp only [DL.step, DL.send, DL.enqueue] <;> (repeat' split) <;> simp_all
    obtain ⟨g1, g2, g3, g4, g5⟩ := this
    obtain ⟨k1, k2⟩ := ih _ g1 g2 g3 g4
    exact ⟨k1, k2.trans g5⟩

/-! ### The destructor -/

/-- how far the destructor has come -/
def DAt (r : List Result) : Nat → DL → Prop
  | 0, s => s.results = r ∧ s.user = .interrupting true
  | 1, s => s.results = r ∧ s.user = .joining true
  | 2, s => s.results = r ∧ s.user = .joining true ∧ s.thread ≠ .created
  | 3, s => s.results = r ∧ s.user = .joining true ∧ (s.thread = .none ∨ s.thread = .ended)
  | 4, s => s.results = r ++ [.destroyed] ∧ s.user = .gone ∧ s.state = .closed ∧ s.bus = false ∧ s.thread = .none
  | _, _ => False

/-- the step that leads on -/
def dleads : Nat → Ev → Bool
  | 0, .interrupt => true
  | 1, .begin => true
  | 2, .interrupted => true
  | 3, .join => true
  | _, _ => false

/-- the next stage -/
def dnext (s : DL) : Nat → Ev → Nat
  | 0, .interrupt => 1
  | 1, .begin => 2
  | 1, .join => if s.thread = .none ∨ s.thread = .ended then 4 else 1
  | 2, .interrupted => 3
  | 2, .join => if s.thread = .none ∨ s.thread = .ended then 4 else 2
  | 3, .join => 4
  | k, _ => k

theorem dat_le {r : List Result} {k : Nat} {s : DL} (h : DAt r k s) : k ≤ 4 := by
  by_cases hk : k ≤ 4
  · exact hk
  · exfalso
    have : ∃ m, k = m + 5 := ⟨k - 5, by omega⟩
    obtain ⟨m, rfl⟩ := this
    exact h

set_option maxHeartbeats 1000000 in
theorem dat_step {r : List Result} {s : DL} (e : Ev) (k : Nat) (hs : Ses s) (h : DAt r k s) : DAt r (dnext s k e) (s.step e) := by
  have hj := hs.join
  have hk := dat_le h
  match k, h with
  | 0, h =>
    obtain ⟨h1, h2⟩ := h
    cases e <;> simp only [DL.step, DL.send, DL.enqueue, DL.wake, DL.top, DL.setDriverState, dnext] <;> (repeat' split) <;> simp_all [DAt]
  | 1, h =>
    obtain ⟨h1, h2⟩ := h
    cases e <;> simp only [DL.step, DL.send, DL.enqueue, DL.wake, DL.top, DL.setDriverState, dnext] <;> (repeat' split) <;> simp_all [DAt]
  | 2, h =>
    obtain ⟨h1, h2, h3⟩ := h
    cases ht : s.thread <;> cases e <;> simp only [DL.step, DL.send, DL.enqueue, DL.wake, DL.top, DL.setDriverState, dnext] <;> (repeat' split) <;> simp_all [DAt]
  | 3, h =>
    obtain ⟨h1, h2, h3⟩ := h
    cases e <;> simp only [DL.step, DL.send, DL.enqueue, DL.wake, DL.top, DL.setDriverState, dnext] <;> (repeat' split) <;> simp_all [DAt]
  | 4, h =>
    obtain ⟨h1, h2, h3, h4, h5⟩ := h
    cases e <;> simp only [DL.step, DL.send, DL.enqueue, DL.wake, DL.top, DL.setDriverState, dnext] <;> (repeat' split) <;> simp_all [DAt]
  | k + 5, _ => omega

theorem dnext_ge (s : DL) (k : Nat) (e : Ev) : k ≤ dnext s k e ∧ (dleads k e = true → k < dnext s k e) := by
  unfold dnext
  split <;> simp_all [dleads] <;> (repeat' split) <;> simp_all

theorem dat_run {r : List Result} (es : List Ev) : ∀ (s : DL) (k : Nat), Ses s → DAt r k s →
    ∃ k', DAt r k' (s.run es) ∧ k ≤ k' ∧ ((∃ e ∈ es, dleads k e = true) → k < k') := by
  induction es with
  | nil => intro s k _ h; exact ⟨k, h, Nat.le_refl _, fun ⟨e, he, _⟩ => nomatch he⟩
  | cons e es ih =>
    intro s k hs h
    obtain ⟨k', h2, g1, g2⟩ := ih _ _ (ses_step hs e) (dat_step e k hs h)
    obtain ⟨g3, g4⟩ := dnext_ge s k e
    refine ⟨k', h2, by omega, ?_⟩
    rintro ⟨x, hx, hl⟩
    rcases List.mem_cons.1 hx with rfl | hx
    · have := g4 hl; omega
    · by_cases hk : dnext s k e = k
      · rw [hk] at g2; exact g2 ⟨x, hx, hl⟩
      · omega

theorem round_dleads {es : List Ev} (h : Round es) (k : Nat) (hk : k < 4) : ∃ e ∈ es, dleads k e = true := by
  match k, hk with
  | 0, _ => exact ⟨_, h.interrupt, rfl⟩
  | 1, _ => exact ⟨_, h.begin, rfl⟩
  | 2, _ => exact ⟨_, h.interrupted, rfl⟩
  | 3, _ => exact ⟨_, h.join, rfl⟩
  | k + 4, hk => omega

theorem dat_rounds {r : List Result} (rs : List (List Ev)) : ∀ (s : DL) (k : Nat),
    (∀ x ∈ rs, Round x) → Ses s → DAt r k s → ∃ k', DAt r k' (s.run rs.flatten) ∧ min 4 (k + rs.length) ≤ k' := by
  induction rs with
  | nil => intro s k _ _ h; exact ⟨k, h, by simp; omega⟩
  | cons x rs ih =>
    intro s k hr hs h
    obtain ⟨k1, h1, g1, g2⟩ := dat_run x s k hs h
    obtain ⟨k2, h3, h4⟩ := ih _ k1 (fun y hy => hr y (List.mem_cons_of_mem _ hy)) (ses_run x hs) h1
    refine ⟨k2, by rw [List.flatten_cons, run_append]; exact h3, ?_⟩
    have := dat_le h
    simp only [List.length_cons]
    by_cases hlt : k < 4
    · have := g2 (round_dleads (hr x List.mem_cons_self) k hlt); omega
    · omega

end Verif.Spec.DumL
