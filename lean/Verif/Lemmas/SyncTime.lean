import Verif.Spec.SyncTime

/-! # Lemmas about the timing of SYNC -/

namespace Verif.SyT
open Verif Verif.Lay Verif.Spec.SyT

theorem running_iff (st : LayerState) : Running st ↔ active st := by cases st <;> simp [Running, active, LayerState.toNat]

theorem period_eq (p : Sync.Props) : period p = step p := rfl
theorem halfPeriod_eq (p : Sync.Props) : halfPeriod p = half p := rfl

theorem run_append (t : Simple) (a b : List Ev) : t.run (a ++ b) = (t.run a).run b := List.foldl_append
theorem run_cons (t : Simple) (e : Ev) (b : List Ev) : t.run (e :: b) = (t.step e).run b := rfl

theorem step_props (t : Simple) (e : Ev) : (t.step e).props = t.props := by
  cases e <;> simp only [Simple.step, Simple.init, Simple.read, Simple.write] <;> (try rfl) <;> split <;> rfl

theorem run_props (t : Simple) (es : List Ev) : (t.run es).props = t.props := by
  induction es generalizing t with
  | nil => rfl
  | cons e es ih => rw [run_cons, ih, step_props]

theorem step_clock (t : Simple) (e : Ev) : t.clock ≤ (t.step e).clock := by
  cases e <;> simp only [Simple.step, Simple.init, Simple.read, Simple.write] <;> (try omega) <;> split <;> dsimp only <;> omega

/-- what was sent is in the past, and the next read phase is at least half a period after it -/
def Past (t : Simple) : Prop := ∀ x ∈ t.sent, x.1 ≤ t.clock ∧ x.1 + half t.props ≤ t.readAt

theorem past_step (t : Simple) (e : Ev) (h : Past t) : Past (t.step e) := by
  intro x hx
  cases e with
  | init g =>
    obtain ⟨h1, h2⟩ := h x hx
    simp only [Simple.step, Simple.init]; omega
  | read st g l =>
    simp only [Simple.step, Simple.read] at hx ⊢
    split at hx
    · rename_i ha
      obtain ⟨h1, h2⟩ := h x hx
      simp only [ha, if_true]; omega
    · rename_i ha
      obtain ⟨h1, h2⟩ := h x hx
      simp only [ha, if_false]; omega
  | write st g l =>
    simp only [Simple.step, Simple.write] at hx ⊢
    split at hx
    · rename_i ha
      simp only [ha, if_true]
      simp only [List.mem_append, List.mem_map] at hx
      rcases hx with hx | ⟨f, _, rfl⟩
      · obtain ⟨h1, h2⟩ := h x hx; omega
      · dsimp only; omega
    · rename_i ha
      obtain ⟨h1, h2⟩ := h x hx
      simp only [ha, if_false]; omega
  | add n => exact h x hx
  | remove n => exact h x hx

theorem past_run (t : Simple) (es : List Ev) (h : Past t) : Past (t.run es) := by
  induction es generalizing t with
  | nil => exact h
  | cons e es ih => exact ih _ (past_step t e h)

/-- spacing so far, and (after a read phase) enough time has passed -/
structure Spaced (b : Bool) (t : Simple) : Prop where
  past : Past t
  pw : t.sent.Pairwise fun x y => x.1 + half t.props ≤ y.1
  ready : b = true → ∀ x ∈ t.sent, x.1 + half t.props ≤ t.clock

theorem handleWrite_length (s : Sync.Simple) (st : LayerState) : (s.handleWrite st).2.length ≤ 1 := by
  unfold Sync.Simple.handleWrite
  split
  · dsimp only; split <;> simp
  · simp

theorem spaced_run : ∀ (es : List Ev) (b : Bool) (t : Simple), Alternates b es → Spaced b t → (t.run es).sent.Pairwise fun x y => x.1 + half t.props ≤ y.1 := by
  intro es
  induction es with
  | nil => intro b t _ h; exact h.pw
  | cons e es ih =>
    intro b t ha h
    rw [run_cons]
    have hp := step_props t e
    have hc := step_clock t e
    have hpast := past_step t e h.past
    cases e with
    | init g =>
      exact ih b _ ha ⟨hpast, h.pw, fun hb x hx => Nat.le_trans (h.ready hb x hx) hc⟩
    | read st g l =>
      simp only [Alternates] at ha
      by_cases hact : active st
      · have e1 : t.step (.read st g l) = { t with clock := max (t.clock + g) t.readAt + l, writeAt := t.writeAt + step t.props } := by
          simp [Simple.step, Simple.read, hact]
        rw [e1] at hpast ⊢
        refine ih _ _ ha ⟨hpast, h.pw, fun _ x hx => ?_⟩
        have := (h.past x hx).2
        dsimp only; omega
      · have e1 : t.step (.read st g l) = { t with clock := t.clock + g } := by simp [Simple.step, Simple.read, hact]
        rw [e1] at hpast hc ⊢
        simp only [running_iff, hact, decide_false, Bool.or_false] at ha
        exact ih _ _ ha ⟨hpast, h.pw, fun hb x hx => Nat.le_trans (h.ready hb x hx) hc⟩
    | write st g l =>
      simp only [Alternates] at ha
      by_cases hact : active st
      · rw [if_pos ((running_iff st).mpr hact)] at ha
        obtain ⟨hb, ha⟩ := ha
        have e1 : t.step (.write st g l) = { t with s := (t.s.handleWrite st).1, clock := max (t.clock + g) t.writeAt + l, readAt := max (t.clock + g) t.writeAt + l + half t.props, sent := t.sent ++ (t.s.handleWrite st).2.map fun f => (max (t.clock + g) t.writeAt + l, f) } := by simp [Simple.step, Simple.write, hact]
        rw [e1] at hpast ⊢
        refine ih false _ ha ⟨hpast, ?_, fun hb => absurd hb (by simp)⟩
        dsimp only
        rw [List.pairwise_append]
        refine ⟨h.pw, ?_, ?_⟩
        · have hl := handleWrite_length t.s st
          generalize (t.s.handleWrite st).2 = fs at hl
          cases fs with
          | nil => simp
          | cons f fs =>
            cases fs with
            | nil => simp
            | cons f' fs => simp at hl
        · intro x hx y hy
          simp only [List.mem_map] at hy
          obtain ⟨f, _, rfl⟩ := hy
          have := h.ready hb x hx
          dsimp only; omega
      · rw [if_neg (fun h => hact ((running_iff st).mp h))] at ha
        have e1 : t.step (.write st g l) = { t with clock := t.clock + g } := by simp [Simple.step, Simple.write, hact]
        rw [e1] at hpast hc ⊢
        exact ih _ _ ha ⟨hpast, h.pw, fun hb x hx => Nat.le_trans (h.ready hb x hx) hc⟩
    | add n => exact ih b _ ha ⟨hpast, h.pw, h.ready⟩
    | remove n => exact ih b _ ha ⟨hpast, h.pw, h.ready⟩

theorem writeAt_run (t : Simple) (es : List Ev) (h : NoInit es) : (t.run es).writeAt = t.writeAt + step t.props * readPhases es := by
  induction es generalizing t with
  | nil => simp [Simple.run, readPhases]
  | cons e es ih =>
    rw [run_cons, ih _ (fun g hg => h g (by simp [hg])), step_props]
    cases e with
    | init g => exact absurd (by simp) (h g)
    | read st g l =>
      simp only [readPhases, Simple.step, Simple.read, running_iff]
      split
      · rw [Nat.mul_add]; dsimp only; omega
      · simp
    | write st g l =>
      simp only [readPhases, Simple.step, Simple.write]
      split <;> rfl
    | add n => rfl
    | remove n => rfl

theorem nodes_run (t : Simple) (xs : List (Bool × Nat)) : (t.run (xs.map nodeEv)).clock = t.clock ∧ (t.run (xs.map nodeEv)).readAt = t.readAt ∧
    (t.run (xs.map nodeEv)).writeAt = t.writeAt ∧ (t.run (xs.map nodeEv)).sent = t.sent := by
  induction xs generalizing t with
  | nil => exact ⟨rfl, rfl, rfl, rfl⟩
  | cons x xs ih =>
    rw [List.map_cons, run_cons]
    have h := ih (t.step (nodeEv x))
    have e : (t.step (nodeEv x)).clock = t.clock ∧ (t.step (nodeEv x)).readAt = t.readAt ∧ (t.step (nodeEv x)).writeAt = t.writeAt ∧
        (t.step (nodeEv x)).sent = t.sent := by
      unfold nodeEv
      split <;> exact ⟨rfl, rfl, rfl, rfl⟩
    rw [e.1, e.2.1, e.2.2.1, e.2.2.2] at h
    exact h

/-- one cycle that is fast enough: SYNC at its due time (plus the delay of the sleep) -/
theorem cycle_fast (t : Simple) (c : Cycle) (L : Nat) (hf : c.Fast t.props L) (hr : t.readAt ≤ t.clock + half t.props) (hc : t.clock ≤ t.writeAt + L) :
    (t.run c.events).clock = t.writeAt + step t.props + c.wlate ∧ (t.run c.events).readAt = t.writeAt + step t.props + c.wlate + half t.props ∧
    (t.run c.events).writeAt = t.writeAt + step t.props ∧
    ∃ s : Sync.Simple, (t.run c.events).sent = t.sent ++ (s.handleWrite c.st).2.map (fun f => (t.writeAt + step t.props + c.wlate, f)) ∧
      s.nodes = (t.run (c.nodes.map nodeEv)).s.nodes := by
  obtain ⟨h1, h2, h3, h4⟩ := hf
  rw [running_iff] at h1
  rw [show halfPeriod t.props = half t.props from rfl] at h3 h4
  rw [show period t.props = step t.props from rfl] at h4
  unfold Cycle.events
  rw [run_cons, run_append]
  have e1 : t.step (.read c.st c.rgap c.rlate) = { t with clock := max (t.clock + c.rgap) t.readAt + c.rlate, writeAt := t.writeAt + step t.props } := by
    simp [Simple.step, Simple.read, h1]
  have hs : ∀ (xs : List (Bool × Nat)) (a b : Simple), a.s = b.s → (a.run (xs.map nodeEv)).s = (b.run (xs.map nodeEv)).s := by
    intro xs
    induction xs with
    | nil => intro a b h; exact h
    | cons x xs ih =>
      intro a b h
      rw [List.map_cons, run_cons, run_cons]
      apply ih
      unfold nodeEv
      split <;> simp [Simple.step, h]
  obtain ⟨n1, n2, n3, n4⟩ := nodes_run (t.step (.read c.st c.rgap c.rlate)) c.nodes
  have n5 := hs c.nodes (t.step (.read c.st c.rgap c.rlate)) t (by rw [e1])
  have n6 := run_props (t.step (.read c.st c.rgap c.rlate)) (c.nodes.map nodeEv)
  rw [step_props] at n6
  generalize (t.step (.read c.st c.rgap c.rlate)).run (c.nodes.map nodeEv) = u at *
  rw [e1] at n1 n2 n3 n4
  dsimp only at n1 n2 n3 n4
  rw [show u.run [.write c.st c.wgap c.wlate] = u.write c.st c.wgap c.wlate from rfl]
  unfold Simple.write
  rw [if_pos h1]
  dsimp only
  have hm : max (u.clock + c.wgap) u.writeAt = t.writeAt + step t.props := by rw [n1, n3]; omega
  rw [hm, n3, n4, n6]
  exact ⟨rfl, rfl, rfl, u.s, rfl, by rw [n5]⟩

theorem attach_step (t : Simple) (e : Ev) (n : Nat) (b : Prop) (h : n ∈ t.s.nodes ↔ b) : n ∈ (t.step e).s.nodes ↔ attachStep n b e := by
  have hu : ∀ st, (t.s.handleWrite st).1.nodes = t.s.nodes := by
    intro st
    unfold Sync.Simple.handleWrite
    split
    · dsimp only; unfold Sync.Simple.update; split <;> (try split) <;> rfl
    · rfl
  cases e with
  | init g => exact h
  | read st g l => simp only [Simple.step, Simple.read]; split <;> exact h
  | write st g l =>
    simp only [Simple.step, Simple.write]
    split
    · dsimp only; rw [hu]; exact h
    · exact h
  | add m =>
    simp only [Simple.step, Sync.Simple.addNode, attachStep, ← h]
    split
    · constructor
      · exact .inr
      · rintro (rfl | h) <;> assumption
    · simp
  | remove m => simp only [Simple.step, Sync.Simple.removeNode, attachStep, ← h]; simp; exact And.comm

theorem attach_run (n : Nat) (es : List Ev) : ∀ (t : Simple) (b : Prop), (n ∈ t.s.nodes ↔ b) → (n ∈ (t.run es).s.nodes ↔ es.foldl (attachStep n) b) := by
  induction es with
  | nil => intro t b h; exact h
  | cons e es ih => intro t b h; exact ih _ _ (attach_step t e n b h)

theorem attached_iff (t : Simple) (es : List Ev) (n : Nat) (h : t.s.nodes = []) : n ∈ (t.run es).s.nodes ↔ Attached n es :=
  attach_run n es t False (by simp [h])

/-! ## The consumer -/

/-- a frame that the layer listens to -/
def Hears (e : External) (x : Nat × Frame) : Prop := e.listening = true ∧ x.2.toHeader.key = e.props.header.key

instance (e : External) (x : Nat × Frame) : Decidable (Hears e x) := by unfold Hears; infer_instance

theorem trim1 (b : List (Nat × Frame)) (x : Nat × Frame) : Rd.trimLoop 1 (b ++ [x]) = [x] := by
  induction b with
  | nil => rfl
  | cons y ys ih =>
    rw [List.cons_append, Rd.trimLoop, if_pos (by simp), ih]

/-- the reader is on and has one place -/
structure Ok (e : External) : Prop where
  ena : e.reader.enabled = true
  cap : e.reader.maxLen = 1

/-- the layer with another content of the buffer -/
def withBuf (e : External) (b : List (Nat × Frame)) : External := { e with reader := ⟨b, e.reader.enabled, e.reader.maxLen⟩ }

theorem arrive_eq (e : External) (x : Nat × Frame) (h : Ok e) : e.arrive x = if Hears e x then withBuf e [x] else e := by
  unfold External.arrive
  by_cases hh : Hears e x
  · rw [if_pos hh, if_pos (show e.listening = true ∧ _ from hh)]
    unfold Rd.Reader.handleFrame Rd.Reader.trim
    rw [if_pos h.ena]
    dsimp only
    rw [h.cap, if_pos (by omega), trim1, ← h.cap]
    rfl
  · rw [if_neg hh, if_neg (show ¬ (e.listening = true ∧ _) from hh)]

/-- what is in the buffer when `xs` have arrived: only the newest SYNC is kept -/
def bufAfter (e : External) (xs : List (Nat × Frame)) : List (Nat × Frame) :=
  match (xs.filter (fun x => decide (Hears e x))).getLast? with
  | some x => [x]
  | none => e.reader.buffer

theorem arriveAll_eq (xs : List (Nat × Frame)) : ∀ (e : External), Ok e → e.arriveAll xs = withBuf e (bufAfter e xs) := by
  induction xs with
  | nil => intro e _; rfl
  | cons x xs ih =>
    intro e h
    rw [show e.arriveAll (x :: xs) = (e.arrive x).arriveAll xs from rfl, arrive_eq e x h]
    unfold bufAfter at ih ⊢
    by_cases hh : Hears e x
    · rw [if_pos hh, ih (withBuf e [x]) (Ok.mk h.ena h.cap), List.filter_cons_of_pos (by simpa using hh)]
      have e1 : xs.filter (fun y => decide (Hears (withBuf e [x]) y)) = xs.filter (fun y => decide (Hears e y)) := rfl
      rw [e1]
      cases hl : xs.filter (fun y => decide (Hears e y)) with
      | nil => rfl
      | cons z zs => simp [List.getLast?_cons, withBuf]
    · rw [if_neg hh, ih _ h, List.filter_cons_of_neg (by simpa using hh)]

/-- what is due by `t`, and what is not -/
def due (e : External) (t : Nat) : List (Nat × Frame) := e.bus.takeWhile fun x => decide (x.1 ≤ t)
def rest (e : External) (t : Nat) : List (Nat × Frame) := e.bus.dropWhile fun x => decide (x.1 ≤ t)

theorem advance_eq (e : External) (t : Nat) (h : Ok e) : e.advance t =
    { props := e.props, reader := ⟨bufAfter e (due e t), e.reader.enabled, e.reader.maxLen⟩, listening := e.listening, clock := max e.clock t, bus := rest e t, reads := e.reads } := by
  unfold External.advance
  rw [arriveAll_eq _ e h]
  rfl

theorem advance_ok (e : External) (t : Nat) (h : Ok e) : Ok (e.advance t) := by rw [advance_eq e t h]; exact ⟨h.ena, h.cap⟩

theorem advance_hears (e : External) (t : Nat) (h : Ok e) (x : Nat × Frame) : Hears (e.advance t) x ↔ Hears e x := by rw [advance_eq e t h]; rfl

theorem takeWhile_le (a b : Nat) (hab : a ≤ b) (l : List (Nat × Frame)) :
    l.takeWhile (fun x => decide (x.1 ≤ b)) = l.takeWhile (fun x => decide (x.1 ≤ a)) ++ (l.dropWhile (fun x => decide (x.1 ≤ a))).takeWhile (fun x => decide (x.1 ≤ b)) ∧
    l.dropWhile (fun x => decide (x.1 ≤ b)) = (l.dropWhile (fun x => decide (x.1 ≤ a))).dropWhile (fun x => decide (x.1 ≤ b)) := by
  induction l with
  | nil => simp
  | cons y ys ih =>
    by_cases hy : y.1 ≤ a
    · have hy' : y.1 ≤ b := by omega
      simp [hy, hy', ih.1, ih.2]
    · simp [hy]

theorem advance_advance (e : External) (a b : Nat) (hab : a ≤ b) (h : Ok e) : (e.advance a).advance b = e.advance b := by
  rw [advance_eq _ b (advance_ok e a h), advance_eq e b h]
  obtain ⟨h1, h2⟩ := takeWhile_le a b hab e.bus
  have hbus : (e.advance a).bus = rest e a := by rw [advance_eq e a h]
  have hbuf : (e.advance a).reader.buffer = bufAfter e (due e a) := by rw [advance_eq e a h]
  have hb : bufAfter (e.advance a) (due (e.advance a) b) = bufAfter e (due e b) := by
    have hd : due e b = due e a ++ due (e.advance a) b := by
      unfold due
      rw [hbus]
      exact h1
    rw [hd]
    unfold bufAfter
    have hf : (fun x => decide (Hears (e.advance a) x)) = fun x => decide (Hears e x) := by
      funext x
      exact decide_eq_decide.mpr (advance_hears e a h x)
    rw [hf, List.filter_append, List.getLast?_append, hbuf]
    unfold bufAfter
    cases ((due (e.advance a) b).filter fun x => decide (Hears e x)).getLast? <;> rfl
  have hr : rest (e.advance a) b = rest e b := by unfold rest; rw [hbus]; exact h2.symm
  rw [hb, hr, advance_eq e a h]
  dsimp only
  rw [show max (max e.clock a) b = max e.clock b by omega]

theorem buf_none (e : External) (xs : List (Nat × Frame)) (h : ∀ x ∈ xs, ¬ Hears e x) : bufAfter e xs = e.reader.buffer := by
  unfold bufAfter
  rw [show xs.filter (fun x => decide (Hears e x)) = [] from by rw [List.filter_eq_nil_iff]; intro z hz; simpa using h z hz]
  rfl

theorem buf_some (e : External) (xs : List (Nat × Frame)) (x : Nat × Frame) (hx : x ∈ xs) (hh : Hears e x) :
    ∃ y, y ∈ xs ∧ Hears e y ∧ bufAfter e xs = [y] ∧ (xs.Pairwise (fun a b => a.1 ≤ b.1) → x.1 ≤ y.1) := by
  unfold bufAfter
  have hm : x ∈ xs.filter (fun x => decide (Hears e x)) := List.mem_filter.mpr ⟨hx, by simpa using hh⟩
  cases hl : (xs.filter (fun x => decide (Hears e x))).getLast? with
  | none => rw [List.getLast?_eq_none_iff] at hl; rw [hl] at hm; cases hm
  | some y =>
    obtain ⟨ys, hys⟩ := List.getLast?_eq_some_iff.mp hl
    have hy : y ∈ xs.filter (fun x => decide (Hears e x)) := by rw [hys]; simp
    obtain ⟨hy1, hy2⟩ := List.mem_filter.mp hy
    refine ⟨y, hy1, by simpa using hy2, rfl, fun hp => ?_⟩
    have hp' := hp.filter (fun x => decide (Hears e x))
    rw [hys] at hp' hm
    rw [List.pairwise_append] at hp'
    simp only [List.mem_append, List.mem_singleton] at hm
    rcases hm with hm | rfl
    · exact hp'.2.2 x hm y (by simp)
    · exact Nat.le_refl _

theorem mem_takeWhile_imp' (q : Nat × Frame → Bool) (l : List (Nat × Frame)) (x : Nat × Frame) (h : x ∈ l.takeWhile q) : q x = true := by
  induction l with
  | nil => cases h
  | cons y ys ih =>
    by_cases hy : q y = true
    · rw [List.takeWhile_cons_of_pos hy] at h
      rcases List.mem_cons.mp h with rfl | h
      · exact hy
      · exact ih h
    · rw [List.takeWhile_cons_of_neg hy] at h
      cases h

theorem mem_due (e : External) (t : Nat) (x : Nat × Frame) (h : x ∈ due e t) : x ∈ e.bus ∧ x.1 ≤ t :=
  ⟨(List.takeWhile_sublist _).mem h, by simpa using mem_takeWhile_imp' _ _ _ h⟩

theorem due_of_le (l : List (Nat × Frame)) (hs : l.Pairwise fun a b => a.1 ≤ b.1) (t : Nat) (x : Nat × Frame) (h : x ∈ l) (hx : x.1 ≤ t) :
    x ∈ l.takeWhile fun x => decide (x.1 ≤ t) := by
  induction l with
  | nil => cases h
  | cons y ys ih =>
    rw [List.pairwise_cons] at hs
    have hy : y.1 ≤ t := by
      rcases List.mem_cons.mp h with rfl | h
      · exact hx
      · exact Nat.le_trans (hs.1 x h) hx
    rw [List.takeWhile_cons_of_pos (by simpa using hy)]
    rcases List.mem_cons.mp h with rfl | h
    · simp
    · exact List.mem_cons_of_mem _ (ih hs.2 h)

theorem mem_rest (l : List (Nat × Frame)) (hs : l.Pairwise fun a b => a.1 ≤ b.1) (t : Nat) (x : Nat × Frame) (h : x ∈ l.dropWhile fun x => decide (x.1 ≤ t)) : t < x.1 := by
  induction l with
  | nil => cases h
  | cons y ys ih =>
    rw [List.pairwise_cons] at hs
    by_cases hy : y.1 ≤ t
    · rw [List.dropWhile_cons_of_pos (by simpa using hy)] at h
      exact ih hs.2 h
    · rw [List.dropWhile_cons_of_neg (by simpa using hy)] at h
      rcases List.mem_cons.mp h with rfl | h
      · omega
      · have := hs.1 x h; omega

/-- waiting: nothing if there is one already; until the first SYNC; or until the end -/
theorem await_cases (limit : Nat) : ∀ (fuel : Nat) (e : External), Ok e → (e.bus.Pairwise fun a b => a.1 ≤ b.1) → e.bus.length ≤ fuel →
    (e.reader.buffer ≠ [] ∧ e.await limit fuel = e) ∨
    (e.reader.buffer = [] ∧ ∃ x ∈ e.bus, Hears e x ∧ x.1 ≤ limit ∧ e.await limit fuel = e.advance x.1) ∨
    (e.reader.buffer = [] ∧ (∀ x ∈ due e limit, ¬ Hears e x) ∧ e.await limit fuel = e.advance limit) := by
  intro fuel
  induction fuel with
  | zero =>
    intro e h hs hl
    have : e.bus = [] := List.length_eq_zero_iff.mp (by omega)
    unfold External.await
    by_cases hb : e.reader.buffer = []
    · rw [if_neg (by simpa using hb)]
      exact .inr (.inr ⟨hb, by simp [due, this], rfl⟩)
    · rw [if_pos hb]
      exact .inl ⟨hb, rfl⟩
  | succ n ih =>
    intro e h hs hl
    unfold External.await
    by_cases hb : e.reader.buffer = []
    · rw [if_neg (by simpa using hb)]
      cases hbus : e.bus with
      | nil => exact .inr (.inr ⟨hb, by simp [due, hbus], rfl⟩)
      | cons x xs =>
        dsimp only
        by_cases hx : x.1 ≤ limit
        · rw [if_pos hx]
          have hok := advance_ok e x.1 h
          have hbus' : (e.advance x.1).bus = rest e x.1 := by rw [advance_eq e _ h]
          have hbuf' : (e.advance x.1).reader.buffer = bufAfter e (due e x.1) := by rw [advance_eq e _ h]
          have hrest : rest e x.1 = xs.dropWhile fun y => decide (y.1 ≤ x.1) := by
            unfold rest; rw [hbus]; simp
          have hsub := List.dropWhile_sublist (fun y : Nat × Frame => decide (y.1 ≤ x.1)) (l := e.bus)
          have hlen : (e.advance x.1).bus.length ≤ n := by
            rw [hbus', hrest]
            have := (List.dropWhile_sublist (fun y : Nat × Frame => decide (y.1 ≤ x.1)) (l := xs)).length_le
            rw [hbus] at hl; simp at hl; omega
          have hsort : (e.advance x.1).bus.Pairwise fun a b => a.1 ≤ b.1 := by
            rw [hbus']; exact hs.sublist hsub
          rcases ih (e.advance x.1) hok hsort hlen with ⟨h1, h2⟩ | ⟨h1, y, hy, h2, h3, h4⟩ | ⟨h1, h2, h3⟩
          · rw [h2]
            rw [hbuf'] at h1
            have : ∃ y ∈ due e x.1, Hears e y := by
              apply Classical.byContradiction
              intro hno
              apply h1
              rw [buf_none e _ (fun z hz hz2 => hno ⟨z, hz, hz2⟩), hb]
            obtain ⟨y, hy, hy2⟩ := this
            obtain ⟨hy3, hy4⟩ := mem_due _ _ _ hy
            have hyx : y.1 = x.1 := by
              have : x.1 ≤ y.1 := by
                rw [hbus] at hy3 hs
                rw [List.pairwise_cons] at hs
                rcases List.mem_cons.mp hy3 with rfl | hy3
                · exact Nat.le_refl _
                · exact hs.1 y hy3
              omega
            exact .inr (.inl ⟨hb, y, hbus ▸ hy3, hy2, by omega, by rw [hyx]⟩)
          · rw [hbus'] at hy
            have hm := hsub.mem hy
            have hlt := mem_rest _ hs _ _ hy
            exact .inr (.inl ⟨hb, y, hbus ▸ hm, (advance_hears e _ h y).mp h2, h3, by rw [h4, advance_advance e _ _ (by omega) h]⟩)
          · refine .inr (.inr ⟨hb, ?_, by rw [h3, advance_advance e _ _ hx h]⟩)
            intro y hy hh
            obtain ⟨hy1, hy2⟩ := mem_due _ _ _ hy
            by_cases hyx : y.1 ≤ x.1
            · have hd : y ∈ due e x.1 := due_of_le _ hs _ _ hy1 hyx
              obtain ⟨z, _, _, hz, _⟩ := buf_some e _ y hd hh
              rw [hbuf', hz] at h1
              cases h1
            · have hr : y ∈ rest e x.1 := by
                have hsplit := (List.takeWhile_append_dropWhile (p := fun z : Nat × Frame => decide (z.1 ≤ x.1)) (l := e.bus))
                rw [← hsplit] at hy1
                rcases List.mem_append.mp hy1 with h' | h'
                · have := mem_takeWhile_imp' _ _ _ h'
                  simp at this; omega
                · exact h'
              refine h2 y ?_ ((advance_hears e _ h y).mpr hh)
              exact due_of_le _ hsort _ _ (by rw [hbus']; exact hr) hy2
        · rw [if_neg hx]
          refine .inr (.inr ⟨hb, ?_, rfl⟩)
          intro y hy
          unfold due at hy
          rw [hbus, List.takeWhile_cons_of_neg (by simpa using hx)] at hy
          cases hy
    · rw [if_pos hb]
      exact .inl ⟨hb, rfl⟩

theorem part_advance (bus0 : List (Nat × Frame)) (e : External) (t : Nat) (h : Ok e) (hs : ∀ x ∈ bus0, x.1 ≤ e.clock ∨ x ∈ e.bus) :
    ∀ x ∈ bus0, x.1 ≤ (e.advance t).clock ∨ x ∈ (e.advance t).bus := by
  rw [advance_eq e t h]
  intro x hx
  dsimp only
  rcases hs x hx with h1 | h1
  · exact .inl (by omega)
  · have hsplit := (List.takeWhile_append_dropWhile (p := fun z : Nat × Frame => decide (z.1 ≤ t)) (l := e.bus))
    rw [← hsplit] at h1
    rcases List.mem_append.mp h1 with h' | h'
    · have := mem_takeWhile_imp' _ _ _ h'
      simp at this
      exact .inl (by omega)
    · exact .inr h'

/-- what holds in every history of the consumer on the bus traffic `bus0` -/
structure Inv (p : Sync.Props) (bus0 : List (Nat × Frame)) (e : External) : Prop where
  ok : Ok e
  props : e.props = p
  sorted : e.bus.Pairwise fun a b => a.1 ≤ b.1
  later : ∀ x ∈ e.bus, e.clock < x.1
  src : ∀ x ∈ e.bus, x ∈ bus0
  one : e.reader.buffer.length ≤ 1
  buf : ∀ x ∈ e.reader.buffer, x ∈ bus0 ∧ IsSyncFrame p x ∧ x.1 ≤ e.clock ∧ ∀ r ∈ e.reads, r.1 < x.1 ∧ ∀ y, r.2.1 = some y → y.1 < x.1
  past : ∀ r ∈ e.reads, r.1 ≤ e.clock ∧ ∀ y, r.2.1 = some y → y.1 ≤ e.clock ∧ y ∈ bus0 ∧ IsSyncFrame p y
  pw : e.reads.Pairwise fun r1 r2 => ∀ y, r2.2.1 = some y → r1.1 < y.1 ∧ ∀ z, r1.2.1 = some z → z.1 < y.1
  part : ∀ x ∈ bus0, x.1 ≤ e.clock ∨ x ∈ e.bus

theorem inv_advance (p : Sync.Props) (bus0 : List (Nat × Frame)) (e : External) (t : Nat) (h : Inv p bus0 e) : Inv p bus0 (e.advance t) := by
  have hpart := part_advance bus0 e t h.ok h.part
  rw [advance_eq e t h.ok] at hpart
  rw [advance_eq e t h.ok]
  have hsub := List.dropWhile_sublist (fun y : Nat × Frame => decide (y.1 ≤ t)) (l := e.bus)
  have hbuf : bufAfter e (due e t) = e.reader.buffer ∨ ∃ y, y ∈ due e t ∧ Hears e y ∧ bufAfter e (due e t) = [y] := by
    by_cases hh : ∃ x ∈ due e t, Hears e x
    · obtain ⟨x, hx, hx2⟩ := hh
      obtain ⟨y, h1, h2, h3, _⟩ := buf_some e _ x hx hx2
      exact .inr ⟨y, h1, h2, h3⟩
    · exact .inl (buf_none e _ fun x hx hx2 => hh ⟨x, hx, hx2⟩)
  refine ⟨⟨h.ok.ena, h.ok.cap⟩, h.props, h.sorted.sublist hsub, ?_, fun x hx => h.src x (hsub.mem hx), ?_, ?_, ?_, h.pw, hpart⟩
  · intro x hx
    have h1 := h.later x (hsub.mem hx)
    have h2 := mem_rest _ h.sorted _ _ hx
    dsimp only; omega
  · rcases hbuf with hb | ⟨y, _, _, hb⟩ <;> dsimp only <;> rw [hb]
    · exact h.one
    · simp
  · intro x hx
    dsimp only at hx ⊢
    rcases hbuf with hb | ⟨y, hy, hh, hb⟩ <;> rw [hb] at hx
    · obtain ⟨h1, h2, h3, h4⟩ := h.buf x hx
      exact ⟨h1, h2, by omega, h4⟩
    · simp only [List.mem_singleton] at hx
      subst hx
      obtain ⟨hd1, hd2⟩ := mem_due _ _ _ hy
      have hl := h.later x hd1
      refine ⟨h.src x hd1, by unfold IsSyncFrame; rw [← h.props]; exact hh.2, by omega, fun r hr => ?_⟩
      obtain ⟨h1, h2⟩ := h.past r hr
      exact ⟨by omega, fun z hz => by have := (h2 z hz).1; omega⟩
  · intro r hr
    obtain ⟨h1, h2⟩ := h.past r hr
    dsimp only
    exact ⟨by omega, fun z hz => ⟨by have := (h2 z hz).1; omega, (h2 z hz).2⟩⟩

theorem advance_clock (e : External) (t : Nat) (h : Ok e) : (e.advance t).clock = max e.clock t := by rw [advance_eq e t h]
theorem advance_reads (e : External) (t : Nat) (h : Ok e) : (e.advance t).reads = e.reads := by rw [advance_eq e t h]
theorem advance_props (e : External) (t : Nat) (h : Ok e) : (e.advance t).props = e.props := by rw [advance_eq e t h]

/-- the state in which the reader hands out its frame or gives up -/
def woken (e : External) (gap late1 : Nat) : External :=
  let e := e.advance (e.clock + gap)
  let e := e.await (e.clock + step e.props) e.bus.length
  e.advance (e.clock + late1)

theorem await_advance (e : External) (limit fuel : Nat) (h : Ok e) (hs : e.bus.Pairwise fun a b => a.1 ≤ b.1) (hl : e.bus.length ≤ fuel) :
    e.await limit fuel = e ∨ ∃ t, e.await limit fuel = e.advance t := by
  rcases await_cases limit fuel e h hs hl with ⟨_, h⟩ | ⟨_, x, _, _, _, h⟩ | ⟨_, _, h⟩
  · exact .inl h
  · exact .inr ⟨_, h⟩
  · exact .inr ⟨_, h⟩

theorem await_mono (e : External) (limit : Nat) (h : Ok e) (hs : e.bus.Pairwise fun a b => a.1 ≤ b.1) : e.clock ≤ (e.await limit e.bus.length).clock := by
  rcases await_advance e limit _ h hs (Nat.le_refl _) with h1 | ⟨t, h1⟩ <;> rw [h1]
  · exact Nat.le_refl _
  · rw [advance_clock _ _ h]; omega

theorem advance_setReads (e : External) (R : List (Nat × Option (Nat × Frame) × Nat)) (t : Nat) (h : Ok e) :
    ({ e with reads := R } : External).advance t = { e.advance t with reads := R } := by
  rw [advance_eq e t h, advance_eq ({ e with reads := R } : External) t ⟨h.ena, h.cap⟩]
  rfl

theorem inv_await (p : Sync.Props) (bus0 : List (Nat × Frame)) (e : External) (limit : Nat) (h : Inv p bus0 e) : Inv p bus0 (e.await limit e.bus.length) := by
  rcases await_advance e limit _ h.ok h.sorted (Nat.le_refl _) with h1 | ⟨t, h1⟩ <;> rw [h1]
  · exact h
  · exact inv_advance p bus0 e t h

theorem inv_woken (p : Sync.Props) (bus0 : List (Nat × Frame)) (e : External) (g l : Nat) (h : Inv p bus0 e) : Inv p bus0 (woken e g l) :=
  inv_advance p bus0 _ _ (inv_await p bus0 _ _ (inv_advance p bus0 e _ h))

/-- the read phase in terms of `woken` -/
theorem read_eq (e : External) (st : LayerState) (g l1 l2 : Nat) (hst : active st) (h : Ok e) :
    (e.read st g l1 l2) =
      match (woken e g l1).reader.buffer with
      | [] => { woken e g l1 with reads := (woken e g l1).reads ++ [(e.clock + g, none, (woken e g l1).clock)] }
      | x :: xs =>
        let u := (withBuf (woken e g l1) xs).advance ((woken e g l1).clock + half (woken e g l1).props + l2)
        { u with reads := u.reads ++ [(e.clock + g, some x, u.clock)] } := by
  unfold External.read
  dsimp only
  rw [if_pos hst]
  rw [show ((e.advance (e.clock + g)).await ((e.advance (e.clock + g)).clock + step (e.advance (e.clock + g)).props) (e.advance (e.clock + g)).bus.length).advance
    (((e.advance (e.clock + g)).await ((e.advance (e.clock + g)).clock + step (e.advance (e.clock + g)).props) (e.advance (e.clock + g)).bus.length).clock + l1) = woken e g l1 from rfl]
  rw [show (e.advance (e.clock + g)).clock = e.clock + g from by rw [advance_clock e _ h]; omega]
  unfold Rd.Reader.readUntil
  cases hb : (woken e g l1).reader.buffer with
  | nil => rfl
  | cons x xs => rfl

theorem inv_read (p : Sync.Props) (bus0 : List (Nat × Frame)) (e : External) (st : LayerState) (g l1 l2 : Nat) (h : Inv p bus0 e) : Inv p bus0 (e.read st g l1 l2) := by
  by_cases hst : active st
  · have hw := inv_woken p bus0 e g l1 h
    rw [read_eq e st g l1 l2 hst h.ok]
    have hcl : e.clock + g ≤ (woken e g l1).clock := by
      have hi := inv_advance p bus0 e (e.clock + g) h
      have hj := inv_await p bus0 _ ((e.advance (e.clock + g)).clock + step (e.advance (e.clock + g)).props) hi
      have h1 := advance_clock e (e.clock + g) h.ok
      unfold woken
      dsimp only
      rw [advance_clock _ _ hj.ok]
      have h2 := await_mono (e.advance (e.clock + g)) ((e.advance (e.clock + g)).clock + step (e.advance (e.clock + g)).props) hi.ok hi.sorted
      omega
    cases hb : (woken e g l1).reader.buffer with
    | nil =>
      dsimp only
      refine ⟨⟨hw.ok.ena, hw.ok.cap⟩, hw.props, hw.sorted, hw.later, hw.src, hw.one, ?_, ?_, ?_, hw.part⟩
      · intro x hx
        rw [hb] at hx; cases hx
      · intro r hr
        rcases List.mem_append.mp hr with hr | hr
        · exact hw.past r hr
        · simp only [List.mem_singleton] at hr
          subst hr
          exact ⟨hcl, fun y hy => by cases hy⟩
      · rw [List.pairwise_append]
        refine ⟨hw.pw, by simp, ?_⟩
        intro a ha b hb y hy
        simp only [List.mem_singleton] at hb
        subst hb
        cases hy
    | cons x xs =>
      have hxs : xs = [] := by
        have := hw.one
        rw [hb] at this
        simpa using this
      subst hxs
      dsimp only
      -- the state after the pop
      have hx := hw.buf x (by rw [hb]; simp)
      have hv : ∀ k, Inv p bus0 { withBuf (woken e g l1) [] with reads := (woken e g l1).reads ++ [(e.clock + g, some x, k)] } := by
        intro k
        refine ⟨⟨hw.ok.ena, hw.ok.cap⟩, hw.props, hw.sorted, hw.later, hw.src, by simp [withBuf], ?_, ?_, ?_, hw.part⟩
        · intro y hy; cases hy
        · intro r hr
          rcases List.mem_append.mp hr with hr | hr
          · exact hw.past r hr
          · simp only [List.mem_singleton] at hr
            subst hr
            exact ⟨hcl, fun y hy => by cases hy; exact ⟨hx.2.2.1, hx.1, hx.2.1⟩⟩
        · rw [List.pairwise_append]
          refine ⟨hw.pw, by simp, ?_⟩
          intro a ha b hb y hy
          simp only [List.mem_singleton] at hb
          subst hb
          cases hy
          exact hx.2.2.2 a ha
      have hok : Ok (withBuf (woken e g l1) []) := ⟨hw.ok.ena, hw.ok.cap⟩
      have hfin := inv_advance p bus0 _ ((woken e g l1).clock + half (woken e g l1).props + l2)
        (hv ((withBuf (woken e g l1) []).advance ((woken e g l1).clock + half (woken e g l1).props + l2)).clock)
      rw [advance_setReads _ _ _ hok] at hfin
      rw [advance_reads _ _ hok]
      exact hfin
  · unfold External.read
    dsimp only
    rw [if_neg hst]
    exact inv_advance p bus0 e _ h

theorem inv_init (p : Sync.Props) (bus0 : List (Nat × Frame)) (e : External) (g : Nat) (h : Inv p bus0 e) : Inv p bus0 (e.init g) := by
  have h' := inv_advance p bus0 e (e.clock + g) h
  unfold External.init Rd.Reader.listen
  exact ⟨⟨h'.ok.ena, h'.ok.cap⟩, h'.props, h'.sorted, h'.later, h'.src, by simp, fun x hx => by simp at hx, h'.past, h'.pw, h'.part⟩

theorem inv_run (p : Sync.Props) (bus0 : List (Nat × Frame)) (es : List XEv) : ∀ e, Inv p bus0 e → Inv p bus0 (e.run es) := by
  induction es with
  | nil => intro e h; exact h
  | cons ev es ih =>
    intro e h
    refine ih _ ?_
    cases ev with
    | init g => exact inv_init p bus0 e g h
    | read st g l1 l2 => exact inv_read p bus0 e st g l1 l2 h
    | write st g => exact inv_advance p bus0 e _ h

theorem inv_create (p : Sync.Props) (now : Nat) (bus : List (Nat × Frame)) (h : Ordered now bus) : Inv p bus (External.create p now bus) :=
  ⟨⟨rfl, rfl⟩, rfl, h.1, h.2, fun _ hx => hx, by simp [External.create, Rd.Reader.new], fun x hx => by simp [External.create, Rd.Reader.new] at hx,
    fun r hr => by simp [External.create] at hr, by simp [External.create], fun _ hx => .inr hx⟩

theorem xrun_append (e : External) (a b : List XEv) : e.run (a ++ b) = (e.run a).run b := List.foldl_append

/-- a layer that was initialised at `t0` misses nothing: a SYNC that has arrived since is still there, or a newer one is, or one of them was used -/
structure Seen (p : Sync.Props) (bus0 : List (Nat × Frame)) (t0 : Nat) (e : External) : Prop where
  on : e.listening = true
  got : ∀ x ∈ bus0, IsSyncFrame p x → t0 < x.1 → x.1 ≤ e.clock →
    (∃ b ∈ e.reader.buffer, x.1 ≤ b.1) ∨ ∃ r ∈ e.reads, ∃ y, r.2.1 = some y ∧ x.1 ≤ y.1

theorem seen_advance (p : Sync.Props) (bus0 : List (Nat × Frame)) (t0 : Nat) (e : External) (t : Nat) (h : Inv p bus0 e) (hs : Seen p bus0 t0 e) : Seen p bus0 t0 (e.advance t) := by
  refine ⟨by rw [advance_eq e t h.ok]; exact hs.on, ?_⟩
  rw [advance_eq e t h.ok]
  intro x hx hk ht hc
  dsimp only at hc ⊢
  have hsub := List.takeWhile_sublist (fun z : Nat × Frame => decide (z.1 ≤ t)) (l := e.bus)
  by_cases hxc : x.1 ≤ e.clock
  · rcases hs.got x hx hk ht hxc with ⟨b, hb, hxb⟩ | hr
    · left
      by_cases hh : ∃ x ∈ due e t, Hears e x
      · obtain ⟨z, hz, hz2⟩ := hh
        obtain ⟨y, h1, h2, h3, _⟩ := buf_some e _ z hz hz2
        have := h.later y (mem_due _ _ _ h1).1
        exact ⟨y, by rw [h3]; simp, by omega⟩
      · exact ⟨b, by rw [buf_none e _ fun x hx hx2 => hh ⟨x, hx, hx2⟩]; exact hb, hxb⟩
    · exact .inr hr
  · have hxb : x ∈ e.bus := by
      rcases h.part x hx with h1 | h1
      · exact absurd h1 hxc
      · exact h1
    have hd : x ∈ due e t := due_of_le _ h.sorted _ _ hxb (by omega)
    obtain ⟨y, h1, h2, h3, h4⟩ := buf_some e _ x hd ⟨hs.on, by rw [h.props]; exact hk⟩
    exact .inl ⟨y, by rw [h3]; simp, h4 (h.sorted.sublist hsub)⟩

theorem seen_await (p : Sync.Props) (bus0 : List (Nat × Frame)) (t0 : Nat) (e : External) (limit : Nat) (h : Inv p bus0 e) (hs : Seen p bus0 t0 e) :
    Seen p bus0 t0 (e.await limit e.bus.length) := by
  rcases await_advance e limit _ h.ok h.sorted (Nat.le_refl _) with h1 | ⟨t, h1⟩ <;> rw [h1]
  · exact hs
  · exact seen_advance p bus0 t0 e t h hs

theorem seen_woken (p : Sync.Props) (bus0 : List (Nat × Frame)) (t0 : Nat) (e : External) (g l : Nat) (h : Inv p bus0 e) (hs : Seen p bus0 t0 e) : Seen p bus0 t0 (woken e g l) := by
  have h1 := inv_advance p bus0 e (e.clock + g) h
  have s1 := seen_advance p bus0 t0 e (e.clock + g) h hs
  have h2 := inv_await p bus0 _ ((e.advance (e.clock + g)).clock + step (e.advance (e.clock + g)).props) h1
  have s2 := seen_await p bus0 t0 _ ((e.advance (e.clock + g)).clock + step (e.advance (e.clock + g)).props) h1 s1
  exact seen_advance p bus0 t0 _ _ h2 s2

theorem seen_read (p : Sync.Props) (bus0 : List (Nat × Frame)) (t0 : Nat) (e : External) (st : LayerState) (g l1 l2 : Nat) (h : Inv p bus0 e) (hs : Seen p bus0 t0 e) :
    Seen p bus0 t0 (e.read st g l1 l2) := by
  by_cases hst : active st
  · have hw := inv_woken p bus0 e g l1 h
    have sw := seen_woken p bus0 t0 e g l1 h hs
    rw [read_eq e st g l1 l2 hst h.ok]
    cases hb : (woken e g l1).reader.buffer with
    | nil =>
      refine ⟨sw.on, fun x hx hk ht hc => ?_⟩
      rcases sw.got x hx hk ht hc with h1 | ⟨r, hr, h1⟩
      · exact .inl h1
      · exact .inr ⟨r, List.mem_append_left _ hr, h1⟩
    | cons x xs =>
      have hxs : xs = [] := by
        have := hw.one
        rw [hb] at this
        simpa using this
      subst hxs
      dsimp only
      have hok : Ok (withBuf (woken e g l1) []) := ⟨hw.ok.ena, hw.ok.cap⟩
      refine ⟨by rw [advance_eq _ _ hok]; exact sw.on, ?_⟩
      -- as if the reader had still held the frame, for the frames up to it
      intro y hy hk ht hc
      dsimp only at hc ⊢
      by_cases hyc : y.1 ≤ (woken e g l1).clock
      · rcases sw.got y hy hk ht hyc with ⟨b, hb', hyb⟩ | ⟨r, hr, h1⟩
        · rw [hb] at hb'
          simp only [List.mem_singleton] at hb'
          subst hb'
          exact .inr ⟨_, List.mem_append_right _ (List.mem_singleton.mpr rfl), b, rfl, hyb⟩
        · exact .inr ⟨r, List.mem_append_left _ (by rw [advance_reads _ _ hok]; exact hr), h1⟩
      · have hyb : y ∈ (woken e g l1).bus := by
          rcases hw.part y hy with h1 | h1
          · exact absurd h1 hyc
          · exact h1
        rw [advance_clock _ _ hok] at hc
        have hc' : y.1 ≤ (woken e g l1).clock + half (woken e g l1).props + l2 := by
          have : (withBuf (woken e g l1) []).clock = (woken e g l1).clock := rfl
          omega
        have hd : y ∈ due (withBuf (woken e g l1) []) ((woken e g l1).clock + half (woken e g l1).props + l2) := due_of_le _ hw.sorted _ _ hyb hc'
        obtain ⟨z, h1, h2, h3, h4⟩ := buf_some (withBuf (woken e g l1) []) _ y hd ⟨sw.on, by
          show _ = (woken e g l1).props.header.key
          rw [hw.props]; exact hk⟩
        refine .inl ⟨z, ?_, h4 (hw.sorted.sublist (List.takeWhile_sublist _))⟩
        rw [advance_eq _ _ hok, h3]
        simp
  · unfold External.read
    dsimp only
    rw [if_neg hst]
    exact seen_advance p bus0 t0 e _ h hs

theorem seen_init (p : Sync.Props) (bus0 : List (Nat × Frame)) (e : External) (g : Nat) (h : Inv p bus0 e) :
    Seen p bus0 (e.clock + g) (e.init g) := by
  refine ⟨rfl, ?_⟩
  · intro x hx hk ht hc
    have : (e.init g).clock = e.clock + g := by
      show (e.advance (e.clock + g)).clock = _
      rw [advance_clock _ _ h.ok]; omega
    omega

/-- a history without a further initialisation -/
theorem seen_run (p : Sync.Props) (bus0 : List (Nat × Frame)) (t0 : Nat) (es : List XEv) (hn : ∀ g, XEv.init g ∉ es) : ∀ e, Inv p bus0 e → Seen p bus0 t0 e → Seen p bus0 t0 (e.run es) := by
  induction es with
  | nil => intro e _ h; exact h
  | cons ev es ih =>
    intro e h hs
    cases ev with
    | init g => exact absurd (by simp) (hn g)
    | read st g l1 l2 => exact ih (fun g hg => hn g (by simp [hg])) _ (inv_read p bus0 e st g l1 l2 h) (seen_read p bus0 t0 e st g l1 l2 h hs)
    | write st g => exact ih (fun g hg => hn g (by simp [hg])) _ (inv_advance p bus0 e _ h) (seen_advance p bus0 t0 e _ h hs)

/-- the result of a read phase -/
theorem read_result (p : Sync.Props) (bus0 : List (Nat × Frame)) (e : External) (st : LayerState) (g l1 l2 : Nat) (h : Inv p bus0 e) (hst : active st) :
    ∃ u, (e.read st g l1 l2).reads = e.reads ++ [(e.clock + g, u, (e.read st g l1 l2).clock)] ∧
      (u = none → (e.read st g l1 l2).clock = e.clock + g + step p + l1 ∧ (e.read st g l1 l2).reader.buffer = []) ∧
      (∀ y, u = some y → y.1 ≤ e.clock + g + step p + l1 ∧ max (e.clock + g) y.1 + half p ≤ (e.read st g l1 l2).clock ∧
        (e.read st g l1 l2).clock ≤ max (e.clock + g) y.1 + l1 + half p + l2 ∧ (e.read st g l1 l2).clock ≤ e.clock + g + step p + l1 + half p + l2) := by
  have hw := inv_woken p bus0 e g l1 h
  have h1 := inv_advance p bus0 e (e.clock + g) h
  have hc1 : (e.advance (e.clock + g)).clock = e.clock + g := by rw [advance_clock _ _ h.ok]; omega
  have hr1 := advance_reads e (e.clock + g) h.ok
  rw [read_eq e st g l1 l2 hst h.ok]
  -- the clock when woken, and the frame
  have key : (woken e g l1).reads = e.reads ∧ ((woken e g l1).reader.buffer = [] → (woken e g l1).clock = e.clock + g + step p + l1) ∧
      ∀ y ∈ (woken e g l1).reader.buffer, y.1 ≤ e.clock + g + step p + l1 ∧ max (e.clock + g) y.1 ≤ (woken e g l1).clock ∧ (woken e g l1).clock ≤ max (e.clock + g) y.1 + l1 ∧ (woken e g l1).clock ≤ e.clock + g + step p + l1 := by
    unfold woken
    dsimp only
    rw [h1.props, hc1]
    generalize e.advance (e.clock + g) = a at h1 hc1 hr1
    rcases await_cases (e.clock + g + step p) a.bus.length a h1.ok h1.sorted (Nat.le_refl _) with ⟨hb, h2⟩ | ⟨hb, x, hx, hh, hl, h2⟩ | ⟨hb, hno, h2⟩
    · rw [h2, hc1, advance_reads _ _ h1.ok, advance_clock _ _ h1.ok, hc1]
      have hi := inv_advance p bus0 a (e.clock + g + l1) h1
      refine ⟨hr1, fun hn => ?_, fun y hy => ?_⟩
      · exfalso
        rw [advance_eq _ _ h1.ok] at hn
        dsimp only at hn
        by_cases hh : ∃ x ∈ due a (e.clock + g + l1), Hears a x
        · obtain ⟨z, hz, hz2⟩ := hh
          obtain ⟨y, _, _, h3, _⟩ := buf_some a _ z hz hz2
          rw [h3] at hn; cases hn
        · rw [buf_none a _ fun x hx hx2 => hh ⟨x, hx, hx2⟩] at hn
          exact hb hn
      · have := (hi.buf y hy).2.2.1
        rw [advance_clock _ _ h1.ok, hc1] at this
        omega
    · have hlt := h1.later x hx
      have hcx : (a.advance x.1).clock = x.1 := by rw [advance_clock _ _ h1.ok]; omega
      rw [h2, hcx, advance_advance a _ _ (by omega) h1.ok, advance_reads _ _ h1.ok, advance_clock _ _ h1.ok, hc1]
      have hi := inv_advance p bus0 a (x.1 + l1) h1
      have hd : x ∈ due a (x.1 + l1) := due_of_le _ h1.sorted _ _ hx (by omega)
      obtain ⟨z, hz1, hz2, hz3, hz4⟩ := buf_some a _ x hd hh
      have hz5 := hz4 (h1.sorted.sublist (List.takeWhile_sublist _))
      have hbuf : (a.advance (x.1 + l1)).reader.buffer = [z] := by rw [advance_eq _ _ h1.ok]; exact hz3
      refine ⟨hr1, (fun hn => by rw [hbuf] at hn; cases hn), fun y hy => ?_⟩
      rw [hbuf] at hy
      simp only [List.mem_singleton] at hy
      subst hy
      have := (mem_due _ _ _ hz1).2
      omega
    · have hcl : (a.advance (e.clock + g + step p)).clock = e.clock + g + step p := by rw [advance_clock _ _ h1.ok]; omega
      rw [h2, hcl, advance_advance a _ _ (by omega) h1.ok, advance_reads _ _ h1.ok, advance_clock _ _ h1.ok, hc1]
      refine ⟨hr1, fun _ => by omega, fun y hy => ?_⟩
      have hbuf : (a.advance (e.clock + g + step p + l1)).reader.buffer = bufAfter a (due a (e.clock + g + step p + l1)) := by rw [advance_eq _ _ h1.ok]
      rw [hbuf] at hy
      by_cases hh : ∃ x ∈ due a (e.clock + g + step p + l1), Hears a x
      · obtain ⟨z, hz, hz2⟩ := hh
        obtain ⟨w, hw1, hw2, h3, _⟩ := buf_some a _ z hz hz2
        rw [h3] at hy
        simp only [List.mem_singleton] at hy
        subst hy
        obtain ⟨hw3, hw4⟩ := mem_due _ _ _ hw1
        have : ¬ y.1 ≤ e.clock + g + step p := fun hle => hno y (due_of_le _ h1.sorted _ _ hw3 hle) hw2
        omega
      · rw [buf_none a _ fun x hx hx2 => hh ⟨x, hx, hx2⟩, hb] at hy
        cases hy
  obtain ⟨k1, k2, k3⟩ := key
  cases hb : (woken e g l1).reader.buffer with
  | nil =>
    refine ⟨none, by rw [k1], fun _ => ⟨k2 hb, hb⟩, fun y hy => by cases hy⟩
  | cons x xs =>
    have hok : Ok (withBuf (woken e g l1) xs) := ⟨hw.ok.ena, hw.ok.cap⟩
    refine ⟨some x, ?_, (fun hn => by cases hn), ?_⟩
    · dsimp only
      rw [advance_reads _ _ hok]
      rw [show (withBuf (woken e g l1) xs).reads = (woken e g l1).reads from rfl, k1]
    · intro y hy
      cases hy
      have := k3 x (by rw [hb]; simp)
      dsimp only
      rw [advance_clock _ _ hok, show (withBuf (woken e g l1) xs).clock = (woken e g l1).clock from rfl, hw.props]
      omega

end Verif.SyT
