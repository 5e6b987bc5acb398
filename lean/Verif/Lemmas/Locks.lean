import Verif.Spec.Locks

/-! # Lemmas about the order of mutexes -/

namespace Verif.Lk
open Verif.Spec.Lk

/-- a place for each kind of mutex: they are taken in increasing order -/
def Kind.rank : Kind → Nat
  | .chain => 0 | .diag => 1 | .life => 2 | .timer => 3 | .vars => 4 | .cw => 5 | .mode => 6 | .homing => 7 | .sw402 => 8 | .map => 8 | .node => 9 | .pdo => 10
  | .frames => 11 | .rpdo => 12 | .tpdo => 12 | .cond => 13 | .storage => 14 | .data => 15 | .sdo => 16 | .nodes => 17 | .nodeStates => 17
  | .bus => 18 | .dummy => 19 | .dframes => 20 | .dstates => 21 | .reader => 22 | .buf => 22 | .canLayer => 22 | .bcm => 22 | .send => 23 | .state => 24 | .states => 25 | .waiter => 26 | .status => 27

/-- all mutexes held come before rank `k` -/
def Below (k : Nat) (hs : List Lock) : Prop := ∀ h ∈ hs, h.kind.rank < k

theorem Below.nil (k : Nat) : Below k [] := by simp [Below]
theorem Below.cons {k : Nat} {l : Lock} {hs : List Lock} (h1 : l.kind.rank < k) (h2 : Below k hs) : Below k (l :: hs) := by
  intro h hh
  rcases List.mem_cons.mp hh with rfl | hh
  · exact h1
  · exact h2 h hh
theorem Below.mono {j k : Nat} {hs : List Lock} (h : Below j hs) (hk : j ≤ k) : Below k hs := fun x hx => Nat.lt_of_lt_of_le (h x hx) hk

/-- the function takes mutexes in increasing order when called with `hs` held -/
def Ok : List Lock → P → Prop
  | _, .skip => True
  | _, .wait => True
  | hs, .lock l p => Below l.kind.rank hs ∧ Ok (l :: hs) p
  | hs, .pause l p => ∃ hs', hs = l :: hs' ∧ Below l.kind.rank hs' ∧ Ok hs' p
  | hs, .seq p q => Ok hs p ∧ Ok hs q
  | hs, .alt p q => Ok hs p ∧ Ok hs q
  | hs, .many p => Ok hs p
  | hs, .any f => ∀ n, Ok hs (f n)

/-- what a thread still does takes mutexes in increasing order and releases all in the end -/
def Ord : List Lock → List Act → Prop
  | hs, [] => hs = []
  | hs, .acq l :: as => Below l.kind.rank hs ∧ Ord (l :: hs) as
  | hs, .rel l :: as => l ∈ hs ∧ Ord (hs.erase l) as
  | hs, .wait :: as => Ord hs as

theorem ord_of_tr {p : P} {t : List Act} (h : Tr p t) : ∀ {hs : List Lock} {rest : List Act}, Ok hs p → Ord hs rest → Ord hs (t ++ rest) := by
  induction h with
  | skip => intro hs rest _ hr; exact hr
  | wait => intro hs rest _ hr; exact hr
  | @lock l p t _ ih =>
    intro hs rest ho hr
    refine ⟨ho.1, ?_⟩
    show Ord (l :: hs) ((t ++ [Act.rel l]) ++ rest)
    rw [List.append_assoc]
    refine ih ho.2 ⟨by simp, ?_⟩
    simpa using hr
  | @pause l p t _ ih =>
    intro hs rest ho hr
    obtain ⟨hs', rfl, hb, ho⟩ := ho
    refine ⟨by simp, ?_⟩
    show Ord ((l :: hs').erase l) ((t ++ [Act.acq l]) ++ rest)
    rw [List.append_assoc, show (l :: hs').erase l = hs' by simp]
    exact ih ho ⟨hb, hr⟩
  | seq _ _ ih1 ih2 => intro hs rest ho hr; rw [List.append_assoc]; exact ih1 ho.1 (ih2 ho.2 hr)
  | altl _ ih => intro hs rest ho hr; exact ih ho.1 hr
  | altr _ ih => intro hs rest ho hr; exact ih ho.2 hr
  | none => intro hs rest _ hr; exact hr
  | @more p t u _ _ ih1 ih2 => intro hs rest ho hr; rw [List.append_assoc]; exact ih1 (show Ok hs p from ho) (ih2 ho hr)
  | any n _ ih => intro hs rest ho hr; exact ih (ho n) hr

theorem ord_flatten (hs : List Lock) (rest : List Act) : ∀ ts : List (List Act), (∀ t ∈ ts, ∃ p, Ok hs p ∧ Tr p t) → Ord hs rest → Ord hs (ts.flatten ++ rest)
  | [], _, hr => hr
  | t :: ts, h, hr => by
    obtain ⟨p, hp, ht⟩ := h t (by simp)
    rw [List.flatten_cons, List.append_assoc]
    exact ord_of_tr ht hp (ord_flatten hs rest ts (fun u hu => h u (by simp [hu])) hr)

/-! ## Progress -/

/-- all threads keep to the order -/
def Orderly (s : List Thread) : Prop := ∀ t ∈ s, Ord t.held t.todo

theorem ord_move {t : Thread} (h : Ord t.held t.todo) : Ord t.move.held t.move.todo := by
  obtain ⟨hs, as⟩ := t
  cases as with
  | nil => exact h
  | cons a as =>
    cases a with
    | acq l => exact h.2
    | rel l => exact h.2
    | wait => exact h

theorem orderly_step {s : List Thread} (h : Orderly s) (i : Nat) : Orderly (step s i) := by
  unfold step
  split
  · exact h
  · rename_i t ht
    split
    · intro u hu
      rcases List.mem_or_eq_of_mem_set hu with hu | rfl
      · exact h u hu
      · exact ord_move (h t (List.mem_of_getElem? ht))
    · exact h

theorem orderly_run {s : List Thread} (h : Orderly s) (sched : List Nat) : Orderly (run s sched) := by
  induction sched generalizing s with
  | nil => exact h
  | cons i is ih => exact ih (orderly_step h i)

/-- a thread that wants a mutex taken by another: one of the highest rank cannot exist -/
theorem no_wait_chain {s : List Thread} (h : Orderly s) (hb : ∀ t ∈ s, ¬ CanMove s t) : ∀ (k : Nat) (t : Thread), t ∈ s → ∀ l as, t.todo = .acq l :: as → 28 ≤ k + l.kind.rank → False := by
  intro k
  induction k with
  | zero =>
    intro t ht l as _ hr
    have : ∀ k : Kind, k.rank < 28 := by intro k; cases k <;> decide
    have := this l.kind
    omega
  | succ k ih =>
    intro t ht l as htodo hr
    have hbt := hb t ht
    unfold CanMove at hbt
    rw [htodo] at hbt
    simp only [Decidable.not_not] at hbt
    obtain ⟨u, hu, hl⟩ := hbt
    have hou := h u hu
    have hbu := hb u hu
    unfold CanMove at hbu
    cases hut : u.todo with
    | nil => rw [hut] at hou; rw [show u.held = [] from hou] at hl; cases hl
    | cons a bs =>
      rw [hut] at hou hbu
      cases a with
      | acq l' =>
        have hlt : l.kind.rank < l'.kind.rank := hou.1 l hl
        exact ih u hu l' bs hut (by omega)
      | rel l' => exact hbu trivial
      | wait => exact hbu trivial

theorem progress {s : List Thread} (h : Orderly s) (hf : ¬ Finished s) : ∃ (i : Nat) (t : Thread), s[i]? = some t ∧ CanMove s t := by
  apply Classical.byContradiction
  intro hno
  have hb : ∀ t ∈ s, ¬ CanMove s t := by
    intro t ht hc
    obtain ⟨i, hi⟩ := List.getElem?_of_mem ht
    exact hno ⟨i, t, hi, hc⟩
  apply hf
  intro t ht
  cases htodo : t.todo with
  | nil => rfl
  | cons a as =>
    exfalso
    have hbt := hb t ht
    cases a with
    | acq l => exact no_wait_chain h hb 28 t ht l as htodo (by omega)
    | rel l => unfold CanMove at hbt; rw [htodo] at hbt; exact hbt trivial
    | wait => unfold CanMove at hbt; rw [htodo] at hbt; exact hbt trivial

/-! ## Termination -/

/-- what is left to do -/
def left (s : List Thread) : Nat := (s.map fun t => t.todo.length).sum

theorem left_set (s : List Thread) (i : Nat) (t u : Thread) (h : s[i]? = some t) (hu : u.todo.length + 1 = t.todo.length) : left (s.set i u) + 1 = left s := by
  induction s generalizing i with
  | nil => simp at h
  | cons a s ih =>
    cases i with
    | zero => simp at h; subst h; simp [left]; omega
    | succ i =>
      have := ih i (by simpa using h)
      simp [left] at this ⊢
      omega

theorem move_length {s : List Thread} {t : Thread} (h : CanMove s t) : t.move.todo.length + 1 = t.todo.length := by
  obtain ⟨hs, as⟩ := t
  cases as with
  | nil => exact absurd h (by simp [CanMove])
  | cons a as => cases a <;> simp [Thread.move]

theorem left_step {s : List Thread} {i : Nat} {t : Thread} (h : s[i]? = some t) (hc : CanMove s t) : left (step s i) + 1 = left s := by
  unfold step
  rw [h]
  dsimp only
  rw [if_pos hc]
  exact left_set s i t _ h (move_length hc)

theorem step_or (s : List Thread) (i : Nat) : step s i = s ∨ left (step s i) + 1 = left s := by
  cases h : s[i]? with
  | none => left; unfold step; rw [h]
  | some t =>
    by_cases hc : CanMove s t
    · right; exact left_step h hc
    · left; unfold step; rw [h]; dsimp only; rw [if_neg hc]

theorem length_step (s : List Thread) (i : Nat) : (step s i).length = s.length := by
  unfold step; split
  · rfl
  · split <;> simp

theorem length_run (s : List Thread) (sched : List Nat) : (run s sched).length = s.length := by
  induction sched generalizing s with
  | nil => rfl
  | cons i is ih => exact (ih (step s i)).trans (length_step s i)

theorem run_append (s : List Thread) (a b : List Nat) : run s (a ++ b) = run (run s a) b := List.foldl_append

theorem le_sum {n : Nat} : ∀ {ns : List Nat}, n ∈ ns → n ≤ ns.sum
  | m :: ms, h => by
    rcases List.mem_cons.mp h with rfl | h
    · simp
    · have := le_sum h; simp; omega

theorem can_finish : ∀ (k : Nat) (s : List Thread), left s ≤ k → Orderly s → ∃ more, Finished (run s more) := by
  intro k
  induction k with
  | zero =>
    intro s hl h
    refine ⟨[], fun t ht => ?_⟩
    have : t.todo.length ≤ left s := by
      unfold left
      exact le_sum (List.mem_map.mpr ⟨t, ht, rfl⟩)
    exact List.eq_nil_of_length_eq_zero (by omega)
  | succ k ih =>
    intro s hl h
    by_cases hf : Finished s
    · exact ⟨[], hf⟩
    · obtain ⟨i, t, hi, hc⟩ := progress h hf
      have := left_step hi hc
      obtain ⟨more, hm⟩ := ih (step s i) (by omega) (orderly_step h i)
      exact ⟨i :: more, hm⟩

theorem upTo_succ (f : Nat → Nat) (k : Nat) : upTo f (k + 1) = upTo f k ++ [f k] := by simp [upTo, List.range_succ]

/-- under a fair schedule something changes as long as not all have finished -/
theorem fair_changes {s : List Thread} (h : Orderly s) (f : Nat → Nat) (hfair : Fair s.length f) (k : Nat) (hnf : ¬ Finished (run s (upTo f k))) :
    ∃ j, k < j ∧ left (run s (upTo f j)) < left (run s (upTo f k)) := by
  obtain ⟨i, t, hi, hc⟩ := progress (orderly_run h _) hnf
  have hlt : i < s.length := by
    have := (List.getElem?_eq_some_iff.mp hi).1
    rwa [length_run] at this
  obtain ⟨j, hkj, hj⟩ := hfair i hlt k
  have key : ∀ m, k ≤ m → run s (upTo f m) = run s (upTo f k) ∨ left (run s (upTo f m)) < left (run s (upTo f k)) := by
    intro m hm
    induction hm with
    | refl => exact Or.inl rfl
    | step hm ih =>
      rename_i m
      rw [upTo_succ, run_append]
      have hstep := step_or (run s (upTo f m)) (f m)
      show step (run s (upTo f m)) (f m) = _ ∨ left (step (run s (upTo f m)) (f m)) < _
      rcases ih with ih | ih <;> rcases hstep with hs | hs
      · left; rw [hs, ih]
      · right; rw [ih] at hs; rw [ih]; omega
      · right; rw [hs]; exact ih
      · right; omega
  rcases key j hkj with hk | hk
  · refine ⟨j + 1, by omega, ?_⟩
    rw [upTo_succ, run_append]
    show left (step (run s (upTo f j)) (f j)) < _
    rw [hk, hj]
    have := left_step hi hc
    omega
  · refine ⟨j, ?_, hk⟩
    rcases Nat.lt_or_eq_of_le hkj with h1 | rfl
    · exact h1
    · omega

theorem fair_finishes {s : List Thread} (h : Orderly s) (f : Nat → Nat) (hfair : Fair s.length f) : ∃ k, Finished (run s (upTo f k)) := by
  have : ∀ (n k : Nat), left (run s (upTo f k)) ≤ n → ∃ k, Finished (run s (upTo f k)) := by
    intro n
    induction n with
    | zero =>
      intro k hk
      apply Classical.byContradiction
      intro hno
      have hnf : ¬ Finished (run s (upTo f k)) := fun hf => hno ⟨k, hf⟩
      obtain ⟨j, _, hj⟩ := fair_changes h f hfair k hnf
      omega
    | succ n ih =>
      intro k hk
      by_cases hf : Finished (run s (upTo f k))
      · exact ⟨k, hf⟩
      · obtain ⟨j, _, hj⟩ := fair_changes h f hfair k hf
        exact ih j (by omega)
  exact this _ 0 (Nat.le_refl _)

/-! ## A deadlock lasts -/

theorem deadlock_step {s : List Thread} (h : Deadlock s) (i : Nat) : step s i = s := by
  unfold step
  cases hi : s[i]? with
  | none => rfl
  | some t => dsimp only; rw [if_neg (h.2 t (List.mem_of_getElem? hi))]

theorem deadlock_run {s : List Thread} (h : Deadlock s) (sched : List Nat) : run s sched = s := by
  induction sched with
  | nil => rfl
  | cons i is ih => show run (step s i) is = s; rw [deadlock_step h]; exact ih

/-! ## The functions -/

theorem ok_seqs {hs : List Lock} : ∀ {ps : List P}, (∀ p ∈ ps, Ok hs p) → Ok hs (seqs ps)
  | [], _ => trivial
  | p :: ps, h => ⟨h p (by simp), ok_seqs fun q hq => h q (by simp [hq])⟩

theorem ok_alts {hs : List Lock} : ∀ {ps : List P}, (∀ p ∈ ps, Ok hs p) → Ok hs (alts ps)
  | [], _ => trivial
  | [p], h => h p (by simp)
  | p :: q :: ps, h => ⟨h p (by simp), ok_alts fun r hr => h r (List.mem_cons_of_mem _ hr)⟩

theorem ok_opt {hs : List Lock} {p : P} (h : Ok hs p) : Ok hs (opt p) := ⟨trivial, h⟩
theorem ok_short {hs : List Lock} {k : Kind} {i : Nat} (h : Below k.rank hs) : Ok hs (short k i) := ⟨h, trivial⟩
theorem ok_lock {hs : List Lock} {k : Kind} {i : Nat} {p : P} (h : Below k.rank hs) (hp : Ok (⟨k, i⟩ :: hs) p) : Ok hs (.lock ⟨k, i⟩ p) := ⟨h, hp⟩
theorem ok_pause {hs : List Lock} {l : Lock} {p : P} (h : Below l.kind.rank hs) (hp : Ok hs p) : Ok (l :: hs) (.pause l p) := ⟨hs, rfl, h, hp⟩
theorem ok_seq {hs : List Lock} {p q : P} (hp : Ok hs p) (hq : Ok hs q) : Ok hs (.seq p q) := ⟨hp, hq⟩
theorem ok_alt {hs : List Lock} {p q : P} (hp : Ok hs p) (hq : Ok hs q) : Ok hs (.alt p q) := ⟨hp, hq⟩
theorem ok_many {hs : List Lock} {p : P} (hp : Ok hs p) : Ok hs (.many p) := hp
theorem ok_any {hs : List Lock} {f : Nat → P} (h : ∀ n, Ok hs (f n)) : Ok hs (.any f) := h


theorem ok_skip {hs : List Lock} : Ok hs .skip := trivial
theorem ok_wait {hs : List Lock} : Ok hs .wait := trivial

/-- closes `Below` goals -/
macro "below" : tactic => `(tactic| repeat first
  | with_reducible assumption
  | with_reducible exact Below.nil _
  | ((with_reducible refine Below.mono (by assumption) ?_); exact Nat.le_of_ble_eq_true rfl)
  | ((with_reducible refine Below.cons ?_ ?_); exact Nat.le_of_ble_eq_true rfl))

/-- a function that is known to be ok -/
syntax "leaf" : tactic
macro_rules | `(tactic| leaf) => `(tactic| with_reducible exact ok_skip)
macro_rules | `(tactic| leaf) => `(tactic| with_reducible exact ok_wait)

/-- goes through a function -/
macro "oks" : tactic => `(tactic| ((try simp only [seqs, alts, opt]); repeat' first
  | with_reducible apply ok_pause
  | with_reducible apply ok_lock
  | with_reducible apply ok_short
  | with_reducible apply ok_seq
  | with_reducible apply ok_alt
  | with_reducible apply ok_many
  | with_reducible refine ok_any fun _ => ?_
  | ((with_reducible refine Below.mono (by assumption) ?_); exact Nat.le_of_ble_eq_true rfl)
  | ((with_reducible refine Below.cons ?_ ?_); exact Nat.le_of_ble_eq_true rfl)
  | leaf))

theorem ok_status {hs : List Lock} (h : Below 27 hs) : Ok hs (status) := by unfold status; oks
macro_rules | `(tactic| leaf) => `(tactic| ((with_reducible refine ok_status ?_); below; done))
theorem ok_getState {hs : List Lock} {d : Nat} (h : Below 24 hs) : Ok hs (getState d) := by unfold getState; oks
macro_rules | `(tactic| leaf) => `(tactic| ((with_reducible refine ok_getState ?_); below; done))
theorem ok_updateState {hs : List Lock} (h : Below 26 hs) : Ok hs (updateState) := by unfold updateState; oks
macro_rules | `(tactic| leaf) => `(tactic| ((with_reducible refine ok_updateState ?_); below; done))
theorem ok_notifyStates {hs : List Lock} {d : Nat} (h : Below 25 hs) : Ok hs (notifyStates d) := by unfold notifyStates; oks
macro_rules | `(tactic| leaf) => `(tactic| ((with_reducible refine ok_notifyStates ?_); below; done))
theorem ok_setState {hs : List Lock} {d : Nat} (h : Below 24 hs) : Ok hs (setState d) := by unfold setState; oks
macro_rules | `(tactic| leaf) => `(tactic| ((with_reducible refine ok_setState ?_); below; done))
theorem ok_send {hs : List Lock} {d : Nat} (h : Below 23 hs) : Ok hs (send d) := by unfold send; oks
macro_rules | `(tactic| leaf) => `(tactic| ((with_reducible refine ok_send ?_); below; done))
theorem ok_triggerRead {hs : List Lock} {d : Nat} (h : Below 23 hs) : Ok hs (triggerRead d) := by unfold triggerRead; oks
macro_rules | `(tactic| leaf) => `(tactic| ((with_reducible refine ok_triggerRead ?_); below; done))
theorem ok_readFrame {hs : List Lock} {d : Nat} (h : Below 23 hs) : Ok hs (readFrame d) := by unfold readFrame; oks
macro_rules | `(tactic| leaf) => `(tactic| ((with_reducible refine ok_readFrame ?_); below; done))
theorem ok_createListener {hs : List Lock} {d : Nat} (h : Below 11 hs) : Ok hs (createListener d) := by unfold createListener; oks
macro_rules | `(tactic| leaf) => `(tactic| ((with_reducible refine ok_createListener ?_); below; done))
theorem ok_removeListener {hs : List Lock} {d : Nat} (h : Below 11 hs) : Ok hs (removeListener d) := by unfold removeListener; oks
macro_rules | `(tactic| leaf) => `(tactic| ((with_reducible refine ok_removeListener ?_); below; done))
theorem ok_stateListener {hs : List Lock} {d : Nat} (h : Below 25 hs) : Ok hs (stateListener d) := by unfold stateListener; oks
macro_rules | `(tactic| leaf) => `(tactic| ((with_reducible refine ok_stateListener ?_); below; done))
theorem ok_driverInit {hs : List Lock} {d : Nat} (h : Below 24 hs) : Ok hs (driverInit d) := by unfold driverInit; oks
macro_rules | `(tactic| leaf) => `(tactic| ((with_reducible refine ok_driverInit ?_); below; done))
theorem ok_readerOp {hs : List Lock} {d : Nat} (h : Below 22 hs) : Ok hs (readerOp d) := by unfold readerOp; oks
macro_rules | `(tactic| leaf) => `(tactic| ((with_reducible refine ok_readerOp ?_); below; done))
theorem ok_readUntil {hs : List Lock} {d : Nat} (h : Below 22 hs) : Ok hs (readUntil d) := by unfold readUntil; oks
macro_rules | `(tactic| leaf) => `(tactic| ((with_reducible refine ok_readUntil ?_); below; done))
theorem ok_sdoTransfer {hs : List Lock} {d n : Nat} (h : Below 16 hs) : Ok hs (sdoTransfer d n) := by unfold sdoTransfer; oks
macro_rules | `(tactic| leaf) => `(tactic| ((with_reducible refine ok_sdoTransfer ?_); below; done))
theorem ok_bufOp {hs : List Lock} {d : Nat} (h : Below 22 hs) : Ok hs (bufOp d) := by unfold bufOp; oks
macro_rules | `(tactic| leaf) => `(tactic| ((with_reducible refine ok_bufOp ?_); below; done))
theorem ok_delegate {hs : List Lock} {d : Nat} (h : Below 16 hs) : Ok hs (delegate d) := by unfold delegate; oks
macro_rules | `(tactic| leaf) => `(tactic| ((with_reducible refine ok_delegate ?_); below; done))
theorem ok_dataPlain {hs : List Lock} {d : Nat} (h : Below 15 hs) : Ok hs (dataPlain d) := by unfold dataPlain; oks
macro_rules | `(tactic| leaf) => `(tactic| ((with_reducible refine ok_dataPlain ?_); below; done))
theorem ok_dataAccess {hs : List Lock} {d n : Nat} (h : Below 15 hs) : Ok hs (dataAccess d n) := by unfold dataAccess; oks
macro_rules | `(tactic| leaf) => `(tactic| ((with_reducible refine ok_dataAccess ?_); below; done))
theorem ok_dataForce {hs : List Lock} {d n : Nat} (h : Below 15 hs) : Ok hs (dataForce d n) := by unfold dataForce; oks
macro_rules | `(tactic| leaf) => `(tactic| ((with_reducible refine ok_dataForce ?_); below; done))
theorem ok_someData {hs : List Lock} {d : Nat} (h : Below 15 hs) : Ok hs (someData d) := by unfold someData; oks
macro_rules | `(tactic| leaf) => `(tactic| ((with_reducible refine ok_someData ?_); below; done))
theorem ok_storageEntry {hs : List Lock} {d : Nat} (h : Below 14 hs) : Ok hs (storageEntry d) := by unfold storageEntry; oks
macro_rules | `(tactic| leaf) => `(tactic| ((with_reducible refine ok_storageEntry ?_); below; done))
theorem ok_storageMap {hs : List Lock} {d n : Nat} (h : Below 14 hs) : Ok hs (storageMap d n) := by unfold storageMap; oks
macro_rules | `(tactic| leaf) => `(tactic| ((with_reducible refine ok_storageMap ?_); below; done))
theorem ok_storageInit {hs : List Lock} {d n : Nat} (h : Below 14 hs) : Ok hs (storageInit d n) := by unfold storageInit; oks
macro_rules | `(tactic| leaf) => `(tactic| ((with_reducible refine ok_storageInit ?_); below; done))
theorem ok_storageReset {hs : List Lock} {n : Nat} (h : Below 14 hs) : Ok hs (storageReset n) := by unfold storageReset; oks
macro_rules | `(tactic| leaf) => `(tactic| ((with_reducible refine ok_storageReset ?_); below; done))
theorem ok_objectService {hs : List Lock} {d : Nat} (h : Below 14 hs) : Ok hs (objectService d) := by unfold objectService; oks
macro_rules | `(tactic| leaf) => `(tactic| ((with_reducible refine ok_objectService ?_); below; done))
theorem ok_parseMapping {hs : List Lock} {d n : Nat} (h : Below 14 hs) : Ok hs (parseMapping d n) := by unfold parseMapping; oks
macro_rules | `(tactic| leaf) => `(tactic| ((with_reducible refine ok_parseMapping ?_); below; done))
theorem ok_rpdoInit {hs : List Lock} {d n p : Nat} (h : Below 11 hs) : Ok hs (rpdoInit d n p) := by unfold rpdoInit; oks
macro_rules | `(tactic| leaf) => `(tactic| ((with_reducible refine ok_rpdoInit ?_); below; done))
theorem ok_tpdoInit {hs : List Lock} {d n p : Nat} (h : Below 12 hs) : Ok hs (tpdoInit d n p) := by unfold tpdoInit; oks
macro_rules | `(tactic| leaf) => `(tactic| ((with_reducible refine ok_tpdoInit ?_); below; done))
theorem ok_pdoInit {hs : List Lock} {d n : Nat} (h : Below 10 hs) : Ok hs (pdoInit d n) := by unfold pdoInit; oks
macro_rules | `(tactic| leaf) => `(tactic| ((with_reducible refine ok_pdoInit ?_); below; done))
theorem ok_rpdoFrame {hs : List Lock} {n : Nat} (h : Below 12 hs) : Ok hs (rpdoFrame n) := by unfold rpdoFrame; oks
macro_rules | `(tactic| leaf) => `(tactic| ((with_reducible refine ok_rpdoFrame ?_); below; done))
theorem ok_rpdoSync {hs : List Lock} {d n : Nat} (h : Below 12 hs) : Ok hs (rpdoSync d n) := by unfold rpdoSync; oks
macro_rules | `(tactic| leaf) => `(tactic| ((with_reducible refine ok_rpdoSync ?_); below; done))
theorem ok_tpdoSync {hs : List Lock} {d n : Nat} (h : Below 12 hs) : Ok hs (tpdoSync d n) := by unfold tpdoSync; oks
macro_rules | `(tactic| leaf) => `(tactic| ((with_reducible refine ok_tpdoSync ?_); below; done))
theorem ok_pdoRead {hs : List Lock} {d n : Nat} (h : Below 10 hs) : Ok hs (pdoRead d n) := by unfold pdoRead; oks
macro_rules | `(tactic| leaf) => `(tactic| ((with_reducible refine ok_pdoRead ?_); below; done))
theorem ok_pdoWrite {hs : List Lock} {d n : Nat} (h : Below 10 hs) : Ok hs (pdoWrite d n) := by unfold pdoWrite; oks
macro_rules | `(tactic| leaf) => `(tactic| ((with_reducible refine ok_pdoWrite ?_); below; done))
theorem ok_syncNode {hs : List Lock} (h : Below 17 hs) : Ok hs (syncNode) := by unfold syncNode; oks
macro_rules | `(tactic| leaf) => `(tactic| ((with_reducible refine ok_syncNode ?_); below; done))
theorem ok_switchState {hs : List Lock} {n : Nat} (h : Below 17 hs) : Ok hs (switchState n) := by unfold switchState; oks
macro_rules | `(tactic| leaf) => `(tactic| ((with_reducible refine ok_switchState ?_); below; done))
theorem ok_heartbeat {hs : List Lock} {d n : Nat} (h : Below 15 hs) : Ok hs (heartbeat d n) := by unfold heartbeat; oks
macro_rules | `(tactic| leaf) => `(tactic| ((with_reducible refine ok_heartbeat ?_); below; done))
theorem ok_handleNMT {hs : List Lock} {d n : Nat} (h : Below 13 hs) : Ok hs (handleNMT d n) := by unfold handleNMT; oks
macro_rules | `(tactic| leaf) => `(tactic| ((with_reducible refine ok_handleNMT ?_); below; done))
theorem ok_waitFor {hs : List Lock} {d n : Nat} (h : Below 13 hs) : Ok hs (waitFor d n) := by unfold waitFor; oks
macro_rules | `(tactic| leaf) => `(tactic| ((with_reducible refine ok_waitFor ?_); below; done))
theorem ok_checkHeartbeat {hs : List Lock} {d n : Nat} (h : Below 13 hs) : Ok hs (checkHeartbeat d n) := by unfold checkHeartbeat; oks
macro_rules | `(tactic| leaf) => `(tactic| ((with_reducible refine ok_checkHeartbeat ?_); below; done))
theorem ok_nodeState {hs : List Lock} {n : Nat} (h : Below 9 hs) : Ok hs (nodeState n) := by unfold nodeState; oks
macro_rules | `(tactic| leaf) => `(tactic| ((with_reducible refine ok_nodeState ?_); below; done))
theorem ok_nodeReset {hs : List Lock} {d n : Nat} (h : Below 9 hs) : Ok hs (nodeReset d n) := by unfold nodeReset; oks
macro_rules | `(tactic| leaf) => `(tactic| ((with_reducible refine ok_nodeReset ?_); below; done))
theorem ok_nodeStart {hs : List Lock} {d n : Nat} (h : Below 9 hs) : Ok hs (nodeStart d n) := by unfold nodeStart; oks
macro_rules | `(tactic| leaf) => `(tactic| ((with_reducible refine ok_nodeStart ?_); below; done))
theorem ok_nodeStop {hs : List Lock} {d n : Nat} (h : Below 9 hs) : Ok hs (nodeStop d n) := by unfold nodeStop; oks
macro_rules | `(tactic| leaf) => `(tactic| ((with_reducible refine ok_nodeStop ?_); below; done))
theorem ok_nodeRead {hs : List Lock} {d n : Nat} (h : Below 9 hs) : Ok hs (nodeRead d n) := by unfold nodeRead; oks
macro_rules | `(tactic| leaf) => `(tactic| ((with_reducible refine ok_nodeRead ?_); below; done))
theorem ok_nodeWrite {hs : List Lock} {d n : Nat} (h : Below 9 hs) : Ok hs (nodeWrite d n) := by unfold nodeWrite; oks
macro_rules | `(tactic| leaf) => `(tactic| ((with_reducible refine ok_nodeWrite ?_); below; done))
theorem ok_nodeDiag {hs : List Lock} {d n : Nat} (h : Below 9 hs) : Ok hs (nodeDiag d n) := by unfold nodeDiag; oks
macro_rules | `(tactic| leaf) => `(tactic| ((with_reducible refine ok_nodeDiag ?_); below; done))
theorem ok_nodeRecover {hs : List Lock} {d n : Nat} (h : Below 9 hs) : Ok hs (nodeRecover d n) := by unfold nodeRecover; oks
macro_rules | `(tactic| leaf) => `(tactic| ((with_reducible refine ok_nodeRecover ?_); below; done))
theorem ok_nodeShutdown {hs : List Lock} {d n : Nat} (h : Below 9 hs) : Ok hs (nodeShutdown d n) := by unfold nodeShutdown; oks
macro_rules | `(tactic| leaf) => `(tactic| ((with_reducible refine ok_nodeShutdown ?_); below; done))
theorem ok_emcyOp {hs : List Lock} {d : Nat} (h : Below 14 hs) : Ok hs (emcyOp d) := by unfold emcyOp; oks
macro_rules | `(tactic| leaf) => `(tactic| ((with_reducible refine ok_emcyOp ?_); below; done))
theorem ok_canCheck {hs : List Lock} {d : Nat} (h : Below 24 hs) : Ok hs (canCheck d) := by unfold canCheck; oks
macro_rules | `(tactic| leaf) => `(tactic| ((with_reducible refine ok_canCheck ?_); below; done))
theorem ok_canDiag {hs : List Lock} {d : Nat} (h : Below 22 hs) : Ok hs (canDiag d) := by unfold canDiag; oks
macro_rules | `(tactic| leaf) => `(tactic| ((with_reducible refine ok_canDiag ?_); below; done))
theorem ok_waiterCreate {hs : List Lock} {d : Nat} (h : Below 24 hs) : Ok hs (waiterCreate d) := by unfold waiterCreate; oks
macro_rules | `(tactic| leaf) => `(tactic| ((with_reducible refine ok_waiterCreate ?_); below; done))
theorem ok_waiterWait {hs : List Lock} {d n : Nat} (h : Below 25 hs) : Ok hs (waiterWait d n) := by unfold waiterWait; oks
macro_rules | `(tactic| leaf) => `(tactic| ((with_reducible refine ok_waiterWait ?_); below; done))
theorem ok_join {hs : List Lock} (h : Below 2 hs) : Ok hs (join) := by unfold join; oks
macro_rules | `(tactic| leaf) => `(tactic| ((with_reducible refine ok_join ?_); below; done))
theorem ok_canInit {hs : List Lock} {d : Nat} (h : Below 11 hs) : Ok hs (canInit d) := by unfold canInit; oks
macro_rules | `(tactic| leaf) => `(tactic| ((with_reducible refine ok_canInit ?_); below; done))
theorem ok_canShutdown {hs : List Lock} {d : Nat} (h : Below 2 hs) : Ok hs (canShutdown d) := by unfold canShutdown; oks
macro_rules | `(tactic| leaf) => `(tactic| ((with_reducible refine ok_canShutdown ?_); below; done))
theorem ok_canRecover {hs : List Lock} {d : Nat} (h : Below 2 hs) : Ok hs (canRecover d) := by unfold canRecover; oks
macro_rules | `(tactic| leaf) => `(tactic| ((with_reducible refine ok_canRecover ?_); below; done))
theorem ok_syncPhase {hs : List Lock} {d : Nat} (h : Below 22 hs) : Ok hs (syncPhase d) := by unfold syncPhase; oks
macro_rules | `(tactic| leaf) => `(tactic| ((with_reducible refine ok_syncPhase ?_); below; done))
theorem ok_bcmOp {hs : List Lock} {d : Nat} (h : Below 22 hs) : Ok hs (bcmOp d) := by unfold bcmOp; oks
macro_rules | `(tactic| leaf) => `(tactic| ((with_reducible refine ok_bcmOp ?_); below; done))
theorem ok_frameListener {hs : List Lock} {d : Nat} (h : Below 12 hs) : Ok hs (frameListener d) := by unfold frameListener; oks
macro_rules | `(tactic| leaf) => `(tactic| ((with_reducible refine ok_frameListener ?_); below; done))
theorem ok_dispatch {hs : List Lock} {d : Nat} (h : Below 11 hs) : Ok hs (dispatch d) := by unfold dispatch; oks
macro_rules | `(tactic| leaf) => `(tactic| ((with_reducible refine ok_dispatch ?_); below; done))
theorem ok_driverRun {hs : List Lock} {d : Nat} (h : Below 11 hs) : Ok hs (driverRun d) := by unfold driverRun; oks
macro_rules | `(tactic| leaf) => `(tactic| ((with_reducible refine ok_driverRun ?_); below; done))
theorem ok_threadedInit {hs : List Lock} {d : Nat} (h : Below 24 hs) : Ok hs (threadedInit d) := by unfold threadedInit; oks
macro_rules | `(tactic| leaf) => `(tactic| ((with_reducible refine ok_threadedInit ?_); below; done))
theorem ok_threadedShutdown {hs : List Lock} (h : Below 2 hs) : Ok hs (threadedShutdown) := by unfold threadedShutdown; oks
macro_rules | `(tactic| leaf) => `(tactic| ((with_reducible refine ok_threadedShutdown ?_); below; done))
theorem ok_sw402 {hs : List Lock} {m : Nat} (h : Below 8 hs) : Ok hs (sw402 m) := by unfold sw402; oks
macro_rules | `(tactic| leaf) => `(tactic| ((with_reducible refine ok_sw402 ?_); below; done))
theorem ok_waitState {hs : List Lock} {m : Nat} (h : Below 8 hs) : Ok hs (waitState m) := by unfold waitState; oks
macro_rules | `(tactic| leaf) => `(tactic| ((with_reducible refine ok_waitState ?_); below; done))
theorem ok_motorSwitch {hs : List Lock} {m : Nat} (h : Below 5 hs) : Ok hs (motorSwitch m) := by unfold motorSwitch; oks
macro_rules | `(tactic| leaf) => `(tactic| ((with_reducible refine ok_motorSwitch ?_); below; done))
theorem ok_allocMode {hs : List Lock} {d m : Nat} (h : Below 8 hs) : Ok hs (allocMode d m) := by unfold allocMode; oks
macro_rules | `(tactic| leaf) => `(tactic| ((with_reducible refine ok_allocMode ?_); below; done))
theorem ok_modeStart {hs : List Lock} {m : Nat} (h : Below 7 hs) : Ok hs (modeStart m) := by unfold modeStart; oks
macro_rules | `(tactic| leaf) => `(tactic| ((with_reducible refine ok_modeStart ?_); below; done))
theorem ok_modeWrite {hs : List Lock} {d : Nat} (h : Below 15 hs) : Ok hs (modeWrite d) := by unfold modeWrite; oks
macro_rules | `(tactic| leaf) => `(tactic| ((with_reducible refine ok_modeWrite ?_); below; done))
theorem ok_switchMode {hs : List Lock} {d m : Nat} (h : Below 5 hs) : Ok hs (switchMode d m) := by unfold switchMode; oks
macro_rules | `(tactic| leaf) => `(tactic| ((with_reducible refine ok_switchMode ?_); below; done))
theorem ok_motorRead {hs : List Lock} {d m : Nat} (h : Below 6 hs) : Ok hs (motorRead d m) := by unfold motorRead; oks
macro_rules | `(tactic| leaf) => `(tactic| ((with_reducible refine ok_motorRead ?_); below; done))
theorem ok_motorWrite {hs : List Lock} {d m : Nat} (h : Below 5 hs) : Ok hs (motorWrite d m) := by unfold motorWrite; oks
macro_rules | `(tactic| leaf) => `(tactic| ((with_reducible refine ok_motorWrite ?_); below; done))
theorem ok_motorDiag {hs : List Lock} {m : Nat} (h : Below 8 hs) : Ok hs (motorDiag m) := by unfold motorDiag; oks
macro_rules | `(tactic| leaf) => `(tactic| ((with_reducible refine ok_motorDiag ?_); below; done))
theorem ok_executeHoming {hs : List Lock} {d m : Nat} (h : Below 7 hs) : Ok hs (executeHoming d m) := by unfold executeHoming; oks
macro_rules | `(tactic| leaf) => `(tactic| ((with_reducible refine ok_executeHoming ?_); below; done))
theorem ok_motorInit {hs : List Lock} {d m : Nat} (h : Below 5 hs) : Ok hs (motorInit d m) := by unfold motorInit; oks
macro_rules | `(tactic| leaf) => `(tactic| ((with_reducible refine ok_motorInit ?_); below; done))
theorem ok_motorShutdown {hs : List Lock} {d m : Nat} (h : Below 5 hs) : Ok hs (motorShutdown d m) := by unfold motorShutdown; oks
macro_rules | `(tactic| leaf) => `(tactic| ((with_reducible refine ok_motorShutdown ?_); below; done))
theorem ok_motorHalt {hs : List Lock} {m : Nat} (h : Below 5 hs) : Ok hs (motorHalt m) := by unfold motorHalt; oks
macro_rules | `(tactic| leaf) => `(tactic| ((with_reducible refine ok_motorHalt ?_); below; done))
theorem ok_motorRecover {hs : List Lock} {m : Nat} (h : Below 5 hs) : Ok hs (motorRecover m) := by unfold motorRecover; oks
macro_rules | `(tactic| leaf) => `(tactic| ((with_reducible refine ok_motorRecover ?_); below; done))
theorem ok_motorTarget {hs : List Lock} {m : Nat} (h : Below 6 hs) : Ok hs (motorTarget m) := by unfold motorTarget; oks
macro_rules | `(tactic| leaf) => `(tactic| ((with_reducible refine ok_motorTarget ?_); below; done))
theorem ok_enterMode {hs : List Lock} {d m : Nat} (h : Below 5 hs) : Ok hs (enterMode d m) := by unfold enterMode; oks
macro_rules | `(tactic| leaf) => `(tactic| ((with_reducible refine ok_enterMode ?_); below; done))
theorem ok_handleRead {hs : List Lock} {d m : Nat} (h : Below 4 hs) : Ok hs (handleRead d m) := by unfold handleRead; oks
macro_rules | `(tactic| leaf) => `(tactic| ((with_reducible refine ok_handleRead ?_); below; done))
theorem ok_handleOp {hs : List Lock} {d : Nat} (h : Below 5 hs) : Ok hs (handleOp d) := by unfold handleOp; oks
macro_rules | `(tactic| leaf) => `(tactic| ((with_reducible refine ok_handleOp ?_); below; done))
theorem ok_layersRead {hs : List Lock} {d : Nat} (h : Below 4 hs) : Ok hs (layersRead d) := by unfold layersRead; oks
macro_rules | `(tactic| leaf) => `(tactic| ((with_reducible refine ok_layersRead ?_); below; done))
theorem ok_layersWrite {hs : List Lock} {d : Nat} (h : Below 5 hs) : Ok hs (layersWrite d) := by unfold layersWrite; oks
macro_rules | `(tactic| leaf) => `(tactic| ((with_reducible refine ok_layersWrite ?_); below; done))
theorem ok_layersDiag {hs : List Lock} {d : Nat} (h : Below 8 hs) : Ok hs (layersDiag d) := by unfold layersDiag; oks
macro_rules | `(tactic| leaf) => `(tactic| ((with_reducible refine ok_layersDiag ?_); below; done))
theorem ok_layersRecover {hs : List Lock} {d : Nat} (h : Below 2 hs) : Ok hs (layersRecover d) := by unfold layersRecover; oks
macro_rules | `(tactic| leaf) => `(tactic| ((with_reducible refine ok_layersRecover ?_); below; done))
theorem ok_layersHalt {hs : List Lock} (h : Below 5 hs) : Ok hs (layersHalt) := by unfold layersHalt; oks
macro_rules | `(tactic| leaf) => `(tactic| ((with_reducible refine ok_layersHalt ?_); below; done))
theorem ok_layersShutdown {hs : List Lock} {d : Nat} (h : Below 2 hs) : Ok hs (layersShutdown d) := by unfold layersShutdown; oks
macro_rules | `(tactic| leaf) => `(tactic| ((with_reducible refine ok_layersShutdown ?_); below; done))
theorem ok_chainCycle {hs : List Lock} {d : Nat} (h : Below 4 hs) : Ok hs (chainCycle d) := by unfold chainCycle; oks
macro_rules | `(tactic| leaf) => `(tactic| ((with_reducible refine ok_chainCycle ?_); below; done))
theorem ok_chainRecover {hs : List Lock} {d n : Nat} (h : Below 0 hs) : Ok hs (chainRecover d n) := by unfold chainRecover; oks
macro_rules | `(tactic| leaf) => `(tactic| ((with_reducible refine ok_chainRecover ?_); below; done))
theorem ok_chainShutdownLayer {hs : List Lock} {d n : Nat} (h : Below 1 hs) : Ok hs (chainShutdownLayer d n) := by unfold chainShutdownLayer; oks
macro_rules | `(tactic| leaf) => `(tactic| ((with_reducible refine ok_chainShutdownLayer ?_); below; done))
theorem ok_chainShutdown {hs : List Lock} {d n : Nat} (h : Below 0 hs) : Ok hs (chainShutdown d n) := by unfold chainShutdown; oks
macro_rules | `(tactic| leaf) => `(tactic| ((with_reducible refine ok_chainShutdown ?_); below; done))
theorem ok_chainHalt {hs : List Lock} {n : Nat} (h : Below 0 hs) : Ok hs (chainHalt n) := by unfold chainHalt; oks
macro_rules | `(tactic| leaf) => `(tactic| ((with_reducible refine ok_chainHalt ?_); below; done))
theorem ok_chainDiag {hs : List Lock} {d n : Nat} (h : Below 1 hs) : Ok hs (chainDiag d n) := by unfold chainDiag; oks
macro_rules | `(tactic| leaf) => `(tactic| ((with_reducible refine ok_chainDiag ?_); below; done))
theorem ok_timerOp {hs : List Lock} {n : Nat} (h : Below 3 hs) : Ok hs (timerOp n) := by unfold timerOp; oks
macro_rules | `(tactic| leaf) => `(tactic| ((with_reducible refine ok_timerOp ?_); below; done))
theorem ok_timerHandler {hs : List Lock} {d n : Nat} (h : Below 3 hs) : Ok hs (timerHandler d n) := by unfold timerHandler; oks
macro_rules | `(tactic| leaf) => `(tactic| ((with_reducible refine ok_timerHandler ?_); below; done))
theorem ok_dummyEnqueue {hs : List Lock} {n : Nat} (h : Below 19 hs) : Ok hs (dummyEnqueue n) := by unfold dummyEnqueue; oks
macro_rules | `(tactic| leaf) => `(tactic| ((with_reducible refine ok_dummyEnqueue ?_); below; done))
theorem ok_dummySend {hs : List Lock} {d n : Nat} (h : Below 18 hs) : Ok hs (dummySend d n) := by unfold dummySend; oks
macro_rules | `(tactic| leaf) => `(tactic| ((with_reducible refine ok_dummySend ?_); below; done))
theorem ok_dummyState {hs : List Lock} {n : Nat} (h : Below 19 hs) : Ok hs (dummyState n) := by unfold dummyState; oks
macro_rules | `(tactic| leaf) => `(tactic| ((with_reducible refine ok_dummyState ?_); below; done))
theorem ok_dummyInit {hs : List Lock} {d n : Nat} (h : Below 18 hs) : Ok hs (dummyInit d n) := by unfold dummyInit; oks
macro_rules | `(tactic| leaf) => `(tactic| ((with_reducible refine ok_dummyInit ?_); below; done))
theorem ok_dummyShutdown {hs : List Lock} {d n : Nat} (h : Below 18 hs) : Ok hs (dummyShutdown d n) := by unfold dummyShutdown; oks
macro_rules | `(tactic| leaf) => `(tactic| ((with_reducible refine ok_dummyShutdown ?_); below; done))
theorem ok_dummyListener {hs : List Lock} {n : Nat} (h : Below 20 hs) : Ok hs (dummyListener n) := by unfold dummyListener; oks
macro_rules | `(tactic| leaf) => `(tactic| ((with_reducible refine ok_dummyListener ?_); below; done))
theorem ok_dummyRun {hs : List Lock} {n : Nat} (h : Below 19 hs) : Ok hs (dummyRun n (opt (.any readerOp))) := by unfold dummyRun; oks
macro_rules | `(tactic| leaf) => `(tactic| ((with_reducible refine ok_dummyRun ?_); below; done))

theorem ok_call (c : Call) : Ok [] c.prog := by
  have h : Below 0 [] := Below.nil 0
  cases c <;> (unfold Call.prog; dsimp only; leaf)

theorem ok_joined {c : Call} (hc : c.joined = true) (k : Nat) : Ok [⟨.life, k⟩] c.prog := by
  have h : Below 3 [⟨.life, k⟩] := Below.cons (Nat.le_of_ble_eq_true rfl) (Below.nil 3)
  cases c <;> first | (cases hc; done) | (unfold Call.prog; dsimp only; leaf)

theorem legal_start {p : Prog} (h : p.Legal) : Ord p.start.held p.start.todo := by
  unfold Prog.start
  split
  · rename_i hl
    have := ord_flatten [] [] p.traces (fun t ht => by obtain ⟨c, _, htr⟩ := h t ht; exact ⟨_, ok_call c, htr⟩) rfl
    simpa using this
  · rename_i k hl
    refine ord_flatten [⟨.life, k⟩] _ p.traces (fun t ht => ?_) ⟨by simp, by simp [Ord]⟩
    obtain ⟨c, hc, htr⟩ := h t ht
    exact ⟨_, ok_joined (hc (by simp [hl])) k, htr⟩

theorem legal_orderly {ps : List Prog} (h : ∀ p ∈ ps, p.Legal) : Orderly (ps.map Prog.start) := by
  intro t ht
  obtain ⟨p, hp, rfl⟩ := List.mem_map.mp ht
  exact legal_start (h p hp)

/-! ## Examples of traces -/

/-- repeat -/
def iter (f : List Nat → List Act × List Nat) : Nat → List Nat → List Act × List Nat
  | 0, cs => ([], cs)
  | k + 1, cs => ((f cs).1 ++ (iter f k (f cs).2).1, (iter f k (f cs).2).2)

/-- the trace with the given choices (left 0, right 1; number of rounds; object), zeros at the end -/
def follow : P → List Nat → List Act × List Nat
  | .skip, cs => ([], cs)
  | .wait, cs => ([.wait], cs)
  | .lock l p, cs => (.acq l :: ((follow p cs).1 ++ [.rel l]), (follow p cs).2)
  | .pause l p, cs => (.rel l :: ((follow p cs).1 ++ [.acq l]), (follow p cs).2)
  | .seq p q, cs => ((follow p cs).1 ++ (follow q (follow p cs).2).1, (follow q (follow p cs).2).2)
  | .alt p q, cs => if cs.headD 0 = 0 then follow p cs.tail else follow q cs.tail
  | .many p, cs => iter (follow p) (cs.headD 0) cs.tail
  | .any f, cs => follow (f (cs.headD 0)) cs.tail

theorem tr_iter {p : P} (h : ∀ cs, Tr p (follow p cs).1) : ∀ k cs, Tr (.many p) (iter (follow p) k cs).1
  | 0, _ => .none
  | k + 1, cs => .more (h cs) (tr_iter h k _)

theorem tr_follow (p : P) : ∀ cs, Tr p (follow p cs).1 := by
  induction p with
  | skip => intro cs; exact .skip
  | wait => intro cs; exact .wait
  | lock l p ih => intro cs; exact .lock (ih cs)
  | pause l p ih => intro cs; exact .pause (ih cs)
  | seq p q ih1 ih2 => intro cs; exact .seq (ih1 cs) (ih2 _)
  | alt p q ih1 ih2 =>
    intro cs
    unfold follow
    split
    · exact .altl (ih1 _)
    · exact .altr (ih2 _)
  | many p ih => intro cs; exact tr_iter ih _ _
  | any f ih => intro cs; exact .any _ (ih _ _)

end Verif.Lk
