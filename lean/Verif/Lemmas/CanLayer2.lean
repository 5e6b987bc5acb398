import Verif.Lemmas.CanLayer

set_option linter.unusedSimpArgs false
set_option linter.unusedVariables false

namespace Verif.CanL
open Verif Verif.Drv Verif.Lay Verif.Spec

theorem run_append (s : Sys) (a b : List Ev) : s.run (a ++ b) = (s.run a).run b := by
  unfold Sys.run; exact List.foldl_append

/-! ### `join` returns -/

/-- steps `run` still needs once the loop was stopped -/
def Wk.left : Wk → Nat
  | .trigger => 7 | .loop => 6 | .err _ => 5 | .look2 => 4 | .store2 _ => 3 | .final => 2 | .tell _ => 1 | _ => 0

/-- the loop was stopped and `run` is past its start -/
def Ending (s : Sys) : Prop := s.thread = true ∧ s.pc = .join ∧ s.worker.past = true ∧ s.stopped = true

theorem ending_step (s : Sys) (h : Ending s) (e : Ev) (he : Others e) :
    Ending (s.step e) ∧ (s.step e).worker.left ≤ s.worker.left - (if isWorker e then 1 else 0) := by
  obtain ⟨h1, h2, h3, h4⟩ := h
  cases e with
  | call c => exact he.elim
  | caller c => exact he.elim
  | worker ec =>
    unfold Ending
    simp only [Sys.step, Sys.workerStep, isWorker]
    split <;> grind [Wk.past, Wk.left, Sys.set, Sys.setDrv, Sys.setErr, Sys.tell]
  | upd i =>
    unfold Ending
    simp only [Sys.step, isWorker]
    split
    · grind
    · rename_i u hu
      cases u <;> grind [Sys.updStep, Sys.set, Sys.setDrv, Sys.setErr, Sys.setInt, Sys.tell]
  | _ => unfold Ending; grind [Sys.step, isWorker]

theorem ending_run (s : Sys) (h : Ending s) (evs : List Ev) (he : ∀ e ∈ evs, Others e) :
    Ending (s.run evs) ∧ (s.run evs).worker.left ≤ s.worker.left - evs.countP isWorker := by
  induction evs generalizing s with
  | nil => exact ⟨h, by simp [Sys.run]⟩
  | cons e es ih =>
    obtain ⟨a, b⟩ := ending_step s h e (he e (by simp))
    obtain ⟨c, d⟩ := ih _ a (fun x hx => he x (by simp [hx]))
    refine ⟨c, ?_⟩
    show ((s.step e).run es).worker.left ≤ _
    rw [List.countP_cons]
    have d' : ((s.step e).run es).worker.left ≤ _ := d
    omega

/-! ### a stop before the start of the loop is lost -/

/-- `run` is going to enter or has entered the loop, which nobody stops -/
def Lost (s : Sys) : Prop :=
  s.thread = true ∧ s.pc = .join ∧ (s.worker = .reset ∨ ((s.worker = .ready ∨ s.worker = .trigger ∨ s.worker = .loop) ∧ s.stopped = false))

theorem lost_step (s : Sys) (h : Lost s) (e : Ev) : Lost (s.step e) := by
  unfold Lost at *
  cases e with
  | call c => simp only [Sys.step, Sys.begin]; rw [if_pos (by simp [h.2.1])]; exact h
  | caller c =>
    obtain ⟨h1, h2, h3⟩ := h
    simp only [Sys.step, Sys.callerStep, h2, h1, if_true]
    rw [if_neg (by rcases h3 with h3 | ⟨h3 | h3 | h3, _⟩ <;> simp [h3])]
    exact ⟨h1, h2, h3⟩
  | worker ec =>
    obtain ⟨h1, h2, h3⟩ := h
    rcases h3 with h3 | ⟨h3 | h3 | h3, h4⟩
    all_goals simp only [Sys.step, Sys.workerStep, h3]
    · simp [h1, h2]
    · grind [Sys.set, Sys.setDrv, Sys.tell]
    · split <;> simp [h1, h2, h4]
    · simp [h1, h2, h3, h4]
  | upd i =>
    simp only [Sys.step]
    split
    · grind
    · rename_i u hu
      cases u <;> grind [Sys.updStep, Sys.set, Sys.setDrv, Sys.setErr, Sys.setInt, Sys.tell]
  | _ => grind [Sys.step]

theorem lost_run (s : Sys) (h : Lost s) (evs : List Ev) : Lost (s.run evs) := by
  induction evs generalizing s with
  | nil => exact h
  | cons e es ih => exact ih _ (lost_step s h e)

/-! ### recorded as open without socket and thread -/

def Dead (s : Sys) : Prop :=
  s.thread = false ∧ s.worker = .none ∧ s.st.driver = .opened ∧ s.upds = [] ∧ s.checked = 0 ∧ s.pc ≠ .wait ∧
  (s.pc.starting = true → s.pc = .drvTest ∨ s.pc = .drvElse)

theorem dead_step (s : Sys) (h : Dead s) (e : Ev) : Dead (s.step e) := by
  unfold Dead at *
  cases e with
  | call c => simp only [Sys.step, Sys.begin]; repeat' split
              all_goals grind [Pc.starting, Pc.opening]
  | caller c =>
    simp only [Sys.step, Sys.callerStep]
    repeat' split
    all_goals grind [Sys.leave, Pc.starting, Pc.opening]
  | worker ec =>
    have : s.workerStep ec = s := by simp only [Sys.workerStep, h.2.1]
    simp only [Sys.step, this]; exact h
  | upd i => simp only [Sys.step, h.2.2.2.1]; exact h
  | _ => simp only [Sys.step, Sys.handling, h.2.1, h.2.2.1, h.2.2.2.2.1]; simpa using h

theorem dead_run (s : Sys) (h : Dead s) (evs : List Ev) : Dead (s.run evs) := by
  induction evs generalizing s with
  | nil => exact h
  | cons e es ih => exact ih _ (dead_step s h e)

/-! ### an undisturbed initialisation -/

def up (x : DriverState) : State := ⟨x, 0, 0⟩

/-- where the two threads can be -/
structure Coming (s : Sys) : Prop where
  upds : s.upds = []
  rep : s.reports = []
  agn : s.again = false
  abt : s.aborted = 0
  chk : s.checked = 0
  pcs : (s.pc = .init ∨ s.pc.starting = true ∧ s.pc ≠ .drvElse ∧ ∀ c, s.pc ≠ .drvFail c) ∨ s.pc = .wait ∨ s.pc = .check ∨ s.pc = .idle
  none : (s.pc = .init ∨ s.pc.starting = true) → s.thread = false ∧ s.worker = .none
  cls : (s.pc = .init ∨ s.pc = .drvTest ∨ s.pc = .drvErr) → s.st.driver = .closed
  int : (s.pc = .drvInt) → s.st.driver = .closed ∧ s.st.errorCode = 0
  opn : (s.pc = .drvOpen) → s.st = up .closed
  opd : (s.pc = .waiter ∨ s.pc = .listen ∨ s.pc = .spawn) → s.st = up .opened
  vw : (s.pc = .listen ∨ s.pc = .spawn) → s.view = .opened
  lst : (s.pc = .spawn ∨ s.pc = .wait) → s.listening = true
  wat : s.pc = .wait → s.thread = true ∧ (s.view = s.st.driver) ∧
    ((s.st = up .opened ∧ (s.worker = .look ∨ s.worker = .store true ∨ s.worker = .test ∨ s.worker = .reset ∨ s.worker = .ready)) ∨
     (s.st = up .ready ∧ (s.worker = .trigger ∨ s.worker = .loop)))
  sck : s.pc = .drvErr ∨ s.pc = .drvInt ∨ s.pc = .drvOpen ∨ s.pc = .waiter ∨ s.pc = .listen ∨ s.pc = .spawn ∨ s.pc = .wait ∨ s.pc = .check ∨ s.pc = .idle → s.sock = true
  run : (s.worker = .ready ∨ s.worker = .trigger ∨ s.worker = .loop) → s.stopped = false
  fin : (s.pc = .check ∨ s.pc = .idle) → s.thread = true ∧ s.st = up .ready ∧ (s.worker = .trigger ∨ s.worker = .loop)
  lay : s.pc = .check → s.layer = true
  ret : s.pc = .idle → s.layer = false → s.ret = some true

theorem coming_start (s : Sys) (h : Down s) : Coming (s.begin .init) := by
  obtain ⟨h1, h2, h3, h4, h5, h6, h7, h8⟩ := h
  unfold Sys.begin
  rw [if_neg (by simp [h1])]
  constructor <;> simp_all [Pc.starting, Pc.opening]

set_option maxHeartbeats 1000000 in
theorem coming_step (s : Sys) (h : Coming s) (e : Ev) (he : Undisturbed e) : Coming (s.step e) := by
  obtain ⟨h1, h2, h3, h4, h5, h6, h7, h8, h9, h10, h11, h12, h13, h14, h15, h16, h17, h18, h19⟩ := h
  cases e with
  | caller c =>
    obtain ⟨c1, c2⟩ := he
    simp only [Sys.step, Sys.callerStep]
    repeat' split
    all_goals constructor
    all_goals grind [Sys.leave, Pc.starting, Pc.opening, Sys.set, Sys.setDrv, Sys.setErr, Sys.setInt, Sys.tell, up]
  | worker ec =>
    simp only [Sys.step, Sys.workerStep]
    repeat' split
    all_goals constructor
    all_goals grind [Pc.starting, Pc.opening, Sys.set, Sys.setDrv, Sys.setErr, Sys.setInt, Sys.tell, up, notReady]
  | _ => exact he.elim

theorem coming_run (s : Sys) (h : Coming s) (evs : List Ev) (he : ∀ e ∈ evs, Undisturbed e) : Coming (s.run evs) := by
  induction evs generalizing s with
  | nil => exact h
  | cons e es ih => exact ih _ (coming_step s h e (he e (by simp))) (fun x hx => he x (by simp [hx]))

/-- steps of the calling thread up to the wait -/
def Pc.before : Pc → Nat
  | .init => 8 | .drvTest => 7 | .drvErr => 6 | .drvInt => 5 | .drvOpen => 4 | .waiter => 3 | .listen => 2 | .spawn => 1 | _ => 0
/-- steps of `run` until it records ready -/
def Wk.before : Wk → Nat
  | .look => 5 | .store _ => 4 | .test => 3 | .reset => 2 | .ready => 1 | _ => 0
/-- steps of the calling thread from the wait on -/
def Pc.after : Pc → Nat
  | .wait => 2 | .check => 1 | _ => 0

theorem coming_rank (s : Sys) (h : Coming s) (e : Ev) (he : Undisturbed e) :
    (s.step e).pc.before ≤ s.pc.before - (if isCaller e then 1 else 0) ∧
    (s.pc.before = 0 → (s.step e).worker.before ≤ s.worker.before - (if isWorker e then 1 else 0)) ∧
    (s.pc.before = 0 → s.worker.before = 0 → (s.step e).pc.after ≤ s.pc.after - (if isCaller e then 1 else 0)) := by
  obtain ⟨h1, h2, h3, h4, h5, h6, h7, h8, h9, h10, h11, h12, h13, h14, h15, h16, h17, h18, h19⟩ := h
  cases e with
  | caller c =>
    obtain ⟨c1, c2⟩ := he
    simp only [Sys.step, Sys.callerStep, isCaller, isWorker]
    repeat' split
    all_goals grind [Sys.leave, Pc.starting, Pc.opening, Sys.set, Sys.setDrv, Sys.setErr, Sys.setInt, Sys.tell, up, Pc.before, Pc.after, Wk.before]
  | worker ec =>
    simp only [Sys.step, Sys.workerStep, isCaller, isWorker]
    repeat' split
    all_goals grind [Pc.starting, Pc.opening, Sys.set, Sys.setDrv, Sys.setErr, Sys.setInt, Sys.tell, up, notReady, Pc.before, Pc.after, Wk.before]
  | _ => exact he.elim

theorem coming_first (s : Sys) (h : Coming s) (evs : List Ev) (he : ∀ e ∈ evs, Undisturbed e) :
    (s.run evs).pc.before ≤ s.pc.before - evs.countP isCaller := by
  induction evs generalizing s with
  | nil => simp [Sys.run]
  | cons e es ih =>
    have he1 := he e (by simp)
    have a := (coming_rank s h e he1).1
    have b : ((s.step e).run es).pc.before ≤ _ := ih _ (coming_step s h e he1) (fun x hx => he x (by simp [hx]))
    show ((s.step e).run es).pc.before ≤ _
    rw [List.countP_cons]
    omega

theorem coming_second (s : Sys) (h : Coming s) (h0 : s.pc.before = 0) (evs : List Ev) (he : ∀ e ∈ evs, Undisturbed e) :
    (s.run evs).pc.before = 0 ∧ (s.run evs).worker.before ≤ s.worker.before - evs.countP isWorker := by
  induction evs generalizing s with
  | nil => simp [Sys.run, h0]
  | cons e es ih =>
    have he1 := he e (by simp)
    obtain ⟨a, a2, _⟩ := coming_rank s h e he1
    have a2 := a2 h0
    obtain ⟨b, c⟩ := ih _ (coming_step s h e he1) (by omega) (fun x hx => he x (by simp [hx]))
    refine ⟨b, ?_⟩
    have c : ((s.step e).run es).worker.before ≤ _ := c
    show ((s.step e).run es).worker.before ≤ _
    rw [List.countP_cons]
    omega

theorem coming_third (s : Sys) (h : Coming s) (h0 : s.pc.before = 0) (h1 : s.worker.before = 0) (evs : List Ev) (he : ∀ e ∈ evs, Undisturbed e) :
    (s.run evs).pc.before = 0 ∧ (s.run evs).pc.after ≤ s.pc.after - evs.countP isCaller := by
  induction evs generalizing s with
  | nil => simp [Sys.run, h0]
  | cons e es ih =>
    have he1 := he e (by simp)
    obtain ⟨a, a2, a3⟩ := coming_rank s h e he1
    have a2 := a2 h0
    have a3 := a3 h0 h1
    obtain ⟨b, c⟩ := ih _ (coming_step s h e he1) (by omega) (by omega) (fun x hx => he x (by simp [hx]))
    refine ⟨b, ?_⟩
    have c : ((s.step e).run es).pc.after ≤ _ := c
    show ((s.step e).run es).pc.after ≤ _
    rw [List.countP_cons]
    omega

end Verif.CanL
