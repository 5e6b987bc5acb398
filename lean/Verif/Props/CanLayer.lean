import Verif.Lemmas.CanLayer3

/-!
# Properties of the CAN layer and of the thread that runs the driver: C85
-/

set_option linter.unusedVariables false

namespace Verif.Props
open Verif Verif.Drv Verif.Lay Verif.Spec Verif.CanL

/-! sample schedules -/

/-- steps of the calling thread; `late`: its one second is over -/
def go : Ev := .caller ⟨.ok, false⟩
def late : Ev := .caller ⟨.ok, true⟩
def wk : Ev := .worker 0
def times (n : Nat) (e : Ev) : List Ev := List.replicate n e
/-- an initialisation up to its answer, and the following shutdown up to its answer -/
def bringUp : List Ev := times 8 go ++ times 6 wk ++ times 2 go
def takeDown : List Ev := times 4 go ++ times 6 wk ++ times 2 go

/-! ## C85 -/

/-- C85.  For every schedule of all threads: if `init` or `recover` of the CAN layer returns without having reported an error, the driver is
ready, its socket is open and exactly one thread executes its event loop. -/
theorem C85_init_and_recover (c : Call) (hc : c = .init ∨ c = .recover) (pre mid : List Ev) (h : Completed true c pre mid) :
    let s := (Sys.fresh true).run (pre ++ .call c :: mid)
    (∀ r ∈ s.reports, IsError r = false) → Running s := by
  intro s hrep
  have hlay : ∀ evs, ((Sys.fresh true).run evs).layer = true := fun evs => run_layer _ evs
  have hclean : clean s = true := by
    unfold clean
    rw [List.all_eq_true]
    exact fun r hr => by rw [hrep r hr]; rfl
  rcases hc with rfl | rfl
  · refine completed_induct h (fun s => s.layer = true ∧ s.again = false ∧ s.pc.initing = true) (fun s => clean s = true → Running s) ?_ ?_ ?_ ?_ hclean
    · simp [Sys.begin, h.1]
    · simp [Sys.begin, h.1, hlay, (idle_again _ _ h.1 : ((Sys.fresh true).run pre).again = false), Pc.initing]
    · intro t e hi ⟨q1, q2, q3⟩ h0 h1
      exact (only_caller (Q := fun s => s.layer = true ∧ s.again = false ∧ s.pc.initing = true) (R := fun s => clean s = true → Running s) t e h0
        (fun t' a b _ d => ⟨d.trans q1, b.trans q2, by rw [a]; exact q3⟩) (fun c _ => init_caller t c hi q1 q2 q3)).1 h1
    · intro t e hi ⟨q1, q2, q3⟩ h0 h1
      exact (only_caller (Q := fun s => s.layer = true ∧ s.again = false ∧ s.pc.initing = true) (R := fun s => clean s = true → Running s) t e h0
        (fun t' a b _ d => ⟨d.trans q1, b.trans q2, by rw [a]; exact q3⟩) (fun c _ => init_caller t c hi q1 q2 q3)).2 h1
  · let Q : Sys → Prop := fun s => s.layer = true ∧ (s.pc = .recover ∧ s.again = false ∨ s.again = true ∧ s.pc.ending = true ∨ s.again = false ∧ s.pc.initing = true)
    have key : ∀ (t : Sys) (e : Ev), Inv t → Q t → t.pc ≠ .idle →
        ((t.step e).pc ≠ .idle → Q (t.step e)) ∧ ((t.step e).pc = .idle → clean (t.step e) = true → Running (t.step e)) := by
      intro t e hi ⟨q1, q2⟩ h0
      refine only_caller (Q := Q) (R := fun s => clean s = true → Running s) t e h0 (fun t' a b _ d => ⟨d.trans q1, by rw [a, b]; exact q2⟩) ?_
      intro c _
      rcases q2 with q2 | q2 | ⟨q2, q3⟩
      · obtain ⟨a, b, c⟩ := recover_caller t c hi q1 (Or.inl q2)
        exact ⟨fun h => ⟨a, b h⟩, fun h _ => c h⟩
      · obtain ⟨a, b, c⟩ := recover_caller t c hi q1 (Or.inr q2)
        exact ⟨fun h => ⟨a, b h⟩, fun h _ => c h⟩
      · obtain ⟨a, b⟩ := init_caller t c hi q1 q2 q3
        exact ⟨fun h => ⟨(a h).1, Or.inr (Or.inr (a h).2)⟩, b⟩
    refine completed_induct h Q (fun s => clean s = true → Running s) ?_ ?_ (fun t e hi q h0 h1 => (key t e hi q h0).1 h1)
      (fun t e hi q h0 h1 => (key t e hi q h0).2 h1) hclean
    · simp [Sys.begin, h.1, hlay]
    · simp [Q, Sys.begin, h.1, hlay, (idle_again _ _ h.1 : ((Sys.fresh true).run pre).again = false)]

/-- the hypotheses are met: an initialisation, and a recovery after a fatal error frame -/
example : Completed true .init [] bringUp ∧ ((Sys.fresh true).run (.call .init :: bringUp)).reports = [] ∧
    (let pre := .call .init :: bringUp ++ [wk, .readFatal 0x40, .upd 0, .upd 0, .upd 0]
     let mid := go :: takeDown ++ bringUp
     ((Sys.fresh true).run pre).st.driver = .opened ∧ Completed true .recover pre mid ∧
     ((Sys.fresh true).run (pre ++ .call .recover :: mid)).reports.length = 0) := by
  refine ⟨⟨rfl, rfl, ?_⟩, rfl, rfl, ⟨rfl, rfl, ?_⟩, rfl⟩
  · intro k hk
    have : ∀ k : Fin 16, ((Sys.fresh true).run ([] ++ .call .init :: bringUp.take k)).pc ≠ .idle := by decide +kernel
    exact this ⟨k, hk⟩
  · intro k hk
    have : ∀ k : Fin 29, ((Sys.fresh true).run ((.call .init :: bringUp ++ [wk, .readFatal 0x40, .upd 0, .upd 0, .upd 0]) ++
      .call .recover :: (go :: takeDown ++ bringUp).take k)).pc ≠ .idle := by decide +kernel
    exact this ⟨k, hk⟩

/-- C85.  For every schedule and both owners of a driver thread: when `shutdown` returns, there is no thread, the socket is closed, no read is
outstanding and the driver is not ready; a CAN layer reports at most a warning. -/
theorem C85_shutdown (l : Bool) (pre mid : List Ev) (h : Completed l .shutdown pre mid) :
    let s := (Sys.fresh l).run (pre ++ .call .shutdown :: mid)
    s.thread = false ∧ s.worker = .none ∧ s.sock = false ∧ s.reading = false ∧ s.st.driver ≠ .ready ∧
    (l = true → ∀ r ∈ s.reports, IsError r = false) := by
  intro s
  have hlay : ∀ evs, ((Sys.fresh l).run evs).layer = l := fun evs => run_layer _ evs
  have hinv : Inv s := run_inv _ (fresh_inv l) _
  have hag := idle_again _ _ h.1
  have ht : s.thread = false := by
    have key : ∀ (t : Sys) (e : Ev), Inv t → (t.again = false ∧ t.pc.ending = true) → t.pc ≠ .idle →
        ((t.step e).pc ≠ .idle → ((t.step e).again = false ∧ (t.step e).pc.ending = true)) ∧ ((t.step e).pc = .idle → (t.step e).thread = false) :=
      fun t e hi q h0 => only_caller (Q := fun s => s.again = false ∧ s.pc.ending = true) (R := fun s => s.thread = false) t e h0
        (fun t' a b _ _ => ⟨b.trans q.1, by rw [a]; exact q.2⟩) (fun c _ => down_caller t c hi q.1 q.2)
    refine completed_induct h (fun s => s.again = false ∧ s.pc.ending = true) (fun s => s.thread = false) ?_ ?_
      (fun t e hi q h0 h1 => (key t e hi q h0).1 h1) (fun t e hi q h0 h1 => (key t e hi q h0).2 h1)
    · cases l <;> simp [Sys.begin, h.1, hlay]
    · cases l <;> simp [Sys.begin, h.1, hlay, hag, Pc.ending]
  have hs : s.sock = false := hinv.sck ht (by have : s.pc = .idle := h.2.1; simp [this, Pc.opening])
  refine ⟨ht, hinv.thr.1 ht, hs, ?_, ?_, ?_⟩
  · cases hr : s.reading with
    | false => rfl
    | true => have := hinv.rdg hr; rw [hs] at this; cases this
  · intro hr
    have := hinv.rdy hr
    rw [hinv.thr.1 ht] at this
    cases this
  · intro hl r hr
    subst hl
    have hc : clean s = true := by
      let Q : Sys → Prop := fun s => s.layer = true ∧ s.again = false ∧ s.pc.ending = true ∧ clean s = true
      have key : ∀ (t : Sys) (e : Ev), Inv t → Q t → t.pc ≠ .idle →
          ((t.step e).pc ≠ .idle → Q (t.step e)) ∧ ((t.step e).pc = .idle → clean (t.step e) = true) :=
        fun t e hi q h0 => only_caller (Q := Q) (R := fun s => clean s = true) t e h0
          (fun t' a b c d => ⟨d.trans q.1, b.trans q.2.1, by rw [a]; exact q.2.2.1, by unfold clean; rw [c]; exact q.2.2.2⟩)
          (fun c _ => shut_caller t c hi q.1 q.2.1 q.2.2.1 q.2.2.2)
      refine completed_induct h Q (fun s => clean s = true) ?_ ?_
        (fun t e hi q h0 h1 => (key t e hi q h0).1 h1) (fun t e hi q h0 h1 => (key t e hi q h0).2 h1)
      · simp [Sys.begin, h.1, hlay]
      · simp [Q, Sys.begin, h.1, hlay, hag, Pc.ending, clean]
    unfold clean at hc
    rw [List.all_eq_true] at hc
    simpa using hc r hr

example : Completed true .shutdown (.call .init :: bringUp) takeDown ∧
    Completed false .shutdown (.call .init :: times 8 go ++ times 6 wk ++ [go]) (times 2 go ++ times 6 wk ++ [go]) := by
  refine ⟨⟨rfl, rfl, fun k hk => ?_⟩, ⟨rfl, rfl, fun k hk => ?_⟩⟩
  · have : ∀ k : Fin 12, ((Sys.fresh true).run ((.call .init :: bringUp) ++ .call .shutdown :: takeDown.take k)).pc ≠ .idle := by decide +kernel
    exact this ⟨k, hk⟩
  · have : ∀ k : Fin 9, ((Sys.fresh false).run ((.call .init :: times 8 go ++ times 6 wk ++ [go]) ++
        .call .shutdown :: (times 2 go ++ times 6 wk ++ [go]).take k)).pc ≠ .idle := by decide +kernel
    exact this ⟨k, hk⟩

/-- C85.  In no schedule are there two threads that execute `run` of one driver, and the owner has a thread object exactly if there is one. -/
theorem C85_one_thread (l : Bool) (evs : List Ev) :
    let s := (Sys.fresh l).run evs
    s.double = false ∧ (s.thread = true ↔ s.worker ≠ .none) := by
  intro s
  have hinv : Inv s := run_inv _ (fresh_inv l) _
  refine ⟨hinv.one, ?_⟩
  have := hinv.thr
  cases ht : s.thread <;> simp_all

/-- two start-ups with a shutdown in between: each time one thread -/
example : ((Sys.fresh true).run (.call .init :: bringUp)).thread = true ∧
    ((Sys.fresh true).run (.call .init :: bringUp ++ .call .shutdown :: takeDown)).thread = false ∧
    ((Sys.fresh true).run (.call .init :: bringUp ++ .call .shutdown :: takeDown ++ .call .init :: bringUp)).thread = true := ⟨rfl, rfl, rfl⟩

/-- C85.  `init` of a `ThreadedInterface`: if it returns true, the event loop is executed by its thread and the socket is open. -/
theorem C85_threaded_init (pre mid : List Ev) (h : Completed false .init pre mid) :
    let s := (Sys.fresh false).run (pre ++ .call .init :: mid)
    (s.ret = some true ∨ s.ret = some false) ∧
    (s.ret = some true → s.thread = true ∧ s.sock = true ∧ s.stopped = false ∧ (s.worker = .trigger ∨ s.worker = .loop)) := by
  intro s
  have hlay : ∀ evs, ((Sys.fresh false).run evs).layer = false := fun evs => run_layer _ evs
  let Q : Sys → Prop := fun s => s.layer = false ∧ s.again = false ∧ s.pc.initing = true
  let R : Sys → Prop := fun s => (∃ b, s.ret = some b) ∧
    (s.ret = some true → s.thread = true ∧ s.sock = true ∧ s.stopped = false ∧ (s.worker = .trigger ∨ s.worker = .loop))
  have key : ∀ (t : Sys) (e : Ev), Inv t → Q t → t.pc ≠ .idle →
      ((t.step e).pc ≠ .idle → Q (t.step e)) ∧ ((t.step e).pc = .idle → R (t.step e)) :=
    fun t e hi q h0 => only_caller (Q := Q) (R := R) t e h0
      (fun t' a b _ d => ⟨d.trans q.1, b.trans q.2.1, by rw [a]; exact q.2.2⟩) (fun c _ => thr_caller t c hi q.1 q.2.1 q.2.2)
  have hR : R s := by
    refine completed_induct h Q R ?_ ?_ (fun t e hi q h0 h1 => (key t e hi q h0).1 h1) (fun t e hi q h0 h1 => (key t e hi q h0).2 h1)
    · simp [Sys.begin, h.1]
    · simp [Q, Sys.begin, h.1, hlay, idle_again _ _ h.1, Pc.initing]
  obtain ⟨⟨b, hb⟩, h2⟩ := hR
  exact ⟨by cases b <;> simp [hb], h2⟩

example : Completed false .init [] (times 8 go ++ times 6 wk ++ [go]) ∧
    ((Sys.fresh false).run (.call .init :: (times 8 go ++ times 6 wk ++ [go]))).ret = some true := by
  refine ⟨⟨rfl, rfl, fun k hk => ?_⟩, rfl⟩
  have : ∀ k : Fin 15, ((Sys.fresh false).run ([] ++ .call .init :: (times 8 go ++ times 6 wk ++ [go]).take k)).pc ≠ .idle := by decide +kernel
  exact this ⟨k, hk⟩

/-- C85, the code does not keep more: `init` of a `ThreadedInterface` may return true although the driver is not ready any more, since a
fatal error frame was read meanwhile. -/
theorem C85_threaded_ready_false :
    let s := (Sys.fresh false).run (.call .init :: times 8 go ++ times 6 wk ++ [.readFatal 0x40, .upd 0, .upd 0, go, .upd 0])
    s.pc = .idle ∧ s.ret = some true ∧ s.st.driver = .opened := ⟨rfl, rfl, rfl⟩

/-- C85.  From a driver that is down, with all system calls succeeding, nothing left over and no other thread interfering: whatever the
interleaving of the two threads, once the caller had the 8 steps up to its wait, then `run` 5 steps and then the caller 2 steps, `init` has
returned, reported nothing (returned true) and the driver is ready without error. -/
theorem C85_undisturbed_init (s : Sys) (hd : Down s) (a b c : List Ev) (he : ∀ e ∈ a ++ b ++ c, Undisturbed e)
    (ha : 8 ≤ a.countP isCaller) (hb : 5 ≤ b.countP isWorker) (hc : 2 ≤ c.countP isCaller) :
    let s' := s.run (.call .init :: (a ++ b ++ c))
    s'.pc = .idle ∧ s'.reports = [] ∧ s'.st = { driver := .ready, errorCode := 0, internalError := 0 } ∧ s'.thread = true ∧
    (s'.layer = false → s'.ret = some true) := by
  intro s'
  have h0 := coming_start s hd
  have e1 : s' = (((s.begin .init).run a).run b).run c := by
    show (s.begin .init).run (a ++ b ++ c) = _
    rw [run_append, run_append]
  have hea : ∀ e ∈ a, Undisturbed e := fun e h => he e (by simp [h])
  have heb : ∀ e ∈ b, Undisturbed e := fun e h => he e (by simp [h])
  have hec : ∀ e ∈ c, Undisturbed e := fun e h => he e (by simp [h])
  have ca := coming_run _ h0 a hea
  have cb := coming_run _ ca b heb
  have cc := coming_run _ cb c hec
  have p0 : (s.begin .init).pc = .init := by simp [Sys.begin, hd.1]
  have pa := coming_first _ h0 a hea
  rw [p0] at pa
  have pa0 : ((s.begin .init).run a).pc.before = 0 := by
    have : Pc.init.before = 8 := rfl
    omega
  obtain ⟨pb, wb⟩ := coming_second _ ca pa0 b heb
  have wb0 : (((s.begin .init).run a).run b).worker.before = 0 := by
    have : ((s.begin .init).run a).worker.before ≤ 5 := by cases ((s.begin .init).run a).worker <;> simp [Wk.before]
    omega
  obtain ⟨pc, qc⟩ := coming_third _ cb pb wb0 c hec
  have qc0 : ((((s.begin .init).run a).run b).run c).pc.after = 0 := by
    have : (((s.begin .init).run a).run b).pc.after ≤ 2 := by cases (((s.begin .init).run a).run b).pc <;> simp [Pc.after]
    omega
  rw [← e1] at cc pc qc0
  have hidle : s'.pc = .idle := by
    rcases cc.pcs with (h | ⟨h1, h2, h3⟩) | h | h | h
    · rw [h] at pc; simp [Pc.before] at pc
    · revert pc h1 h2 h3
      cases s'.pc <;> simp [Pc.starting, Pc.opening, Pc.before]
    · rw [h] at qc0; simp [Pc.after] at qc0
    · rw [h] at qc0; simp [Pc.after] at qc0
    · exact h
  exact ⟨hidle, cc.rep, (cc.fin (Or.inr hidle)).2.1, (cc.fin (Or.inr hidle)).1, cc.ret hidle⟩

example : Down (Sys.fresh true) ∧ (∀ e ∈ bringUp, Undisturbed e) ∧
    Down { (Sys.fresh true).run (.call .init :: bringUp ++ .call .shutdown :: takeDown) with aborted := 0 } := by
  refine ⟨by simp [Down, Sys.fresh, State.initial], ?_, rfl, rfl, rfl, rfl, rfl, rfl, rfl, rfl⟩
  intro e he
  simp [bringUp, times, go, wk] at he
  rcases he with rfl | rfl | rfl <;> simp [Undisturbed]

/-- C85.  In every schedule in which no initialisation times out and no thread that records an error has looked at the socket before and
writes after it is closed: when `shutdown` returns, the driver is recorded as closed, so that `init` can open it again.
Missing: the other schedules, see below. -/
theorem C85_restart_partial (l : Bool) (pre mid : List Ev) (h : Completed l .shutdown pre mid)
    (hq : Along NoInitTimeout (Sys.fresh l) (pre ++ .call .shutdown :: mid))
    (hc : Along QuietClose (Sys.fresh l) (pre ++ .call .shutdown :: mid)) :
    ((Sys.fresh l).run (pre ++ .call .shutdown :: mid)).st.driver = .closed := by
  have hk := run_knv _ (fresh_knv l) _ hq hc
  obtain ⟨_, h2, h3, _⟩ := C85_shutdown l pre mid h
  exact hk.cls h3 (Or.inl h2)

/-- a send fails and records its error while the driver is shut down -/
example : let pre := .call .init :: bringUp ++ [.sendTest, .sendWrite 100]
    let mid := times 3 go ++ [.upd 0, .upd 0, .upd 0, go] ++ times 6 wk ++ times 2 go
    Along NoInitTimeout (Sys.fresh true) (pre ++ .call .shutdown :: mid) ∧ Along QuietClose (Sys.fresh true) (pre ++ .call .shutdown :: mid) ∧
    Completed true .shutdown pre mid ∧ ((Sys.fresh true).run (pre ++ .call .shutdown :: mid)).st.errorCode = 0 ∧
    ((Sys.fresh true).run (pre ++ .call .shutdown :: mid.take 7)).st.errorCode = 100 := by
  refine ⟨?_, ?_, ⟨rfl, rfl, fun k hk => ?_⟩, rfl, rfl⟩
  · simp only [Along, times, bringUp, go, wk, List.replicate, List.cons_append, List.nil_append, NoInitTimeout]
    simp
  · refine along_of_check QuietClose (fun s e => !(isCaller e && s.pc = .close && s.upds.contains (.store true))) ?_ _ _ (by rfl)
    intro s e h c he hp
    subst he
    simpa [isCaller, hp] using h
  · have : ∀ k : Fin 15, ((Sys.fresh true).run ((.call .init :: bringUp ++ [.sendTest, .sendWrite 100]) ++
        .call .shutdown :: (times 3 go ++ [.upd 0, .upd 0, .upd 0, go] ++ times 6 wk ++ times 2 go).take k)).pc ≠ .idle := by decide +kernel
    exact this ⟨k, hk⟩

/-- C85, the code does not keep it: a send that fails while the driver is shut down may record `open` after everything was closed.  From then
on no sequence of calls and steps whatsoever makes the driver ready again. -/
theorem C85_stuck_false :
    let s := (Sys.fresh true).run (.call .init :: bringUp ++ [.sendTest, .sendWrite 100, .upd 0, .upd 0] ++ .call .shutdown :: takeDown ++ [.upd 0])
    s.pc = .idle ∧ s.reports = [] ∧ s.sock = false ∧ ∀ evs, (s.run evs).st.driver = .opened ∧ (s.run evs).thread = false := by
  intro s
  refine ⟨rfl, rfl, rfl, fun evs => ?_⟩
  have hd : Dead s := ⟨rfl, rfl, rfl, rfl, rfl, (by decide : Pc.idle ≠ Pc.wait), fun h => absurd h (by decide : ¬ Pc.idle.starting = true)⟩
  have := dead_run s hd evs
  exact ⟨this.2.2.1, this.1⟩

/-- C85.  In every schedule in which no initialisation times out, the end of `shutdown` does not hang: when it waits for the thread, and
whatever the other threads do, after 7 steps of `run` its next step ends the wait. -/
theorem C85_join_returns_partial (l : Bool) (evs evs' : List Ev) (c : Choice) (hq : Along NoInitTimeout (Sys.fresh l) evs)
    (hj : ((Sys.fresh l).run evs).pc = .join) (ho : ∀ e ∈ evs', Others e) (hn : 7 ≤ evs'.countP isWorker) :
    (((Sys.fresh l).run (evs ++ evs')).step (.caller c)).pc ≠ .join := by
  have hJ := run_jnv _ (fresh_jnv l) evs hq
  rw [run_append]
  generalize hs : (Sys.fresh l).run evs = s at *
  cases ht : s.thread with
  | false =>
    have hi := run_jnv _ (fresh_jnv l) evs hq
    rw [hs] at hi
    have key : ∀ (evs' : List Ev), (∀ e ∈ evs', Others e) → ∀ t : Sys, t.thread = false → t.pc = .join → Inv t →
        (t.run evs').thread = false ∧ (t.run evs').pc = .join := by
      intro evs'
      induction evs' with
      | nil => exact fun _ t h1 h2 _ => ⟨h1, h2⟩
      | cons e es ih =>
        intro ho t h1 h2 h3
        have he := ho e (by simp)
        have hp := (other_step t e (by cases e <;> first | rfl | exact he.elim) (fun c hc => by subst hc; exact he)).1
        refine ih (fun x hx => ho x (by simp [hx])) (t.step e) ?_ (hp.trans h2) (step_inv t h3 e)
        exact other_thread t e he h1 (h3.thr.1 h1)
    obtain ⟨k1, k2⟩ := key evs' ho s ht hj hi.toInv
    simp only [Sys.step, Sys.callerStep, k1, k2, Sys.leave]
    simp only [Bool.false_eq_true, if_false]
    split <;> simp
  | true =>
    have hst := (ending_run s ⟨ht, hj, hJ.halt ht (by rw [hj]; rfl), ?_⟩ evs' ho)
    · obtain ⟨⟨k1, k2, k3, k4⟩, k5⟩ := hst
      have hdone : (s.run evs').worker = .done := by
        have : s.worker.left ≤ 7 := by cases s.worker <;> simp [Wk.left]
        have h0 : (s.run evs').worker.left = 0 := by omega
        revert h0 k3
        cases (s.run evs').worker <;> simp [Wk.left, Wk.past]
      simp only [Sys.step, Sys.callerStep, k1, k2, Sys.leave, hdone]
      simp only [if_true]
      split <;> simp
    · exact hJ.stop (by rw [hj]; rfl) ht

example : let evs := .call .init :: bringUp ++ .call .shutdown :: (times 5 go ++ [late])
    Along NoInitTimeout (Sys.fresh true) evs ∧ ((Sys.fresh true).run evs).pc = .join ∧ ((Sys.fresh true).run evs).worker = .loop := by
  refine ⟨?_, rfl, rfl⟩
  refine along_of_check NoInitTimeout (fun s e => match e with | .caller c => !(s.pc = .wait && c.late && s.view ≠ .ready) | _ => true) ?_ _ _ (by rfl)
  intro s e h c he hp hl
  subst he
  simpa [hp, hl] using h

/-- C85, the code does not keep it after an initialisation that timed out: a shutdown that stops the event loop just before `run` resets it
is lost, and the shutdown waits forever, whatever happens. -/
theorem C85_hang_false :
    let s := (Sys.fresh true).run (.call .init :: times 8 go ++ times 3 wk ++ [late, go] ++ .call .shutdown :: (times 4 go ++ [late]))
    s.pc = .join ∧ ∀ evs, (s.run evs).pc = .join := by
  intro s
  refine ⟨rfl, fun evs => ?_⟩
  have hl : Lost s := ⟨rfl, rfl, Or.inl rfl⟩
  exact (lost_run s hl evs).2.1

/-- C85, the code does not keep it: the completion handler of the read that `shutdown` cancelled may still be in the queue.  It is executed
by the next `run`, which makes the driver leave ready, so that the next initialisation fails although bus and system calls work. -/
theorem C85_stale_abort_false :
    let s1 := (Sys.fresh true).run (.call .init :: bringUp ++ .call .shutdown :: takeDown)
    let s2 := s1.run (.call .init :: times 8 go ++ times 6 wk ++ [go, .readAborted 125, .upd 0, .upd 0, .upd 0, go])
    (s1.pc = .idle ∧ s1.st.driver = .closed ∧ s1.reports = []) ∧
    s2.pc = .idle ∧ s2.st.driver = .opened ∧ s2.st.errorCode = 125 ∧ s2.reports = [.error "CAN is not ready".toList] :=
  ⟨⟨rfl, rfl, rfl⟩, rfl, rfl, rfl, rfl⟩

/-- C85.  While a thread exists, `init` of the layer creates none, touches neither driver nor socket, warns, and fails if the driver is not
ready. -/
theorem C85_init_again (s : Sys) (hl : s.layer = true) (hi : s.pc = .idle) (ha : s.again = false) (ht : s.thread = true) (c1 c2 : Choice) :
    let s' := s.run [.call .init, .caller c1, .caller c2]
    s'.pc = .idle ∧ s'.st = s.st ∧ s'.sock = s.sock ∧ s'.worker = s.worker ∧ s'.thread = true ∧ s'.double = s.double ∧
    s'.reports = .warn "CAN thread already running".toList :: (if s.st.driver = .ready then [] else [.error "CAN is not ready".toList]) := by
  intro s'
  have e1 : s.run [.call .init] = { s with pc := .init, reports := [], ret := none } := by
    simp only [Sys.run, List.foldl, Sys.step, Sys.begin, hi]; simp
  have e2 : s.run [.call .init, .caller c1] =
      { s with pc := .check, reports := [.warn "CAN thread already running".toList], ret := none } := by
    show (s.run [.call .init]).step (.caller c1) = _
    rw [e1]; simp [Sys.step, Sys.callerStep, ht, hl]
  have e3 : s' = (s.run [.call .init, .caller c1]).step (.caller c2) := rfl
  rw [e3, e2]
  simp only [Sys.step, Sys.callerStep, hl, if_true, Sys.leave, ha]
  split <;> simp_all

example : let s := (Sys.fresh true).run (.call .init :: bringUp)
    s.layer = true ∧ s.pc = .idle ∧ s.again = false ∧ s.thread = true ∧ s.st.driver = .ready := ⟨rfl, rfl, rfl, rfl, rfl⟩

/-- C85.  If the driver refuses to be initialised, `init` of the layer says so, starts no thread and leaves the error code of the driver to be read; `init` of a
`ThreadedInterface` returns false. -/
theorem C85_init_refused (s : Sys) (hd : Down s) (e : Int) (c1 c2 c3 c4 : Choice) (hc : c2.sys = .fail e) :
    let s' := s.run [.call .init, .caller c1, .caller c2, .caller c3, .caller c4]
    s'.pc = .idle ∧ s'.st = { s.st with errorCode := e } ∧ s'.sock = s.sock ∧ s'.thread = false ∧ s'.worker = .none ∧
    s'.reports = (if s.layer then [.error "CAN init failed".toList, .error "CAN is not ready".toList] else []) ∧
    s'.ret = (if s.layer then none else some false) := by
  intro s'
  obtain ⟨hi, ha, ht, hw, hv, -⟩ := hd
  have e1 : s.run [.call .init, .caller c1] = { s with pc := .drvTest, reports := [], ret := none } := by
    simp [Sys.run, List.foldl, Sys.step, Sys.begin, hi, Sys.callerStep, ht]
  have e2 : s.run [.call .init, .caller c1, .caller c2] = { s with pc := .drvFail e, reports := [], ret := none } := by
    show (s.run [.call .init, .caller c1]).step (.caller c2) = _
    rw [e1]; simp [Sys.step, Sys.callerStep, hv, hc]
  have e3 : s' = ((s.run [.call .init, .caller c1, .caller c2]).step (.caller c3)).step (.caller c4) := rfl
  rw [e3, e2]
  have key : ∀ t : Sys, (t.setErr e).st = { t.st with errorCode := e } ∧ ∃ v, t.setErr e = { t with st := { t.st with errorCode := e }, view := v } := by
    intro t
    simp only [Sys.setErr, Sys.set, Sys.tell]
    by_cases hx : t.st = { t.st with errorCode := e }
    · rw [if_neg (by simpa using hx)]
      exact ⟨hx, t.view, by rw [← hx]⟩
    · rw [if_pos hx]
      split
      · exact ⟨rfl, _, rfl⟩
      · exact ⟨rfl, _, rfl⟩
  obtain ⟨-, v, hk⟩ := key { s with pc := .drvFail e, reports := [], ret := none }
  simp only [Sys.step, Sys.callerStep, hk]
  cases hl : s.layer <;> simp [Sys.leave, ha, hv, ht, hw]

example : Down (Sys.fresh true) ∧ Down (Sys.fresh false) := by simp [Down, Sys.fresh, State.initial]

/-- C85.  `read` and `write` of the layer report an error exactly if the layer is past its initialisation and the driver is not ready. -/
theorem C85_cycle (st : State) (cur : LayerState) :
    (cycleReports st cur ≠ [] ↔ st.driver ≠ .ready ∧ cur ≠ .off ∧ cur ≠ .init) ∧ ∀ r ∈ cycleReports st cur, IsError r = true := by
  unfold cycleReports
  constructor
  · cases cur <;> cases hd : st.driver <;> simp [LayerState.toNat]
  · intro r hr
    split at hr
    · simp at hr; subst hr; rfl
    · cases hr

example : cycleReports ⟨.opened, 0, 0x40⟩ .ready = [.error "CAN not ready".toList] ∧ cycleReports ⟨.opened, 0, 0x40⟩ .init = [] ∧
    cycleReports ⟨.ready, 0, 0⟩ .ready = [] := ⟨rfl, rfl, rfl⟩

/-- C85.  Diagnostics of the layer: an error exactly if the driver is not ready, then with the driver state; the code of a socket error; for an
internal error its number, its translation and the bytes of the last error frame in hexadecimal. -/
theorem C85_diag (s : State) (last : Frame) (hd : last.dlc.toNat ≤ 8) :
    ∃ rs vs, diag s last = .ok (rs, vs) ∧ (rs ≠ [] ↔ s.driver ≠ .ready) ∧ (∀ r ∈ rs, IsError r = true) ∧
      (∀ v, ("driver_state", v) ∈ vs ↔ s.driver ≠ .ready ∧ v = .num (driverNo s.driver)) ∧
      (∀ v, ("socket_error", v) ∈ vs ↔ s.errorCode ≠ 0 ∧ v = .num s.errorCode) ∧
      (∀ v, ("internal_error", v) ∈ vs ↔ s.internalError ≠ 0 ∧ v = .num s.internalError.toInt) ∧
      (∀ v, ("internal_error_desc", v) ∈ vs ↔ s.internalError ≠ 0 ∧ (translateError s.internalError []).1 = true ∧
        v = .text (translateError s.internalError []).2) ∧
      (∀ v, ("can_error_frame", v) ∈ vs ↔ s.internalError ≠ 0 ∧ v = .text (hexBytes (last.data.toList.take last.dlc.toNat))) := by
  unfold diag
  by_cases h1 : s.driver = .ready <;> by_cases h2 : s.errorCode = 0 <;> by_cases h3 : s.internalError = 0 <;>
    simp only [h1, h2, h3, hd, if_true, if_false, ne_eq, not_true, not_false_iff]
  all_goals refine ⟨_, _, rfl, ?_⟩
  all_goals simp [IsError]
  all_goals (try (cases ht : (translateError s.internalError []).1 <;> simp))

example : diag ⟨.opened, 0, 0x40⟩ { id := 0x40, isError := true, isRtr := false, isExtended := false, data := Vector.replicate 8 0x1f, dlc := 2 } =
    .ok ([.error "CAN layer not ready".toList], [("driver_state", .num 1), ("internal_error", .num 0x40),
      ("internal_error_desc", .text "bus off;".toList), ("can_error_frame", .text "1f 1f ".toList)]) := by rfl

/-- C85: the payload of the last error frame is not read beyond its end only as long as the driver never delivers more than 8 bytes. -/
theorem C85_diag_dlc (s : State) (last : Frame) (hi : s.internalError ≠ 0) (hd : 8 < last.dlc.toNat) : diag s last = .ub := by
  unfold diag
  rw [if_pos hi, if_neg (by omega)]

example : diag ⟨.opened, 0, 0x40⟩ { id := 0x40, isError := true, isRtr := false, isExtended := false, data := Vector.replicate 8 0x1f, dlc := 9 } =
    .ub := by rfl

/-- C85.  No call goes round in circles: in every schedule, while a call (also `recover`, which shuts down and initialises) has not returned, the calling thread makes at most 17
steps forward, and it makes no step forward only where it waits for the driver to become ready or closed, or for the end of the thread. -/
theorem C85_calls_end (l : Bool) (pre mid : List Ev) (h : ∀ k ≤ mid.length, ((Sys.fresh l).run (pre ++ mid.take k)).pc ≠ .idle) :
    moves ((Sys.fresh l).run pre) mid ≤ 17 ∧
    ∀ c, let s := (Sys.fresh l).run (pre ++ mid)
      (s.step (.caller c)).pc = s.pc → (s.pc = .wait ∧ s.view ≠ .ready ∧ c.late = false) ∨ (s.pc = .sWait ∧ s.view ≠ .closed ∧ c.late = false) ∨
        (s.pc = .join ∧ s.thread = true ∧ s.worker ≠ .done) := by
  have ha := run_again pre (Sys.fresh l) (by intro hx; cases hx)
  have happ : ∀ xs, (Sys.fresh l).run (pre ++ xs) = ((Sys.fresh l).run pre).run xs := fun xs => by simp [Sys.run]
  refine ⟨?_, ?_⟩
  · have := moves_rank mid _ ha (fun k hk => by rw [← happ]; exact h k hk)
    have := rank_le ((Sys.fresh l).run pre).pc
    omega
  · intro c s hs
    have hne : s.pc ≠ .idle := by have := h mid.length (Nat.le_refl _); rwa [List.take_length] at this
    have hag : AgainOk s := run_again _ _ (by intro hx; cases hx)
    have hs : (s.callerStep c).pc = s.pc := hs
    rcases (caller_rank s c hag hne).2.2 hs with hp | hp | hp <;> unfold Sys.callerStep at hs <;> rw [hp] at hs <;> dsimp only at hs
    · refine .inl ⟨hp, ?_⟩
      by_cases hv : s.view = .ready
      · rw [if_pos hv] at hs
        split at hs
        · cases hs
        · unfold Sys.leave at hs; split at hs <;> cases hs
      · rw [if_neg hv] at hs
        refine ⟨hv, ?_⟩
        cases hl : c.late
        · rfl
        · rw [hl, if_pos rfl] at hs
          split at hs
          · cases hs
          · unfold Sys.leave at hs; split at hs <;> cases hs
    · refine .inr (.inl ⟨hp, ?_⟩)
      by_cases hv : s.view = .closed
      · rw [if_pos hv] at hs; cases hs
      · rw [if_neg hv] at hs
        refine ⟨hv, ?_⟩
        cases hl : c.late
        · rfl
        · rw [hl, if_pos rfl] at hs; cases hs
    · refine .inr (.inr ⟨hp, ?_⟩)
      cases ht : s.thread
      · rw [ht] at hs; simp only [Bool.false_eq_true, if_false] at hs
        unfold Sys.leave at hs; split at hs <;> cases hs
      · rw [ht, if_pos rfl] at hs
        refine ⟨rfl, fun hd => ?_⟩
        rw [if_pos hd] at hs
        unfold Sys.leave at hs; split at hs <;> cases hs

example : let pre := Ev.call .init :: bringUp ++ [.readFatal 0x40, .upd 0, .upd 0, .upd 0, .call .recover]
    ((Sys.fresh true).run pre).pc = .recover ∧ moves ((Sys.fresh true).run pre) (go :: takeDown ++ times 8 go ++ times 5 wk ++ [go]) = 16 ∧
    ((Sys.fresh true).run (pre ++ (go :: takeDown ++ times 8 go ++ times 5 wk ++ [go]))).pc = .check := ⟨rfl, rfl, rfl⟩

end Verif.Props
