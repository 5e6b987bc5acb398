import Verif.Lemmas.Locks

/-!
# C102: calls of the library do not block each other for ever

Threads: any number, each makes any sequence of calls with any of their traces; a joined thread makes the calls such threads make (the loop of the driver, the control
loop).  Schedules: any.  The calls left out (`Verif.Lk.listen`, `nodeInit`, `externalInit`, `bcmInit`, `bcmShutdown`, `bcmRecover`, a responder on the simulated bus) are those
for which the claim is false: see `C102_reinit_false`, `C102_bcm_false`, `C102_responder_false`.
-/

namespace Verif.Props
open Verif Verif.Lk Verif.Spec.Lk

/-- the threads of the first example: the driver's (joined by number 0) dispatches a heartbeat, the control loop (joined by number 1) runs a cycle, a third shuts down the chain -/
private def someThreads : List Prog :=
  [⟨some 0, [[.acq ⟨.frames, 0⟩, .acq ⟨.cond, 5⟩, .rel ⟨.cond, 5⟩, .rel ⟨.frames, 0⟩]]⟩,
   ⟨some 1, [[.acq ⟨.status, 0⟩, .rel ⟨.status, 0⟩]]⟩,
   ⟨none, [[.acq ⟨.chain, 0⟩, .acq ⟨.diag, 0⟩, .acq ⟨.timer, 0⟩, .rel ⟨.timer, 0⟩, .acq ⟨.life, 1⟩, .rel ⟨.life, 1⟩, .rel ⟨.diag, 0⟩, .rel ⟨.chain, 0⟩]]⟩]

private theorem someThreads_legal : ∀ p ∈ someThreads, p.Legal := by
  intro p hp
  simp only [someThreads, List.mem_cons, List.not_mem_nil, or_false] at hp
  rcases hp with rfl | rfl | rfl <;> intro t ht <;> simp only [List.mem_cons, List.not_mem_nil, or_false] at ht <;> subst ht
  · exact ⟨.dispatch 0, fun _ => rfl, tr_follow _ [1, 1, 1, 1, 0, 5]⟩
  · exact ⟨.chainCycle 0, fun _ => rfl, tr_follow _ [1, 1, 1, 1, 1, 1, 1, 1, 0]⟩
  · exact ⟨.chainShutdown 0 0, fun h => absurd rfl h, tr_follow _ [1, 0, 0, 1, 1]⟩

/-- C102: no schedule leads to a state in which nobody can go on although some call has not returned. -/
theorem C102_no_deadlock_partial (ps : List Prog) (h : ∀ p ∈ ps, p.Legal) (sched : List Nat) : ¬ Deadlock (run (ps.map Prog.start) sched) := by
  rintro ⟨hf, hb⟩
  obtain ⟨i, t, hi, hc⟩ := progress (orderly_run (legal_orderly h) sched) hf
  exact hb t (List.mem_of_getElem? hi) hc

example : (∀ p ∈ someThreads, p.Legal) ∧ ¬ Deadlock (run (someThreads.map Prog.start) [2, 2, 0, 2, 2, 2, 1]) :=
  ⟨someThreads_legal, C102_no_deadlock_partial _ someThreads_legal _⟩

/-- C102: whatever has happened, all calls can still return. -/
theorem C102_can_return_partial (ps : List Prog) (h : ∀ p ∈ ps, p.Legal) (sched : List Nat) : ∃ more, Finished (run (ps.map Prog.start) (sched ++ more)) := by
  obtain ⟨more, hm⟩ := can_finish _ _ (Nat.le_refl _) (orderly_run (legal_orderly h) sched)
  exact ⟨more, by rw [run_append]; exact hm⟩

example : ∃ more, Finished (run (someThreads.map Prog.start) ([2, 2, 0] ++ more)) := C102_can_return_partial _ someThreads_legal _

/-- C102: if every thread gets the processor again and again then all calls return. -/
theorem C102_return_partial (ps : List Prog) (h : ∀ p ∈ ps, p.Legal) (f : Nat → Nat) (hf : Fair ps.length f) : ∃ k, Finished (run (ps.map Prog.start) (upTo f k)) :=
  fair_finishes (legal_orderly h) f (by simpa using hf)

example : ∃ k, Finished (run (someThreads.map Prog.start) (upTo (fun j => j % 3) k)) :=
  C102_return_partial _ someThreads_legal _ (fun i hi k => ⟨3 * k + i, by omega, by have : i < 3 := hi; show (3 * k + i) % 3 = i; omega⟩)

private theorem blocked_of_deadlock {s : List Thread} (h : Deadlock s) (is : List Nat) (hne : is ≠ []) (hi : ∀ i ∈ is, ∃ t, s[i]? = some t ∧ t.todo ≠ []) : BlockedForEver s is :=
  ⟨hne, fun sched i hii => by rw [deadlock_run h]; exact hi i hii⟩

instance (s : List Thread) : Decidable (Finished s) := by unfold Finished; infer_instance
instance (s : List Thread) : Decidable (Deadlock s) := by unfold Deadlock; infer_instance

/-- C102 fails when a node is initialised: `init` registers the reader of its SDO client a second time, holding the mutex of the reader; a frame for the SDO client that is
dispatched just then waits for that mutex, holding the one that the registration needs.  Both threads stay there. -/
theorem C102_reinit_false : ∃ t u sched, Tr (nodeInit 0 1) t ∧ Tr (dispatch 0) u ∧ BlockedForEver (run [⟨[], t⟩, ⟨[], u⟩] sched) [0, 1] := by
  refine ⟨_, _, List.replicate 19 0 ++ [1], tr_follow _ [0, 0, 0, 0, 0, 0, 0, 0, 1, 0, 0, 0, 0, 1, 0, 1], tr_follow _ [1, 1, 0, 1], ?_⟩
  exact blocked_of_deadlock (by decide +kernel) _ (by decide) (by decide +kernel)

/-- C102 fails when a `BCMsync` layer is shut down while a frame is dispatched to it. -/
theorem C102_bcm_false : ∃ t u sched, Tr (bcmShutdown 0 0) t ∧ Tr (dispatch 0) u ∧ BlockedForEver (run [⟨[], t⟩, ⟨[], u⟩] sched) [0, 1] := by
  refine ⟨_, _, [0, 1], tr_follow _ [1], tr_follow _ [1, 1, 1, 1, 1, 1], ?_⟩
  exact blocked_of_deadlock (by decide +kernel) _ (by decide) (by decide +kernel)

/-- C102 fails on the simulated bus: a responder that answers while somebody sends another frame. -/
theorem C102_responder_false : ∃ t u sched, Tr (dummyRun 0 (responder 0 0)) t ∧ Tr (dummySend 0 1) u ∧ BlockedForEver (run [⟨[], t⟩, ⟨[], u⟩] sched) [0, 1] := by
  refine ⟨_, _, [0, 0, 0, 0, 0, 0, 0, 1], tr_follow _ [1, 0, 1, 1, 1, 0, 1, 1], tr_follow _ [0, 1, 0], ?_⟩
  exact blocked_of_deadlock (by decide +kernel) _ (by decide) (by decide +kernel)

private theorem stays {s : List Thread} (h : ∀ i, i ≠ 0 → step s i = s) : ∀ more : List Nat, 0 ∉ more → run s more = s
  | [], _ => rfl
  | i :: is, hm => by
    show run (step s i) is = s
    rw [h i (fun e => hm (by simp [e]))]
    exact stays h is (fun hi => hm (by simp [hi]))

/-- C102: the dispatcher and a transfer can wait for each other until the transfer times out.  Thread 0 reads or writes the heartbeat object of a node over SDO and waits for the
answer; thread 1 dispatches a heartbeat of this node and then would dispatch the answer `v`.  It does not come to that before thread 0 stops waiting. -/
theorem C102_answer_false : ∃ t u v sched, Tr (dataAccess 0 1) t ∧ Tr (dispatch 0) u ∧ Tr (dispatch 0) v ∧ (∃ l, Act.acq ⟨.reader, 1⟩ :: l <:+: v) ∧
    ((run [⟨[], t⟩, ⟨[], u ++ v⟩] sched)[0]?.bind fun a => a.todo.head?) = some .wait ∧
    ∀ more, 0 ∉ more → ∃ a pre, (run [⟨[], t⟩, ⟨[], u ++ v⟩] (sched ++ more))[1]? = some a ∧ pre ≠ [] ∧ a.todo = pre ++ v := by
  refine ⟨_, _, _, List.replicate 8 0 ++ [1, 1], tr_follow _ [1, 1, 1, 1, 0, 1, 1], tr_follow _ [1, 1, 1, 1, 0, 1, 1], tr_follow _ [1, 1, 0, 1], ⟨[.rel ⟨.reader, 1⟩], ?_⟩, ?_, ?_⟩
  · decide +kernel
  · decide +kernel
  · intro more hm
    rw [run_append, stays (fun i hi => ?_) more hm]
    · exact ⟨_, [.acq ⟨.data, 1⟩, .rel ⟨.data, 1⟩, .rel ⟨.cond, 1⟩, .rel ⟨.frames, 0⟩], rfl, by decide, by decide +kernel⟩
    · rcases i with _ | _ | i
      · exact absurd rfl hi
      · decide +kernel
      · rfl

end Verif.Props
