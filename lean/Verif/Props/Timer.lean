import Verif.Lemmas.Timer
import Verif.Props.Driver

/-!
# Properties of the timer and the heartbeat producer: C86
-/

set_option linter.unusedVariables false

namespace Verif.Props
open Verif Verif.Tim Verif.Spec

/-- C86.  No drift: while every heartbeat is sent successfully and nobody touches the timer, however late the handlers run, the `k`-th call
(from 1) after a restart at time `t` is not made before `t + k * period`, and the next one is always scheduled for exactly
`t + (calls so far + 1) * period`. -/
theorem C86_no_drift (t : Timer) (hs : Silent t) (hd : t.delegate = true) (evs : List Tim.Ev) (he : ∀ e ∈ evs, Steady e = true) :
    let t' := t.restart.run evs
    (∀ k, (h : t.calls.length + k < t'.calls.length) → t.now + (k + 1 : Nat) * t.period ≤ (t'.calls[t.calls.length + k]).1) ∧
    t'.expiry = t.now + (t'.calls.length - t.calls.length + 1 : Nat) * t.period ∧ (t'.waiting = true ∨ t'.queued = 1) := by
  intro t'
  obtain ⟨_, _, _, h4, h5, h6⟩ := beat_run _ _ _ evs he _ (beat_start t hs hd)
  exact ⟨fun k hk => (h6 k hk).1, h4, by rcases h5 with h | h <;> simp [t', h]⟩

/-- C86.  The same for a timer which was not started by `restart` but by `start` with any period, now or later: as long as nothing was started, there are no
calls, and from the start on they come in the period given. -/
theorem C86_start (t : Timer) (hs : Silent t) (period : Int) (before evs : List Tim.Ev) (hb : ∀ e ∈ before, LeftAlone e = true ∨ e = .stop)
    (he : ∀ e ∈ evs, Steady e = true) :
    (let t' := (t.start period true).run evs
     (∀ k, (h : t.calls.length + k < t'.calls.length) → t.now + (k + 1 : Nat) * period ≤ (t'.calls[t.calls.length + k]).1) ∧
     t'.expiry = t.now + (t'.calls.length - t.calls.length + 1 : Nat) * period ∧ (t'.waiting = true ∨ t'.queued = 1)) ∧
    (let u := (t.start period false).run before
     u.calls = t.calls ∧
     let t' := u.restart.run evs
     (∀ k, (h : t.calls.length + k < t'.calls.length) → u.now + (k + 1 : Nat) * period ≤ (t'.calls[t.calls.length + k]).1) ∧
     t'.expiry = u.now + (t'.calls.length - t.calls.length + 1 : Nat) * period ∧ (t'.waiting = true ∨ t'.queued = 1)) := by
  have hs0 : Silent (t.start period false) := hs
  obtain ⟨q1, q2⟩ := silent_run _ hs0 before hb
  have q3 : ((t.start period false).run before).delegate = true ∧ ((t.start period false).run before).period = period := by
    have key : ∀ (es : List Tim.Ev) (u : Timer), Silent u → (∀ e ∈ es, LeftAlone e = true ∨ e = .stop) → u.delegate = true → u.period = period →
        (u.run es).delegate = true ∧ (u.run es).period = period := by
      intro es
      induction es with
      | nil => intro u _ _ h1 h2; exact ⟨h1, h2⟩
      | cons e es ih =>
        intro u hu hl h1 h2
        have hu' := (silent_run u hu [e] (fun x hx => hl x (by simp only [List.mem_cons, List.not_mem_nil, or_false] at hx; simp [hx]))).1
        refine ih (u.step e) hu' (fun x hx => hl x (List.mem_cons_of_mem _ hx)) ?_ ?_
        · rcases hl e (by simp) with h | rfl
          · cases e <;> simp_all [Timer.step, Timer.expire, Timer.handle, Silent, LeftAlone]
          · exact h1
        · rcases hl e (by simp) with h | rfl
          · cases e <;> simp_all [Timer.step, Timer.expire, Timer.handle, Silent, LeftAlone]
          · exact h2
    exact key before _ hs0 hb rfl rfl
  refine ⟨C86_no_drift { t with delegate := true, period := period } hs rfl evs he, q2, ?_⟩
  have h := C86_no_drift _ q1 q3.1 evs he
  rw [q2, q3.2] at h
  exact h

example : Silent (Timer.fresh 0 7) ∧ (((Timer.fresh 0 7).start 10 true).run [.pass 10, .expire, .handle true]).calls = [(10, true)] ∧
    (((((Timer.fresh 0 7).start 10 false).run [.pass 5, .expire, .stop]).restart).run [.pass 10, .expire, .handle true]).calls = [(15, true)] :=
  ⟨⟨rfl, rfl⟩, rfl, rfl⟩

/-- C86.  Under the same conditions, with a positive period: whenever the event loop has caught up, exactly as many heartbeats were sent
since the restart as periods have passed. -/
theorem C86_rate (t : Timer) (hs : Silent t) (hd : t.delegate = true) (hp : 0 < t.period) (evs : List Tim.Ev)
    (he : ∀ e ∈ evs, Steady e = true) (hq : Settled' (t.restart.run evs)) :
    let t' := t.restart.run evs
    ((t'.calls.length - t.calls.length : Nat) : Int) = (t'.now - t.now) / t.period := by
  intro t'
  have hb : Beat t.now t.period t.calls.length t' := beat_run _ _ _ evs he _ (beat_start t hs hd)
  obtain ⟨_, _, h3, h4, h5, h6⟩ := hb
  obtain ⟨q1, q2⟩ := hq
  have hw : t'.waiting = true := by
    rcases h5 with h | h
    · exact h.1
    · have : t'.queued = 0 := q1
      omega
  have hlt : t'.now < t'.expiry := q2 hw
  generalize hn : t'.calls.length - t.calls.length = n at *
  have hle : t.now + n * t.period ≤ t'.now := by
    cases n with
    | zero =>
      have := now_mono t.restart evs
      have e0 : t.restart.now = t.now := rfl
      have e1 : t.restart.run evs = t' := rfl
      rw [e0, e1] at this
      simpa using this
    | succ m =>
      have hk : t.calls.length + m < t'.calls.length := by omega
      obtain ⟨a, b⟩ := h6 m hk
      exact Int.le_trans a b
  rw [h4] at hlt
  symm
  rw [Int.ediv_eq_iff_of_pos hp]
  push_cast at hlt
  rw [Int.add_mul, Int.one_mul] at hlt
  omega

/-- a timer of period 10, started at time 5: two heartbeats late at 31, the third in time -/
example : let t := { Timer.fresh 5 0 with delegate := true, period := 10 }
    let evs := [.pass 26, .expire, .handle true, .expire, .handle true, .pass 4, .expire, .handle true, .pass 3]
    Silent t ∧ (∀ e ∈ evs, Steady e = true) ∧ Settled' (t.restart.run evs) ∧
    (t.restart.run evs).calls = [(31, true), (31, true), (35, true)] ∧ (t.restart.run evs).now = 38 := by
  refine ⟨⟨rfl, rfl⟩, by decide, ⟨rfl, fun _ => by decide⟩, rfl, rfl⟩

/-- C86.  A failing heartbeat is the last one: if the delegate returns false and no other handler is queued, there are no further calls until
the timer is started again. -/
theorem C86_failure_is_final (t : Timer) (hd : t.delegate = true) (hq : t.queued = 1) (hw : t.waiting = false) (evs : List Tim.Ev)
    (he : ∀ e ∈ evs, LeftAlone e = true ∨ e = .stop) :
    ((t.handle false).run evs).calls = t.calls ++ [(t.now, false)] := by
  have e1 : t.handle false = { t with queued := 0, calls := t.calls ++ [(t.now, false)] } := by
    simp [Timer.handle, hq, hd]
  rw [(silent_run _ (by rw [e1]; exact ⟨hw, rfl⟩) evs he).2, e1]

/-- the heartbeat fails once, at time 20, and stays silent afterwards, although the bus may be back -/
example : let t := ({ Timer.fresh 0 0 with delegate := true, period := 10 }).restart.run [.pass 10, .expire, .handle true, .pass 10, .expire]
    t.delegate = true ∧ t.queued = 1 ∧ t.waiting = false ∧
    ((t.handle false).run [.pass 100, .expire, .handle true]).calls = [(10, true), (20, false)] := ⟨rfl, rfl, rfl, rfl⟩

/-- C86.  The heartbeat producer asks to be called again exactly if the frame was written: a driver that is not ready, or one write error,
ends the heartbeat. -/
theorem C86_heartbeat_result (d : Drv.Driver) (f : Frame) (ec : Int) (h8 : f.dlc.toNat ≤ 8) :
    ∃ r d', heartbeat d f ec = .ok (r, d') ∧ (r = true ↔ d.state.driver = .ready ∧ ec = 0) ∧
      (r = true → ∃ k, Drv.toKernel (ε := Empty) f = .ok k ∧ d'.wire = d.wire ++ [k]) ∧ (r = false → d'.wire = d.wire) := by
  obtain ⟨r, d', h1, h2, h3, h4⟩ := C14_send d f ec h8
  refine ⟨r, d', h1, ?_, ?_, ?_⟩
  · by_cases hr : d.state.driver = .ready
    · by_cases he : ec = 0
      · simp [hr, he, (h3 hr he).1]
      · simp [hr, he, (h4 hr he).1]
    · simp [hr, (h2 hr).1]
  · intro ht
    by_cases hr : d.state.driver = .ready
    · by_cases he : ec = 0
      · exact (h3 hr he).2.2.2
      · have := (h4 hr he).1; rw [ht] at this; cases this
    · have := (h2 hr).1; rw [ht] at this; cases this
  · intro hf
    by_cases hr : d.state.driver = .ready
    · by_cases he : ec = 0
      · have := (h3 hr he).1; rw [hf] at this; cases this
      · exact (h4 hr he).2.1
    · rw [(h2 hr).2]

example : (∃ d', heartbeat { Drv.Driver.initial (Vector.replicate 8 0) with state := ⟨.ready, 0, 0⟩ } default 0 = .ok (true, d')) ∧
    (∃ d', heartbeat (Drv.Driver.initial (Vector.replicate 8 0)) default 0 = .ok (false, d')) := ⟨⟨_, rfl⟩, ⟨_, rfl⟩⟩

/-- C86.  `stop` with no handler in the queue: no further calls until the timer is started again.
Missing: a handler that is already queued, see below. -/
theorem C86_stop_partial (t : Timer) (hq : t.queued = 0) (evs : List Tim.Ev) (he : ∀ e ∈ evs, LeftAlone e = true ∨ e = .stop) :
    (t.stop.run evs).calls = t.calls :=
  (silent_run t.stop ⟨rfl, hq⟩ evs he).2

example : let t := ({ Timer.fresh 0 0 with delegate := true, period := 10 }).restart
    t.queued = 0 ∧ (t.stop.run [.pass 10, .expire, .handle true]).calls = [] ∧
    (t.run [.pass 10, .expire, .handle true]).calls = [(10, true)] := ⟨rfl, rfl, rfl⟩

/-- C86, the code does not keep it: a handler that is already queued is executed after `stop` returned, and re-arms the timer: the heartbeat
goes on forever (here: with any number of further rounds). -/
theorem C86_stop_false :
    let t := (({ Timer.fresh 0 0 with delegate := true, period := 10 }).restart.run [.pass 10, .expire]).stop
    ∀ n : Nat, (t.run ([.handle true] ++ (List.replicate n [Tim.Ev.pass 10, .expire, .handle true]).flatten)).calls.length = n + 1 := by
  intro t n
  have key : ∀ (n : Nat) (u : Timer), u.delegate = true → u.waiting = true → u.queued = 0 → u.expiry ≤ u.now + 10 → u.period = 10 →
      (u.run (List.replicate n [Tim.Ev.pass 10, .expire, .handle true]).flatten).calls.length = u.calls.length + n := by
    intro n
    induction n with
    | zero => intro u _ _ _ _ _; rfl
    | succ m ih =>
      intro u h1 h2 h3 h4 h5
      have e1 : u.run [Tim.Ev.pass 10, .expire, .handle true] =
          { u with now := u.now + 10, expiry := u.expiry + 10, calls := u.calls ++ [(u.now + 10, true)] } := by
        have e3 : (u.step (.pass 10)).expire = { u with now := u.now + 10, waiting := false, queued := 1 } := by
          have : (u.step (.pass 10)).waiting = true ∧ (u.step (.pass 10)).expiry ≤ (u.step (.pass 10)).now := ⟨h2, h4⟩
          unfold Timer.expire
          rw [if_pos this]
          show ({ u with now := u.now + 10, waiting := false, queued := u.queued + 1 } : Timer) = _
          rw [h3]
        show (u.step (.pass 10)).expire.handle true = _
        rw [e3]
        simp [Timer.handle, h1, h3, h2, h5]
      have e2 : u.run (List.replicate (m + 1) [Tim.Ev.pass 10, .expire, .handle true]).flatten =
          (u.run [Tim.Ev.pass 10, .expire, .handle true]).run (List.replicate m [Tim.Ev.pass 10, .expire, .handle true]).flatten := by
        rw [List.replicate_succ, List.flatten_cons]
        unfold Timer.run
        rw [List.foldl_append]
      rw [e2, e1, ih]
      · simp; omega
      · exact h1
      · exact h2
      · exact h3
      · show u.expiry + 10 ≤ u.now + 10 + 10; omega
      · exact h5
  have e0 : t.run ([.handle true] ++ (List.replicate n [Tim.Ev.pass 10, .expire, .handle true]).flatten) =
      (t.run [.handle true]).run (List.replicate n [Tim.Ev.pass 10, .expire, .handle true]).flatten := by
    unfold Timer.run; rw [List.foldl_append]
  rw [e0, key n _ rfl rfl rfl (by decide) rfl]
  show 1 + n = n + 1
  omega

/-- C86.  In every history the calls never outnumber the starts of the timer plus the calls that asked for more: each start, and each call
that returned true, leads to at most one further call. -/
theorem C86_calls_bounded (t : Timer) (hs : Silent t) (evs : List Tim.Ev) :
    ∃ new, (t.run evs).calls = t.calls ++ new ∧ new.length ≤ evs.countP Starts + new.countP (fun c => c.2) := by
  obtain ⟨new, h1, h2⟩ := pot_run t evs
  refine ⟨new, h1, ?_⟩
  have : t.pot = 0 := by simp [Timer.pot, hs.1, hs.2]
  omega

example : Silent (Timer.fresh 0 7) ∧
    ((Timer.fresh 0 7).run [.start 10 true, .pass 10, .expire, .restart, .handle true, .pass 30, .expire, .handle false]).calls =
      [(10, true), (40, false)] := ⟨⟨rfl, rfl⟩, rfl⟩

end Verif.Props
