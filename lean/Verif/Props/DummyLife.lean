import Verif.Lemmas.DummyShut
import Verif.Lemmas.DummyTable

/-!
# C116: the virtual driver and its thread.  C117: virtual buses and their names
-/

namespace Verif.Props
open Verif Verif.DumL Verif.Spec.DumL
open Verif.Drv (DriverState)

/-! ## C116 -/

/-- C116: whatever happens, a state listener has been told the current state last, and it is told a state again only if this is "ready". -/
theorem C116_told (es : List Ev) :
    (DL.fresh.run es).told.getLast?.getD .closed = (DL.fresh.run es).state ∧ ∀ a x b, (DL.fresh.run es).told = a ++ x :: x :: b → x = .ready :=
  ⟨(told_run es told_fresh).last, (told_run es told_fresh).again⟩

private def fr (n : Byte) : Frame := { id := 0x123, isError := false, isRtr := false, isExtended := false, data := #v[n, 0, 0, 0, 0, 0, 0, 0], dlc := 1 }

private def upD : List Ev := [.init true false, .begin, .waited false]
private def downD : List Ev := [.shutdown, .poll, .close, .drop, .interrupt, .wake, .join]

example : (DL.fresh.run (upD ++ downD)).told = [.opened, .ready, .closed] := by decide +kernel

/-- C116, that listeners are told changes only, is false: "ready" is told whenever the thread has looked for frames. -/
theorem C116_told_again_false : ¬ ∀ es a x b, (DL.fresh.run es).told ≠ a ++ x :: x :: b := by
  intro h
  exact h (upD ++ [.wake]) [.opened] .ready [] (by decide +kernel)

/-- C116: an initialisation that returns true leaves the driver ready and connected. -/
theorem C116_init (es : List Ev) (e : Ev) (h : ((DL.fresh.run es).step e).results = (DL.fresh.run es).results ++ [.init true]) :
    ((DL.fresh.run es).step e).state = .ready ∧ ((DL.fresh.run es).step e).bus = true := by
  have hs := ses_run es ses_fresh
  generalize DL.fresh.run es = s at *
  have h1 := hs.up
  have h3 := hs.wait
  cases e <;> simp only [DL.step, DL.init, DL.setDriverState, DL.send, DL.enqueue, DL.top, DL.wake] at h ⊢ <;> (repeat' split at h) <;> simp_all

example : (DL.fresh.run upD).results = [.init true] := by decide +kernel

/-- C116: while the driver has a thread, another initialisation changes nothing and tells whether the driver is ready. -/
theorem C116_init_again (s : DL) (known loopback : Bool) (ht : s.thread ≠ .none) (hu : s.user = .idle) :
    s.step (.init known loopback) = { s with results := s.results ++ [.init (s.state = .ready)] } := by
  simp [DL.step, DL.init, ht, hu]

example : ((DL.fresh.run upD).step (.init true true)).results = [.init true, .init true] := by decide +kernel

/-- C116: when a shutdown of a driver that is ready and connected has returned, the driver is closed, not connected and has no thread, and all frames that had
arrived before were handed to the listeners, in their order; nobody is called any more until the next initialisation.
Missing: a driver whose thread had not started yet when it was shut down, see below. -/
theorem C116_shutdown_partial (es fs gs : List Ev) (hready : (DL.fresh.run es).state = .ready) (hbus : (DL.fresh.run es).bus = true) (hidle : (DL.fresh.run es).user = .idle)
    (hf : ∀ e ∈ fs ++ gs, ¬ IsInit e) (hr : (DL.fresh.run es).results ++ [.shutdown] <+: (DL.fresh.run (es ++ .shutdown :: fs)).results) :
    let s := DL.fresh.run (es ++ .shutdown :: fs ++ gs)
    s.state = .closed ∧ s.bus = false ∧ s.thread = .none ∧ (DL.fresh.run es).delivered ++ (DL.fresh.run es).queue <+: s.delivered ∧
    s.delivered = (DL.fresh.run (es ++ .shutdown :: fs)).delivered := by
  intro s
  have hs := ses_run es ses_fresh
  rw [run_append] at hr
  have hth : (DL.fresh.run es).thread = .waiting := by
    have h1 := hs.down hbus (.inl hidle)
    have h2 := hs.created
    have h3 := hs.ended
    cases ht : (DL.fresh.run es).thread <;> simp_all
  have h0 : SAt (DL.fresh.run es).results ((DL.fresh.run es).delivered ++ (DL.fresh.run es).queue) 0 ((DL.fresh.run es).step .shutdown) := by
    simp [SAt, DL.step, hidle, hready, hth]
  obtain ⟨k, hk, -⟩ := sat_run fs _ 0 (fun e he => hf e (List.mem_append_left _ he)) (ses_step hs .shutdown) h0
  obtain ⟨-, h2, h3, h4, h5, h6⟩ := sat_done hk hr
  obtain ⟨g1, g2, g3, g4⟩ := off_run gs _ (fun e he => hf e (List.mem_append_right _ he)) h2 h3 h4 h6
  have he : s = (((DL.fresh.run es).step .shutdown).run fs).run gs := by
    show DL.fresh.run (es ++ .shutdown :: fs ++ gs) = _
    rw [run_append, run_append]; rfl
  have he' : DL.fresh.run (es ++ .shutdown :: fs) = ((DL.fresh.run es).step .shutdown).run fs := by rw [run_append]; rfl
  rw [he, he']
  exact ⟨g1, g2, g3, by rw [g4]; exact h5, g4⟩

example : (DL.fresh.run (upD ++ [.arrive (fr 1)])).state = .ready ∧ (DL.fresh.run (upD ++ [.arrive (fr 1)])).bus = true ∧ (DL.fresh.run (upD ++ [.arrive (fr 1)])).queue = [fr 1] ∧
    (DL.fresh.run (upD ++ [.arrive (fr 1), .shutdown, .poll, .wake, .poll, .close, .drop, .interrupt, .interrupted, .join])).results = [.init true, .shutdown] := by
  decide +kernel

/-- C116: such a shutdown returns, after at most seven rounds in which every thread does something, if no more frames come in meanwhile. -/
theorem C116_shutdown_returns_partial (es fs : List Ev) (hready : (DL.fresh.run es).state = .ready) (hbus : (DL.fresh.run es).bus = true) (hidle : (DL.fresh.run es).user = .idle)
    (hf : ∀ e ∈ fs, ¬ IsInit e) (rs : List (List Ev)) (hr : ∀ r ∈ rs, Round r ∧ ∀ e ∈ r, ¬ IsInit e ∧ ¬ Feeds e) (hn : 7 ≤ rs.length) :
    (DL.fresh.run es).results ++ [.shutdown] <+: (DL.fresh.run (es ++ .shutdown :: fs ++ rs.flatten)).results := by
  have hs := ses_run es ses_fresh
  have hth : (DL.fresh.run es).thread = .waiting := by
    have h1 := hs.down hbus (.inl hidle)
    have h2 := hs.created
    have h3 := hs.ended
    cases ht : (DL.fresh.run es).thread <;> simp_all
  have h0 : SAt (DL.fresh.run es).results ((DL.fresh.run es).delivered ++ (DL.fresh.run es).queue) 0 ((DL.fresh.run es).step .shutdown) := by
    simp [SAt, DL.step, hidle, hready, hth]
  obtain ⟨k, hk, -⟩ := sat_run fs _ 0 hf (ses_step hs .shutdown) h0
  obtain ⟨k', h1, h2⟩ := sat_rounds rs _ k hr (ses_run fs (ses_step hs .shutdown)) hk
  have : k' = 7 := by have := sat_le h1; omega
  subst this
  rw [run_append, run_append]
  exact h1.1

private def roundD : List Ev := [.join, .interrupted, .interrupt, .drop, .close, .poll, .wake, .begin]

example : Round roundD ∧ (∀ e ∈ roundD, ¬ IsInit e ∧ ¬ Feeds e) ∧
    (DL.fresh.run (upD ++ .shutdown :: [.arrive (fr 1)] ++ (List.replicate 7 roundD).flatten)).results = [.init true, .shutdown] := by
  refine ⟨⟨by simp [roundD], by simp [roundD], by simp [roundD], by simp [roundD], by simp [roundD], by simp [roundD], by simp [roundD], by simp [roundD]⟩,
    by simp [roundD, IsInit, Feeds], by decide +kernel⟩

/-- the thread starts only after the driver was closed again -/
private def late : List Ev := [.init true false, .waited true, .shutdown, .poll, .close, .arrive (fr 1), .drop, .begin, .interrupt, .interrupted, .join]

/-- C116 is false for a shutdown before the thread has started (`init` has returned false): the driver is ready afterwards although it has neither a thread nor a connection,
and the next shutdown never returns. -/
theorem C116_late_start_false :
    ¬ ∀ es : List Ev, (DL.fresh.run es).user = .idle → (DL.fresh.run es).results.getLast? = some .shutdown →
      (DL.fresh.run es).state = .closed ∧ ∃ fs, (DL.fresh.run es).results ++ [.shutdown] <+: (DL.fresh.run (es ++ .shutdown :: fs)).results := by
  intro h
  have := (h late (by decide +kernel) (by decide +kernel)).1
  revert this
  decide +kernel

/-- C116: the shutdown after such a one never returns, whatever happens, as it waits for a thread that is not there. -/
theorem C116_hangs_false : ∃ es : List Ev, (DL.fresh.run es).user = .idle ∧ (DL.fresh.run es).results = [.init false, .shutdown] ∧ (DL.fresh.run es).state = .ready ∧ (DL.fresh.run es).bus = false ∧
    ∀ fs, (DL.fresh.run (es ++ .shutdown :: fs)).results = [.init false, .shutdown] := by
  refine ⟨late, by decide +kernel, by decide +kernel, by decide +kernel, by decide +kernel, ?_⟩
  intro fs
  rw [run_append]
  have := hung_run fs ((DL.fresh.run late).step .shutdown) (by decide +kernel) (by decide +kernel) (by decide +kernel) (by decide +kernel)
  exact this.2.trans (by decide +kernel)

/-- C116: the destructor returns, whatever state the driver is in and whatever arrives, after at most four rounds; then the driver is closed and not connected. -/
theorem C116_destroy_returns (es fs : List Ev) (hidle : (DL.fresh.run es).user = .idle) (rs : List (List Ev)) (hr : ∀ r ∈ rs, Round r) (hn : 4 ≤ rs.length) :
    let s := DL.fresh.run (es ++ .destroy :: fs ++ rs.flatten)
    s.results = (DL.fresh.run es).results ++ [.destroyed] ∧ s.state = .closed ∧ s.bus = false ∧ s.thread = .none := by
  intro s
  have hs := ses_run es ses_fresh
  have h0 : DAt (DL.fresh.run es).results 0 ((DL.fresh.run es).step .destroy) := by simp [DAt, DL.step, hidle]
  obtain ⟨k, hk, -, -⟩ := dat_run fs _ 0 (ses_step hs .destroy) h0
  obtain ⟨k', h1, h2⟩ := dat_rounds rs _ k hr (ses_run fs (ses_step hs .destroy)) hk
  have : k' = 4 := by have := dat_le h1; omega
  subst this
  have he : s = (((DL.fresh.run es).step .destroy).run fs).run rs.flatten := by
    show DL.fresh.run (es ++ .destroy :: fs ++ rs.flatten) = _
    rw [run_append, run_append]; rfl
  rw [he]
  exact ⟨h1.1, h1.2.2.1, h1.2.2.2.1, h1.2.2.2.2⟩

example : (DL.fresh.run [.init true false, .waited true]).user = .idle ∧ (DL.fresh.run [.init true false, .waited true]).thread = .created := by decide +kernel

/-- C116, that after another initialisation only frames that arrive from then on are delivered, is false: a frame that came in while the driver was being shut down is kept. -/
theorem C116_stale_false : ∃ es fs : List Ev, (DL.fresh.run es).results = [.init true, .shutdown] ∧ (DL.fresh.run es).delivered = [] ∧ (∀ e ∈ fs, ¬ Feeds e) ∧
    (DL.fresh.run (es ++ fs)).delivered = [fr 1] :=
  ⟨upD ++ [.shutdown, .poll, .close, .arrive (fr 1), .drop, .interrupt, .interrupted, .join], upD ++ [.wake], by decide +kernel, by decide +kernel, by simp [upD, Feeds], by decide +kernel⟩

/-- C116, that sending fails on a driver that was shut down, is false: it is undefined behaviour. -/
theorem C116_send_false : ∃ es f, (DL.fresh.run es).results = [.init true, .shutdown] ∧ (DL.fresh.run es).state = .closed ∧ ((DL.fresh.run es).step (.send f)).crashed = true :=
  ⟨upD ++ downD, fr 1, by decide +kernel, by decide +kernel, by decide +kernel⟩

/-- C116: sending is fine as long as the driver is ready and connected: the first undefined behaviour is a send on a driver that is not connected. -/
theorem C116_no_crash (es : List Ev) (h : (DL.fresh.run es).crashed = true) :
    ∃ a f b, es = a ++ .send f :: b ∧ (DL.fresh.run a).bus = false ∧ (DL.fresh.run a).crashed = false := by
  have gen : ∀ (es : List Ev) (s : DL), s.crashed = false → (s.run es).crashed = true → ∃ a f b, es = a ++ .send f :: b ∧ (s.run a).bus = false ∧ (s.run a).crashed = false := by
    intro es
    induction es with
    | nil => intro s h1 h2; rw [DL.run, h1] at h2; cases h2
    | cons e es ih =>
      intro s h1 h2
      cases hc : (s.step e).crashed with
      | false =>
        obtain ⟨a, f, b, g1, g2, g3⟩ := ih _ hc h2
        exact ⟨e :: a, f, b, by rw [g1]; rfl, g2, g3⟩
      | true =>
        have : (∃ f, e = .send f) ∧ s.bus = false := by
          cases e <;> simp only [DL.step, DL.init, DL.setDriverState, DL.send, DL.enqueue, DL.top, DL.wake] at hc <;> (repeat' split at hc) <;> simp_all
        obtain ⟨⟨f, rfl⟩, hb⟩ := this
        exact ⟨[], f, es, rfl, hb, h1⟩
  exact gen es _ rfl h

example : (DL.fresh.run (upD ++ [.send (fr 1)])).crashed = false ∧ (DL.fresh.run (upD ++ downD ++ [.send (fr 1)])).crashed = true := by decide +kernel

/-! ## C117 -/

/-- C117: connecting by a name works exactly if the name is known, and two interfaces share a bus exactly if they were connected by the same name without the bus of this
name being taken down in between. -/
theorem C117_buses (os : List Op) (i j : Nat) (n : Text) :
    ((Table.empty.ops os).connect i n).2 = (Names.empty.ops os).known n ∧
    ((Table.empty.ops os).links.lookup i).isSome = ((Names.empty.ops os).link i).isSome ∧
    (∀ d, (Table.empty.ops os).links.lookup i = some d → ((Table.empty.ops os).links.lookup j = some d ↔ (Names.empty.ops os).link j = (Names.empty.ops os).link i)) := by
  obtain ⟨owner, h⟩ := rel_ops os (rel_empty fun _ => ([], 0))
  generalize Table.empty.ops os = t at *
  generalize Names.empty.ops os = s at *
  refine ⟨?_, ?_, ?_⟩
  · rw [← h.known n]
    unfold Table.connect
    cases t.find n <;> rfl
  · rw [h.link i]; cases t.links.lookup i <;> rfl
  · intro d hd
    rw [h.link i, h.link j, hd]
    constructor
    · intro hj; rw [hj]
    · intro hj
      cases hl : t.links.lookup j with
      | none => rw [hl] at hj; cases hj
      | some d' =>
        rw [hl] at hj
        have := Option.some.inj hj
        rw [h.inj d' d (h.made j d' hl) (h.made i d hd) this]

private def vcan : Text := ['v']

example : ((Table.empty.ops [.create 0 vcan, .connect 1 vcan, .connect 2 vcan]).links.lookup 1 = some 0) ∧
    ((Table.empty.ops [.create 0 vcan, .connect 1 vcan, .connect 2 vcan]).links.lookup 2 = some 0) ∧
    ((Table.empty.ops [.create 0 vcan, .connect 1 vcan, .destroy 0, .create 3 vcan, .connect 2 vcan]).links.lookup 2 = some 1) := by decide +kernel

/-- C117 (missing: bus objects with the same name).  Connecting by a name works exactly while there is a bus object of this name, if there are never two of them. -/
theorem C117_while_there_partial (os : List Op) (h : NoTwins Names.empty os) (i : Nat) (n : Text) :
    ((Table.empty.ops os).connect i n).2 = true ↔ ∃ k, (Names.empty.ops os).objects k = some n := by
  rw [(C117_buses os i i n).1]
  exact (plain_ops os (s := Names.empty) ⟨by simp [Names.empty], by simp [Names.empty]⟩ h).known n

example : NoTwins Names.empty [.create 0 vcan, .connect 1 vcan, .destroy 0, .create 3 vcan, .connect 2 vcan] := by
  simp [NoTwins, Names.empty, Names.op]

/-- C117 is false with two bus objects of the same name: when one of them is gone, the name is unknown though the other one is there. -/
theorem C117_twins_false : ¬ ∀ (os : List Op) (i : Nat) (n : Text), ((Table.empty.ops os).connect i n).2 = true ↔ ∃ k, (Names.empty.ops os).objects k = some n := by
  intro h
  have := (h [.create 0 vcan, .create 1 vcan, .destroy 1] 0 vcan).2 ⟨0, by decide +kernel⟩
  revert this
  decide +kernel

end Verif.Props
