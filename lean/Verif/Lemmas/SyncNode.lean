import Verif.Model.SyncNode

/-!
# The SYNC node: its stack, case by case
-/

set_option linter.unusedSimpArgs false

namespace Verif.SyncN
open Verif Verif.Lay

/-- the stack with all layers in state `s` -/
def shape (s : LayerState) (t0 t1 : List Method) : Tree World := .group true s [.leaf 0 s canLayer t0, .leaf 1 s syncLayer t1]

/-- frames of the answers `i`, …, `i + k - 1` -/
def framesOf (a : Nat → Answer) (i : Nat) : Nat → List (Frame × Bool)
  | 0 => []
  | k + 1 => (a i).frames ++ framesOf a (i + 1) k

theorem feed_append (fs gs : List (Frame × Bool)) (s : Bcm.State) : feed (fs ++ gs) s = feed gs (feed fs s) := by
  unfold feed
  rw [List.map_append]
  generalize List.map (fun q : Frame × Bool => Bcm.Ev.frame q.1 q.2) fs = l
  induction l generalizing s with
  | nil => rfl
  | cons x l ih => exact ih _

theorem feed_nil (s : Bcm.State) : feed [] s = s := rfl

theorem feed_deaf (fs : List (Frame × Bool)) (s : Bcm.State) (h : s.listening = false) : feed fs s = s := by
  induction fs with
  | nil => rfl
  | cons f fs ih =>
    show feed fs (s.step (.frame f.1 f.2)) = s
    have : s.step (.frame f.1 f.2) = s := by simp [Bcm.State.step, h]
    rw [this, ih]

theorem bounded_error (s : Status) (r : Text) : (s.report (.error r)).boundedWarn = false := by
  cases s with | mk v t => cases v <;> simp [Status.report, Status.set, Status.boundedWarn, Sev.toNat]

theorem bounded_warn (s : Status) (r : Text) : (s.report (.warn r)).boundedWarn = s.boundedWarn := by
  cases s with | mk v t => cases v <;> simp [Status.report, Status.set, Status.boundedWarn, Sev.toNat]

theorem bounded_initial : Status.initial.boundedWarn = true := rfl

/-! The handlers of the two layers. -/

theorem can_call (m : Method) (st : LayerState) (w : World) (s : Status) (l : List (Nat × Method)) :
    callHandler 0 canLayer m st ⟨w, s, l⟩ = ⟨w.next, (match m with
      | .read | .write => if st.toNat > LayerState.init.toNat ∧ !(w.answers 0).ready then s.report (.error "CAN not ready".toList) else s
      | .diag => if (w.answers 0).ready then s else s.report (.error "CAN layer not ready".toList)
      | .init | .recover => if (w.answers 0).ready then s else s.report (.error "CAN is not ready".toList)
      | .shutdown | .halt => s), l ++ [(0, m)]⟩ := by
  cases m <;> simp only [callHandler, canLayer] <;> first | rfl | (split <;> rfl)

theorem sync_idle (m : Method) (hm : m = .read ∨ m = .write) (st : LayerState) (w : World) (s : Status) (l : List (Nat × Method)) :
    callHandler 1 syncLayer m st ⟨w, s, l⟩ = ⟨w.next, s, l ++ [(1, m)]⟩ := by
  rcases hm with rfl | rfl <;> rfl

theorem sync_diag (st : LayerState) (w : World) (s : Status) (l : List (Nat × Method)) :
    callHandler 1 syncLayer .diag st ⟨w, s, l⟩ = ⟨w.next, if w.next.bcm.running then s else s.report (.warn "sync is not running".toList), l ++ [(1, .diag)]⟩ := by
  simp only [callHandler, syncLayer]
  split <;> rfl

theorem sync_init (st : LayerState) (w : World) (s : Status) (l : List (Nat × Method)) :
    callHandler 1 syncLayer .init st ⟨w, s, l⟩ = ⟨{ w.next with bcm := w.next.bcm.handleInit (w.answers 0).bcm (w.answers 0).filter },
      (initReports (w.answers 0)).foldl Status.report s, l ++ [(1, .init)]⟩ := rfl

theorem sync_recover (st : LayerState) (w : World) (s : Status) (l : List (Nat × Method)) :
    callHandler 1 syncLayer .recover st ⟨w, s, l⟩ = ⟨{ w.next with bcm := w.next.bcm.handleShutdown.handleInit (w.answers 0).bcm (w.answers 0).filter },
      (initReports (w.answers 0)).foldl Status.report s, l ++ [(1, .recover)]⟩ := rfl

theorem sync_shutdown (st : LayerState) (w : World) (s : Status) (l : List (Nat × Method)) :
    callHandler 1 syncLayer .shutdown st ⟨w, s, l⟩ = ⟨{ w.next with bcm := w.next.bcm.handleShutdown }, s, l ++ [(1, .shutdown)]⟩ := rfl

theorem sync_halt (st : LayerState) (w : World) (s : Status) (l : List (Nat × Method)) :
    callHandler 1 syncLayer .halt st ⟨w, s, l⟩ = ⟨{ w.next with bcm := w.next.bcm.handleHalt }, s, l ++ [(1, .halt)]⟩ := rfl

theorem bounded_initReports (s : Status) (a : Answer) : ((initReports a).foldl Status.report s).boundedWarn = (a.bcm && s.boundedWarn) := by
  unfold initReports
  cases a.bcm <;> cases a.filter <;> simp [bounded_error, bounded_warn]

/-! Initialisation of the stack. -/

theorem sync_read (st : LayerState) (w : World) (s : Status) (l : List (Nat × Method)) :
    callHandler 1 syncLayer .read st ⟨w, s, l⟩ = ⟨w.next, s, l ++ [(1, .read)]⟩ := rfl

theorem init_fails (t0 t1 : List Method) (w : World) (l : List (Nat × Method)) (h0 : (w.answers 0).ready = false) :
    ∃ u0 u1, ((shape .off t0 t1).init ⟨w, .initial, l⟩).1 = shape .off u0 u1 ∧ ((shape .off t0 t1).init ⟨w, .initial, l⟩).2.world = w.next.next := by
  refine ⟨t0 ++ [.init] ++ [.shutdown], t1, ?_⟩
  simp only [shape, if_true, bounded_initial, can_call, finishInit, finishRecover, bounded_error, bounded_warn, Bool.not_false, Bool.false_eq_true, if_false, ne_eq,
    reduceCtorEq, not_false_eq_true, Bool.and_self, Bool.true_and, not_true_eq_false, Bool.not_true, bounded_initReports, Bool.false_and, Bool.and_false,
    sync_init, sync_shutdown, sync_halt, sync_recover, sync_diag, sync_read, and_true, and_false, and_self, LayerState.toNat, Nat.reduceLT, gt_iff_lt, Tree.init, initList, Tree.shutdown, shutdownRev, h0]

theorem init_bcm_fails (t0 t1 : List Method) (w : World) (l : List (Nat × Method)) (h0 : (w.answers 0).ready = true) (h1 : (w.answers 1).bcm = false) :
    ∃ u0 u1, ((shape .off t0 t1).init ⟨w, .initial, l⟩).1 = shape .off u0 u1 ∧ ((shape .off t0 t1).init ⟨w, .initial, l⟩).2.world =
      World.next { (World.next { w.next.next with bcm := w.next.next.bcm.handleInit false (w.answers 1).filter }) with
        bcm := (World.next { w.next.next with bcm := w.next.next.bcm.handleInit false (w.answers 1).filter }).bcm.handleShutdown } := by
  refine ⟨t0 ++ [.init] ++ [.shutdown], t1 ++ [.init] ++ [.shutdown], ?_⟩
  have e : (w.next.answers 0) = w.answers 1 := rfl
  simp only [shape, if_true, bounded_initial, can_call, finishInit, finishRecover, bounded_error, bounded_warn, Bool.not_false, Bool.false_eq_true, if_false, ne_eq,
    reduceCtorEq, not_false_eq_true, Bool.and_self, Bool.true_and, not_true_eq_false, Bool.not_true, bounded_initReports, Bool.false_and, Bool.and_false,
    sync_init, sync_shutdown, sync_halt, sync_recover, sync_diag, sync_read, and_true, and_false, and_self, LayerState.toNat, Nat.reduceLT, gt_iff_lt, Tree.init, initList, Tree.shutdown, shutdownRev, h0, e, h1]

theorem init_works (t0 t1 : List Method) (w : World) (l : List (Nat × Method)) (h0 : (w.answers 0).ready = true) (h1 : (w.answers 1).bcm = true) :
    ∃ u0 u1, ((shape .off t0 t1).init ⟨w, .initial, l⟩).1 = shape .ready u0 u1 ∧ ((shape .off t0 t1).init ⟨w, .initial, l⟩).2.world =
      { w.next.next with bcm := w.next.next.bcm.handleInit true (w.answers 1).filter } := by
  refine ⟨t0 ++ [.init], t1 ++ [.init], ?_⟩
  have e : (w.next.answers 0) = w.answers 1 := rfl
  simp only [shape, if_true, bounded_initial, can_call, finishInit, finishRecover, bounded_error, bounded_warn, Bool.not_false, Bool.false_eq_true, if_false, ne_eq,
    reduceCtorEq, not_false_eq_true, Bool.and_self, Bool.true_and, not_true_eq_false, Bool.not_true, bounded_initReports, Bool.false_and, Bool.and_false,
    sync_init, sync_shutdown, sync_halt, sync_recover, sync_diag, sync_read, and_true, and_false, and_self, LayerState.toNat, Nat.reduceLT, gt_iff_lt, Tree.init, initList, Tree.shutdown, shutdownRev, h0, e, h1]

theorem read_off (t0 t1 : List Method) (e : Env World) : (shape .off t0 t1).read e = (shape .off t0 t1, e) := rfl
theorem diag_off (t0 t1 : List Method) (e : Env World) : (shape .off t0 t1).diag e = (shape .off t0 t1, e) := rfl

theorem report_off (t0 t1 : List Method) (b : Bcm.State) (hb : b.listening = false) (a : Nat → Answer) :
    ∃ u0 u1, (Node.report ⟨shape .off t0 t1, b⟩ a) =
      (if (a 0).ready then
        (if (a 1).bcm then ⟨shape .ready u0 u1, b.handleInit true (a 1).filter⟩ else ⟨shape .off u0 u1, (b.handleInit false (a 1).filter).handleShutdown⟩)
       else ⟨shape .off u0 u1, b⟩, .notInitialized) := by
  have d1 : (b.handleInit false (a 1).filter).listening = false := by simp [Bcm.State.handleInit, hb]
  have d2 : (b.handleInit false (a 1).filter).handleShutdown.listening = false := by simp [Bcm.State.handleShutdown]
  have hoff : (shape .off t0 t1).state = .off := rfl
  simp only [Node.report, read_off, diag_off, hoff, ne_eq, not_true_eq_false, if_false]
  cases h0 : (a 0).ready with
  | false =>
    obtain ⟨u0, u1, e1, e2⟩ := init_fails t0 t1 ⟨b, a⟩ [] h0
    refine ⟨u0, u1, ?_⟩
    rw [e1, e2]
    simp only [World.next, feed_deaf _ _ hb, Bool.false_eq_true, if_false]
  | true =>
    cases h1 : (a 1).bcm with
    | false =>
      obtain ⟨u0, u1, e1, e2⟩ := init_bcm_fails t0 t1 ⟨b, a⟩ [] h0 h1
      refine ⟨u0, u1, ?_⟩
      rw [e1, e2]
      simp only [World.next, feed_deaf _ _ hb, feed_deaf _ _ d1, feed_deaf _ _ d2, if_true, Bool.false_eq_true, if_false]
    | true =>
      obtain ⟨u0, u1, e1, e2⟩ := init_works t0 t1 ⟨b, a⟩ [] h0 h1
      refine ⟨u0, u1, ?_⟩
      rw [e1, e2]
      simp only [World.next, feed_deaf _ _ hb, if_true]

/-! Reading, diagnosis and recovery of the stack. -/

theorem read_ok (s : LayerState) (hs : s = .ready ∨ s = .error) (t0 t1 : List Method) (w : World) (h0 : (w.answers 0).ready = true) :
    ∃ u0 u1 l, (shape s t0 t1).read ⟨w, .initial, []⟩ = (shape s u0 u1, ⟨w.next.next, .initial, l⟩) := by
  refine ⟨t0 ++ [.read], t1 ++ [.read], [(0, .read)] ++ [(1, .read)], ?_⟩
  rcases hs with rfl | rfl <;>
  simp only [shape, if_true, bounded_initial, can_call, finishInit, finishRecover, bounded_error, bounded_warn, Bool.not_false, Bool.false_eq_true, if_false, ne_eq,
    reduceCtorEq, not_false_eq_true, Bool.and_self, Bool.true_and, not_true_eq_false, Bool.not_true, bounded_initReports, Bool.false_and, Bool.and_false,
    sync_init, sync_shutdown, sync_halt, sync_recover, sync_diag, sync_read, and_true, and_false, and_self, LayerState.toNat, Nat.reduceLT, gt_iff_lt, Tree.read, readList, failTail, h0] <;> rfl

theorem read_bad_ready (t0 t1 : List Method) (w : World) (h0 : (w.answers 0).ready = false) :
    ∃ u0 u1 l, (shape .ready t0 t1).read ⟨w, .initial, []⟩ = (shape .error u0 u1,
      ⟨{ w.next.next.next.next with bcm := w.next.next.next.next.bcm.handleHalt }, Status.initial.report (.error "CAN not ready".toList), l⟩) := by
  refine ⟨t0 ++ [.read] ++ [.halt], t1 ++ [.read] ++ [.halt], [] ++ [(0, .read)] ++ [(1, .read)] ++ [(0, .halt)] ++ [(1, .halt)], ?_⟩
  simp only [shape, if_true, bounded_initial, can_call, finishInit, finishRecover, bounded_error, bounded_warn, Bool.not_false, Bool.false_eq_true, if_false, ne_eq,
    reduceCtorEq, not_false_eq_true, Bool.and_self, Bool.true_and, not_true_eq_false, Bool.not_true, bounded_initReports, Bool.false_and, Bool.and_false,
    sync_init, sync_shutdown, sync_halt, sync_recover, sync_diag, sync_read, and_true, and_false, and_self, LayerState.toNat, Nat.reduceLT, gt_iff_lt, Tree.read, readList, failTail, Tree.halt, haltList, haltRev, h0]

theorem read_bad_error (t0 t1 : List Method) (w : World) (h0 : (w.answers 0).ready = false) :
    ∃ u0 u1 l, (shape .error t0 t1).read ⟨w, .initial, []⟩ = (shape .error u0 u1, ⟨w.next.next, Status.initial.report (.error "CAN not ready".toList), l⟩) := by
  refine ⟨t0 ++ [.read], t1 ++ [.read], [(0, .read)] ++ [(1, .read)], ?_⟩
  simp only [shape, if_true, bounded_initial, can_call, finishInit, finishRecover, bounded_error, bounded_warn, Bool.not_false, Bool.false_eq_true, if_false, ne_eq,
    reduceCtorEq, not_false_eq_true, Bool.and_self, Bool.true_and, not_true_eq_false, Bool.not_true, bounded_initReports, Bool.false_and, Bool.and_false,
    sync_init, sync_shutdown, sync_halt, sync_recover, sync_diag, sync_read, and_true, and_false, and_self, LayerState.toNat, Nat.reduceLT, gt_iff_lt, Tree.read, readList, failTail, Tree.halt, haltList, haltRev, h0]
  rfl

theorem diag_any (s : LayerState) (hs : s = .ready ∨ s = .error) (t0 t1 : List Method) (w : World) (st : Status) (l : List (Nat × Method)) :
    ∃ u0 u1 l', (shape s t0 t1).diag ⟨w, st, l⟩ = (shape s u0 u1, ⟨w.next.next,
      let st' := if (w.answers 0).ready then st else st.report (.error "CAN layer not ready".toList)
      if w.next.next.bcm.running then st' else st'.report (.warn "sync is not running".toList), l'⟩) := by
  refine ⟨t0 ++ [.diag], t1 ++ [.diag], l ++ [(0, .diag)] ++ [(1, .diag)], ?_⟩
  rcases hs with rfl | rfl <;>
  simp only [shape, if_true, bounded_initial, can_call, finishInit, finishRecover, bounded_error, bounded_warn, Bool.not_false, Bool.false_eq_true, if_false, ne_eq,
    reduceCtorEq, not_false_eq_true, Bool.and_self, Bool.true_and, not_true_eq_false, Bool.not_true, bounded_initReports, Bool.false_and, Bool.and_false,
    sync_init, sync_shutdown, sync_halt, sync_recover, sync_diag, sync_read, and_true, and_false, and_self, LayerState.toNat, Nat.reduceLT, gt_iff_lt, Tree.diag, diagList]

theorem recover_ready (t0 t1 : List Method) (e : Env World) : (shape .ready t0 t1).recover e = (shape .ready t0 t1, e) := rfl

theorem recover_fails (t0 t1 : List Method) (w : World) (l : List (Nat × Method)) (h0 : (w.answers 0).ready = false) :
    ∃ u0 u1, ((shape .error t0 t1).recover ⟨w, .initial, l⟩).1 = shape .error u0 u1 ∧ ((shape .error t0 t1).recover ⟨w, .initial, l⟩).2.world = w.next.next := by
  refine ⟨t0 ++ [.recover] ++ [.halt], t1, ?_⟩
  simp only [shape, if_true, bounded_initial, can_call, finishInit, finishRecover, bounded_error, bounded_warn, Bool.not_false, Bool.false_eq_true, if_false, ne_eq,
    reduceCtorEq, not_false_eq_true, Bool.and_self, Bool.true_and, not_true_eq_false, Bool.not_true, bounded_initReports, Bool.false_and, Bool.and_false,
    sync_init, sync_shutdown, sync_halt, sync_recover, sync_diag, sync_read, and_true, and_false, and_self, LayerState.toNat, Nat.reduceLT, gt_iff_lt, Tree.recover, recoverList, Tree.halt, haltList, h0, Nat.lt_irrefl]

theorem recover_bcm_fails (t0 t1 : List Method) (w : World) (l : List (Nat × Method)) (h0 : (w.answers 0).ready = true) (h1 : (w.answers 1).bcm = false) :
    ∃ u0 u1, ((shape .error t0 t1).recover ⟨w, .initial, l⟩).1 = shape .error u0 u1 ∧ ((shape .error t0 t1).recover ⟨w, .initial, l⟩).2.world =
      World.next { (World.next { w.next.next with bcm := w.next.next.bcm.handleShutdown.handleInit false (w.answers 1).filter }) with
        bcm := (World.next { w.next.next with bcm := w.next.next.bcm.handleShutdown.handleInit false (w.answers 1).filter }).bcm.handleHalt } := by
  refine ⟨t0 ++ [.recover] ++ [.halt], t1 ++ [.recover] ++ [.halt], ?_⟩
  have e : (w.next.answers 0) = w.answers 1 := rfl
  simp only [shape, if_true, bounded_initial, can_call, finishInit, finishRecover, bounded_error, bounded_warn, Bool.not_false, Bool.false_eq_true, if_false, ne_eq,
    reduceCtorEq, not_false_eq_true, Bool.and_self, Bool.true_and, not_true_eq_false, Bool.not_true, bounded_initReports, Bool.false_and, Bool.and_false,
    sync_init, sync_shutdown, sync_halt, sync_recover, sync_diag, sync_read, and_true, and_false, and_self, LayerState.toNat, Nat.reduceLT, gt_iff_lt, Tree.recover, recoverList, Tree.halt, haltList, h0, e, h1, Nat.lt_irrefl]

theorem recover_works (t0 t1 : List Method) (w : World) (l : List (Nat × Method)) (h0 : (w.answers 0).ready = true) (h1 : (w.answers 1).bcm = true) :
    ∃ u0 u1, ((shape .error t0 t1).recover ⟨w, .initial, l⟩).1 = shape .ready u0 u1 ∧ ((shape .error t0 t1).recover ⟨w, .initial, l⟩).2.world =
      { w.next.next with bcm := w.next.next.bcm.handleShutdown.handleInit true (w.answers 1).filter } := by
  refine ⟨t0 ++ [.recover], t1 ++ [.recover], ?_⟩
  have e : (w.next.answers 0) = w.answers 1 := rfl
  simp only [shape, if_true, bounded_initial, can_call, finishInit, finishRecover, bounded_error, bounded_warn, Bool.not_false, Bool.false_eq_true, if_false, ne_eq,
    reduceCtorEq, not_false_eq_true, Bool.and_self, Bool.true_and, not_true_eq_false, Bool.not_true, bounded_initReports, Bool.false_and, Bool.and_false,
    sync_init, sync_shutdown, sync_halt, sync_recover, sync_diag, sync_read, and_true, and_false, and_self, LayerState.toNat, Nat.reduceLT, gt_iff_lt, Tree.recover, recoverList, Tree.halt, haltList, h0, e, h1]

/-! Reports. -/

theorem next4 (b : Bcm.State) (a : Nat → Answer) : (World.next (World.next (World.next (World.next ⟨b, a⟩)))).bcm = feed (framesOf a 0 4) b := by
  simp only [World.next, framesOf, feed_append, List.append_nil, Nat.reduceAdd]

/-- the bus is ready when read and when diagnosed: nothing but the diagnosis happens -/
theorem report_healthy (s : LayerState) (hs : s = .ready ∨ s = .error) (t0 t1 : List Method) (b : Bcm.State) (a : Nat → Answer)
    (h0 : (a 0).ready = true) (h2 : (a 2).ready = true) :
    ∃ u0 u1, (Node.report ⟨shape s t0 t1, b⟩ a) = (⟨shape s u0 u1, feed (framesOf a 0 4) b⟩,
        .status (if (feed (framesOf a 0 4) b).running then .initial else Status.initial.report (.warn "sync is not running".toList))) := by
  obtain ⟨u0, u1, l, e1⟩ := read_ok s hs t0 t1 ⟨b, a⟩ h0
  obtain ⟨v0, v1, l', e2⟩ := diag_any s hs u0 u1 (World.next (World.next ⟨b, a⟩)) .initial l
  refine ⟨v0, v1, ?_⟩
  have e3 : (World.next (World.next ⟨b, a⟩)).answers 0 = a 2 := rfl
  have hst : (shape s v0 v1).state ≠ .off := by rcases hs with rfl | rfl <;> simp [shape, Tree.state]
  simp only [Node.report, e1, e2, e3, h2, if_true, hst, ne_eq, not_false_eq_true, next4]
  cases (feed (framesOf a 0 4) b).running <;> simp [bounded_warn, bounded_initial]

theorem diag_status_bad (r : Bool) (st : Status) (t : Text) : (if r then (st.report (.error t)) else (st.report (.error t)).report (.warn "sync is not running".toList)).boundedWarn = false := by
  cases r <;> simp [bounded_warn, bounded_error]

theorem error_sev (st : Status) (h : st.boundedWarn = false) : st.sev = .error ∨ st.sev = .stale := by
  cases st with | mk v t => cases v <;> simp_all [Status.boundedWarn, Sev.toNat]

/-- the status of a report during which the bus was not ready -/
def badStatus (r1 r2 run : Bool) : Status :=
  let s0 := if r1 then Status.initial else Status.initial.report (.error "CAN not ready".toList)
  let s1 := if r2 then s0 else s0.report (.error "CAN layer not ready".toList)
  if run then s1 else s1.report (.warn "sync is not running".toList)

theorem badStatus_bounded (r1 r2 run : Bool) : (badStatus r1 r2 run).boundedWarn = (r1 && r2) := by
  cases r1 <;> cases r2 <;> cases run <;> simp [badStatus, bounded_warn, bounded_error, bounded_initial]

theorem badStatus_sev (r1 r2 run : Bool) (h : (r1 && r2) = false) : (badStatus r1 r2 run).sev = .error := by
  cases r1 <;> cases r2 <;> cases run <;> first | exact absurd h (by decide) | rfl

/-- the bus is ready when read, not when diagnosed: in state ready an error is shown and nothing else happens -/
theorem report_late_ready (t0 t1 : List Method) (b : Bcm.State) (a : Nat → Answer) (h0 : (a 0).ready = true) (h2 : (a 2).ready = false) :
    ∃ u0 u1 st, st.sev = .error ∧ (Node.report ⟨shape .ready t0 t1, b⟩ a) = (⟨shape .ready u0 u1, feed (framesOf a 0 4) b⟩, .status st) := by
  obtain ⟨u0, u1, l, e1⟩ := read_ok .ready (.inl rfl) t0 t1 ⟨b, a⟩ h0
  obtain ⟨v0, v1, l', e2⟩ := diag_any .ready (.inl rfl) u0 u1 (World.next (World.next ⟨b, a⟩)) .initial l
  have e3 : (World.next (World.next ⟨b, a⟩)).answers 0 = a 2 := rfl
  have hst : (shape .ready v0 v1).state ≠ .off := by simp [shape, Tree.state]
  refine ⟨v0, v1, badStatus true false (feed (framesOf a 0 4) b).running, badStatus_sev _ _ _ rfl, ?_⟩
  have hs : (if (feed (framesOf a 0 4) b).running = true then Status.initial.report (.error "CAN layer not ready".toList)
      else (Status.initial.report (.error "CAN layer not ready".toList)).report (.warn "sync is not running".toList)) =
      badStatus true false (feed (framesOf a 0 4) b).running := by
    cases (feed (framesOf a 0 4) b).running <;> rfl
  simp only [Node.report, e1, e2, e3, h2, Bool.false_eq_true, if_false, hst, ne_eq, not_false_eq_true, next4, if_true, hs, badStatus_bounded, Bool.and_false, Bool.not_false,
    recover_ready]

/-- what recovery makes of the stack in state error: the new state and the SYNC layer -/
def recovered (w : World) : LayerState × Bcm.State :=
  if (w.answers 0).ready then
    (if (w.answers 1).bcm then (.ready, w.next.next.bcm.handleShutdown.handleInit true (w.answers 1).filter)
     else (.error, (w.next.next.bcm.handleShutdown.handleInit false (w.answers 1).filter).handleHalt))
  else (.error, w.next.next.bcm)

theorem recover_eq (t0 t1 : List Method) (w : World) (l : List (Nat × Method)) :
    ∃ u0 u1, ((shape .error t0 t1).recover ⟨w, .initial, l⟩).1 = shape (recovered w).1 u0 u1 ∧
      ((shape .error t0 t1).recover ⟨w, .initial, l⟩).2.world.bcm = (recovered w).2 := by
  unfold recovered
  cases h0 : (w.answers 0).ready with
  | false =>
    obtain ⟨u0, u1, e1, e2⟩ := recover_fails t0 t1 w l h0
    exact ⟨u0, u1, by simpa using e1, by simp [e2]⟩
  | true =>
    cases h1 : (w.answers 1).bcm with
    | false =>
      obtain ⟨u0, u1, e1, e2⟩ := recover_bcm_fails t0 t1 w l h0 h1
      refine ⟨u0, u1, by simpa using e1, ?_⟩
      have d1 : (w.next.next.bcm.handleShutdown.handleInit false (w.answers 1).filter).listening = false := by simp [Bcm.State.handleInit, Bcm.State.handleShutdown]
      have d2 : (w.next.next.bcm.handleShutdown.handleInit false (w.answers 1).filter).handleHalt.listening = false := by
        unfold Bcm.State.handleHalt Bcm.State.stopTX; split
        · split <;> exact d1
        · exact d1
      rw [e2]
      show feed _ (feed _ _).handleHalt = _
      rw [feed_deaf _ _ d1, feed_deaf _ _ d2]
      rfl
    | true =>
      obtain ⟨u0, u1, e1, e2⟩ := recover_works t0 t1 w l h0 h1
      exact ⟨u0, u1, by simpa using e1, by simp [e2]⟩

/-- the bus is not ready when read, in state ready: the layers are halted and recovered -/
theorem report_bad_ready (t0 t1 : List Method) (b : Bcm.State) (a : Nat → Answer) (h0 : (a 0).ready = false) :
    ∃ u0 u1 st, st.sev = .error ∧
      (Node.report ⟨shape .ready t0 t1, b⟩ a) =
        (⟨shape (recovered ⟨feed (framesOf a 4 2) (feed (framesOf a 0 4) b).handleHalt, fun n => a (n + 6)⟩).1 u0 u1,
          (recovered ⟨feed (framesOf a 4 2) (feed (framesOf a 0 4) b).handleHalt, fun n => a (n + 6)⟩).2⟩, .status st) := by
  obtain ⟨u0, u1, l, e1⟩ := read_bad_ready t0 t1 ⟨b, a⟩ h0
  obtain ⟨v0, v1, l', e2⟩ := diag_any .error (.inr rfl) u0 u1 (⟨(feed (framesOf a 0 4) b).handleHalt, fun n => a (n + 4)⟩ : World)
    (Status.initial.report (.error "CAN not ready".toList)) l
  have ew : ({ World.next (World.next (World.next (World.next ⟨b, a⟩))) with
      bcm := (World.next (World.next (World.next (World.next ⟨b, a⟩)))).bcm.handleHalt } : World) = ⟨(feed (framesOf a 0 4) b).handleHalt, fun n => a (n + 4)⟩ := by
    rw [next4]; rfl
  have e3 : ((⟨(feed (framesOf a 0 4) b).handleHalt, fun n => a (n + 4)⟩ : World).answers 0) = a 4 := rfl
  have ew2 : (World.next (World.next (⟨(feed (framesOf a 0 4) b).handleHalt, fun n => a (n + 4)⟩ : World))) =
      ⟨feed (framesOf a 4 2) (feed (framesOf a 0 4) b).handleHalt, fun n => a (n + 6)⟩ := by
    simp only [World.next, framesOf, feed_append, List.append_nil, Nat.reduceAdd, Nat.add_assoc, Nat.zero_add]
  have hst : (shape .error v0 v1).state ≠ .off := by simp [shape, Tree.state]
  rw [ew] at e1
  rw [ew2] at e2
  obtain ⟨x0, x1, r1, r2⟩ := recover_eq v0 v1 ⟨feed (framesOf a 4 2) (feed (framesOf a 0 4) b).handleHalt, fun n => a (n + 6)⟩ l'
  refine ⟨x0, x1, badStatus false (a 4).ready (feed (framesOf a 4 2) (feed (framesOf a 0 4) b).handleHalt).running, badStatus_sev _ _ _ rfl, ?_⟩
  have hs : (let st' := if (a 4).ready then Status.initial.report (.error "CAN not ready".toList) else (Status.initial.report (.error "CAN not ready".toList)).report (.error "CAN layer not ready".toList)
      if (feed (framesOf a 4 2) (feed (framesOf a 0 4) b).handleHalt).running then st' else st'.report (.warn "sync is not running".toList)) =
      badStatus false (a 4).ready (feed (framesOf a 4 2) (feed (framesOf a 0 4) b).handleHalt).running := rfl
  rw [e3, hs] at e2
  simp only [Node.report, e1, e2, hst, ne_eq, not_false_eq_true, if_true, badStatus_bounded, Bool.false_and, Bool.not_false, r1, r2]

/-- the bus is not ready in state error: the layers are recovered -/
theorem report_bad_error (t0 t1 : List Method) (b : Bcm.State) (a : Nat → Answer) (h : ((a 0).ready && (a 2).ready) = false) :
    ∃ u0 u1 st, st.sev = .error ∧
      (Node.report ⟨shape .error t0 t1, b⟩ a) =
        (⟨shape (recovered ⟨feed (framesOf a 0 4) b, fun n => a (n + 4)⟩).1 u0 u1, (recovered ⟨feed (framesOf a 0 4) b, fun n => a (n + 4)⟩).2⟩, .status st) := by
  have hread : ∃ u0 u1 l, (shape .error t0 t1).read ⟨⟨b, a⟩, .initial, []⟩ = (shape .error u0 u1, ⟨World.next (World.next ⟨b, a⟩),
      if (a 0).ready then .initial else Status.initial.report (.error "CAN not ready".toList), l⟩) := by
    cases h0 : (a 0).ready with
    | true => exact read_ok .error (.inr rfl) t0 t1 ⟨b, a⟩ h0
    | false => exact read_bad_error t0 t1 ⟨b, a⟩ h0
  obtain ⟨u0, u1, l, e1⟩ := hread
  obtain ⟨v0, v1, l', e2⟩ := diag_any .error (.inr rfl) u0 u1 (World.next (World.next ⟨b, a⟩))
    (if (a 0).ready then .initial else Status.initial.report (.error "CAN not ready".toList)) l
  have e3 : (World.next (World.next ⟨b, a⟩)).answers 0 = a 2 := rfl
  have ew2 : (World.next (World.next (World.next (World.next ⟨b, a⟩)))) = ⟨feed (framesOf a 0 4) b, fun n => a (n + 4)⟩ := by
    simp only [World.next, framesOf, feed_append, List.append_nil, Nat.reduceAdd, Nat.add_assoc, Nat.zero_add]
  have hst : (shape .error v0 v1).state ≠ .off := by simp [shape, Tree.state]
  rw [ew2] at e2
  obtain ⟨x0, x1, r1, r2⟩ := recover_eq v0 v1 ⟨feed (framesOf a 0 4) b, fun n => a (n + 4)⟩ l'
  refine ⟨x0, x1, badStatus (a 0).ready (a 2).ready (feed (framesOf a 0 4) b).running, badStatus_sev _ _ _ h, ?_⟩
  have hs : (let st' := if (a 2).ready then (if (a 0).ready then Status.initial else Status.initial.report (.error "CAN not ready".toList))
        else (if (a 0).ready then Status.initial else Status.initial.report (.error "CAN not ready".toList)).report (.error "CAN layer not ready".toList)
      if (feed (framesOf a 0 4) b).running then st' else st'.report (.warn "sync is not running".toList)) =
      badStatus (a 0).ready (a 2).ready (feed (framesOf a 0 4) b).running := rfl
  rw [e3, hs] at e2
  simp only [Node.report, e1, e2, hst, ne_eq, not_false_eq_true, if_true, badStatus_bounded, h, Bool.not_false, r1, r2]

end Verif.SyncN
