import Verif.Spec.CanLayer

set_option linter.unusedSimpArgs false
set_option linter.unusedVariables false

namespace Verif.CanL
open Verif Verif.Drv Verif.Lay Verif.Spec

/-- `run` is in or past its event loop part and has not recorded the end -/
def Wk.inside : Wk → Bool
  | .trigger | .loop | .err _ | .look2 | .store2 _ => true
  | _ => false

/-- between `socket_.assign` and the creation of the thread -/
def Pc.opening : Pc → Bool
  | .drvErr | .drvInt | .drvOpen | .waiter | .listen | .spawn => true
  | _ => false

/-- in `handleInit` before the creation of the thread -/
def Pc.starting : Pc → Bool
  | .drvTest | .drvElse | .drvFail _ => true
  | p => p.opening

/-- after the socket was closed -/
def Pc.closed : Pc → Bool
  | .stop | .sWait | .join => true
  | _ => false

/-- after the event loop was stopped -/
def Pc.halted : Pc → Bool
  | .sWait | .join => true
  | _ => false

structure Inv (s : Sys) : Prop where
  one : s.double = false
  thr : s.thread = false ↔ s.worker = .none
  rdy : s.st.driver = .ready → s.worker.inside = true
  strt : s.pc.starting = true → s.thread = false
  opn : s.pc.opening = true → s.sock = true
  sck : s.thread = false → s.pc.opening = false → s.sock = false
  up : s.thread = true → s.pc.closed = false → s.sock = true
  dn : s.pc.closed = true → s.sock = false
  stp : (s.worker = .ready ∨ s.worker = .trigger ∨ s.worker = .loop) → s.pc.halted = false → s.stopped = false
  fin : s.worker.inside = true → s.worker ≠ .trigger → s.worker ≠ .loop → s.pc.halted = true
  rdg : s.reading = true → s.sock = true
  vw : (s.pc = .listen ∨ s.pc = .spawn) → s.view ≠ .ready
  wt : s.pc = .wait → s.view = .ready → s.worker = .trigger ∨ s.worker = .loop
  tl : ∀ x, s.worker = .tell x → x.driver ≠ .ready

theorem fresh_inv (l : Bool) : Inv (Sys.fresh l) := by
  constructor <;> simp [Sys.fresh, Pc.starting, Pc.opening, Pc.closed, Pc.halted, State.initial, Wk.inside]

theorem worker_inv (s : Sys) (h : Inv s) (ec : Int) : Inv (s.workerStep ec) := by
  obtain ⟨h1, h2, h3, h4, h5, h6, h7, h8, h9, h10, h11, h12, h13, h14⟩ := h
  unfold Sys.workerStep
  split <;> constructor <;> grind [Sys.set, Sys.setDrv, Sys.setErr, Sys.tell, Wk.inside, notReady, Pc.starting, Pc.opening, Pc.closed, Pc.halted]

set_option maxHeartbeats 2000000 in
theorem caller_inv (s : Sys) (h : Inv s) (c : Choice) : Inv (s.callerStep c) := by
  obtain ⟨h1, h2, h3, h4, h5, h6, h7, h8, h9, h10, h11, h12, h13, h14⟩ := h
  unfold Sys.callerStep
  repeat' split
  all_goals constructor
  all_goals grind [Sys.set, Sys.setDrv, Sys.setErr, Sys.setInt, Sys.tell, Wk.inside, notReady, Pc.starting, Pc.opening, Pc.closed, Pc.halted, Sys.leave]

theorem begin_inv (s : Sys) (h : Inv s) (c : Call) : Inv (s.begin c) := by
  obtain ⟨h1, h2, h3, h4, h5, h6, h7, h8, h9, h10, h11, h12, h13, h14⟩ := h
  unfold Sys.begin
  constructor <;> grind [Pc.starting, Pc.opening, Pc.closed, Pc.halted]

theorem upd_inv (s : Sys) (h : Inv s) (u : Upd) (l : List Upd) : Inv { (s.updStep u).1 with upds := l } := by
  obtain ⟨h1, h2, h3, h4, h5, h6, h7, h8, h9, h10, h11, h12, h13, h14⟩ := h
  cases u <;> constructor <;> grind [Sys.updStep, Sys.set, Sys.setDrv, Sys.setErr, Sys.setInt, Sys.tell, Wk.inside, notReady, Pc.starting, Pc.opening, Pc.closed, Pc.halted]

theorem step_inv (s : Sys) (h : Inv s) (e : Ev) : Inv (s.step e) := by
  cases e with
  | call c => exact begin_inv s h c
  | caller c => exact caller_inv s h c
  | worker ec => exact worker_inv s h ec
  | upd i =>
    show Inv (match s.upds[i]? with
      | none => s
      | some u => _)
    split
    · exact h
    · exact upd_inv s h _ _
  | _ =>
    obtain ⟨h1, h2, h3, h4, h5, h6, h7, h8, h9, h10, h11, h12, h13, h14⟩ := h
    constructor <;> grind [Sys.step]

theorem run_inv (s : Sys) (h : Inv s) (evs : List Ev) : Inv (s.run evs) := by
  induction evs generalizing s with
  | nil => exact h
  | cons e es ih => exact ih _ (step_inv s h e)

/-- past the creation of the event loop -/
def Wk.past : Wk → Bool
  | .trigger | .loop | .err _ | .look2 | .store2 _ | .final | .tell _ | .done => true
  | _ => false

structure Jnv (s : Sys) : Prop extends Inv s where
  past : s.thread = true → s.pc ≠ .wait → s.pc.halted = false → s.worker = .trigger ∨ s.worker = .loop
  halt : s.thread = true → s.pc.halted = true → s.worker.past = true
  stop : s.pc.halted = true → s.thread = true → s.stopped = true

theorem worker_jnv (s : Sys) (h : Jnv s) (ec : Int) : Jnv (s.workerStep ec) := by
  refine ⟨worker_inv s h.toInv ec, ?_, ?_, ?_⟩ <;>
  obtain ⟨⟨h1, h2, h3, h4, h5, h6, h7, h8, h9, h10, h11, h12, h13, h14⟩, j1, j2, j3⟩ := h <;>
  unfold Sys.workerStep <;> split <;>
  grind [Sys.set, Sys.setDrv, Sys.setErr, Sys.tell, Wk.inside, Wk.past, notReady, Pc.starting, Pc.opening, Pc.closed, Pc.halted]

set_option maxHeartbeats 2000000 in
theorem caller_jnv (s : Sys) (h : Jnv s) (c : Choice) (hq : NoInitTimeout s (.caller c)) : Jnv (s.callerStep c) := by
  refine ⟨caller_inv s h.toInv c, ?_, ?_, ?_⟩ <;>
  obtain ⟨⟨h1, h2, h3, h4, h5, h6, h7, h8, h9, h10, h11, h12, h13, h14⟩, j1, j2, j3⟩ := h <;>
  have hq := hq c rfl <;>
  unfold Sys.callerStep
  all_goals repeat' split
  all_goals grind [Sys.set, Sys.setDrv, Sys.setErr, Sys.setInt, Sys.tell, Wk.inside, Wk.past, notReady, Pc.starting, Pc.opening, Pc.closed, Pc.halted, Sys.leave]

theorem begin_jnv (s : Sys) (h : Jnv s) (c : Call) : Jnv (s.begin c) := by
  refine ⟨begin_inv s h.toInv c, ?_, ?_, ?_⟩ <;>
  obtain ⟨⟨h1, h2, h3, h4, h5, h6, h7, h8, h9, h10, h11, h12, h13, h14⟩, j1, j2, j3⟩ := h <;>
  unfold Sys.begin <;> grind [Pc.starting, Pc.opening, Pc.closed, Pc.halted]

theorem upd_jnv (s : Sys) (h : Jnv s) (u : Upd) (l : List Upd) : Jnv { (s.updStep u).1 with upds := l } := by
  refine ⟨upd_inv s h.toInv u l, ?_, ?_, ?_⟩ <;>
  obtain ⟨⟨h1, h2, h3, h4, h5, h6, h7, h8, h9, h10, h11, h12, h13, h14⟩, j1, j2, j3⟩ := h <;>
  cases u <;> grind [Sys.updStep, Sys.set, Sys.setDrv, Sys.setErr, Sys.setInt, Sys.tell, notReady]

theorem step_jnv (s : Sys) (h : Jnv s) (e : Ev) (hq : NoInitTimeout s e) : Jnv (s.step e) := by
  cases e with
  | call c => exact begin_jnv s h c
  | caller c => exact caller_jnv s h c hq
  | worker ec => exact worker_jnv s h ec
  | upd i =>
    show Jnv (match s.upds[i]? with
      | none => s
      | some u => _)
    split
    · exact h
    · exact upd_jnv s h _ _
  | _ =>
    refine ⟨step_inv s h.toInv _, ?_, ?_, ?_⟩ <;>
    obtain ⟨⟨h1, h2, h3, h4, h5, h6, h7, h8, h9, h10, h11, h12, h13, h14⟩, j1, j2, j3⟩ := h <;>
    grind [Sys.step]

theorem fresh_jnv (l : Bool) : Jnv (Sys.fresh l) :=
  ⟨fresh_inv l, by simp [Sys.fresh], by simp [Sys.fresh], by simp [Sys.fresh]⟩

theorem run_jnv (s : Sys) (h : Jnv s) (evs : List Ev) (hq : Along NoInitTimeout s evs) : Jnv (s.run evs) := by
  induction evs generalizing s with
  | nil => exact h
  | cons e es ih => exact ih _ (step_jnv s h e hq.1) hq.2

structure Knv (s : Sys) : Prop extends Jnv s where
  upd : s.sock = false → Upd.store true ∉ s.upds
  cls : s.sock = false → (s.worker = .none ∨ s.worker = .final ∨ (∃ x, s.worker = .tell x) ∨ s.worker = .done) → s.st.driver = .closed
  st2 : ∀ o, s.worker = .store2 o → o = false

theorem halted_closed (p : Pc) : p.halted = true → p.closed = true := by cases p <;> simp [Pc.halted, Pc.closed]

theorem worker_knv (s : Sys) (h : Knv s) (ec : Int) : Knv (s.workerStep ec) := by
  refine ⟨worker_jnv s h.toJnv ec, ?_, ?_, ?_⟩ <;>
  obtain ⟨⟨⟨h1, h2, h3, h4, h5, h6, h7, h8, h9, h10, h11, h12, h13, h14⟩, j1, j2, j3⟩, k1, k2, k3⟩ := h <;>
  have hh := halted_closed s.pc <;>
  unfold Sys.workerStep <;> split <;>
  grind [Sys.set, Sys.setDrv, Sys.setErr, Sys.tell, Wk.inside, Wk.past, notReady, Pc.starting, Pc.opening, Pc.closed, Pc.halted]

set_option maxHeartbeats 2000000 in
theorem caller_knv (s : Sys) (h : Knv s) (c : Choice) (hq : NoInitTimeout s (.caller c)) (hc : QuietClose s (.caller c)) :
    Knv (s.callerStep c) := by
  refine ⟨caller_jnv s h.toJnv c hq, ?_, ?_, ?_⟩ <;>
  obtain ⟨⟨⟨h1, h2, h3, h4, h5, h6, h7, h8, h9, h10, h11, h12, h13, h14⟩, j1, j2, j3⟩, k1, k2, k3⟩ := h <;>
  have hq := hq c rfl <;> have hc := hc c rfl <;>
  unfold Sys.callerStep
  all_goals repeat' split
  all_goals grind [Sys.set, Sys.setDrv, Sys.setErr, Sys.setInt, Sys.tell, Wk.inside, Wk.past, notReady, Pc.starting, Pc.opening, Pc.closed, Pc.halted, Sys.leave]

theorem begin_knv (s : Sys) (h : Knv s) (c : Call) : Knv (s.begin c) := by
  refine ⟨begin_jnv s h.toJnv c, ?_, ?_, ?_⟩ <;>
  obtain ⟨_, k1, k2, k3⟩ := h <;>
  unfold Sys.begin <;> grind

theorem upd_knv (s : Sys) (h : Knv s) (u : Upd) (hu : u ∈ s.upds) (l : List Upd)
    (hl : ∀ v ∈ l, v ∈ s.upds ∨ (s.updStep u).2 = some v) : Knv { (s.updStep u).1 with upds := l } := by
  refine ⟨upd_jnv s h.toJnv u l, ?_, ?_, ?_⟩ <;>
  obtain ⟨_, k1, k2, k3⟩ := h <;>
  cases u <;> grind [Sys.updStep, Sys.set, Sys.setDrv, Sys.setErr, Sys.setInt, Sys.tell, notReady]

theorem step_knv (s : Sys) (h : Knv s) (e : Ev) (hq : NoInitTimeout s e) (hc : QuietClose s e) : Knv (s.step e) := by
  cases e with
  | call c => exact begin_knv s h c
  | caller c => exact caller_knv s h c hq hc
  | worker ec => exact worker_knv s h ec
  | upd i =>
    show Knv (match s.upds[i]? with
      | none => s
      | some u => _)
    split
    · exact h
    · rename_i u hu
      have hup : (s.updStep u).1.upds = s.upds := by
        cases u <;> simp only [Sys.updStep, Sys.setErr, Sys.setInt, Sys.setDrv, Sys.set, Sys.tell] <;> grind
      refine upd_knv s h u (List.mem_of_getElem? hu) _ ?_
      intro v hv
      revert hv
      rw [hup]
      cases hr : (s.updStep u).2 with
      | none => exact fun hv => Or.inl (List.mem_of_mem_eraseIdx hv)
      | some w =>
        intro hv
        rcases List.mem_or_eq_of_mem_set hv with hv | hv
        · exact Or.inl hv
        · exact Or.inr (by rw [hv])
  | _ =>
    refine ⟨step_jnv s h.toJnv _ hq, ?_, ?_, ?_⟩ <;>
    obtain ⟨_, k1, k2, k3⟩ := h <;>
    grind [Sys.step]

theorem fresh_knv (l : Bool) : Knv (Sys.fresh l) :=
  ⟨fresh_jnv l, by simp [Sys.fresh], by simp [Sys.fresh, State.initial], by simp [Sys.fresh]⟩

theorem run_knv (s : Sys) (h : Knv s) (evs : List Ev) (hq : Along NoInitTimeout s evs) (hc : Along QuietClose s evs) : Knv (s.run evs) := by
  induction evs generalizing s with
  | nil => exact h
  | cons e es ih => exact ih _ (step_knv s h e hq.1 hc.1) hq.2 hc.2

end Verif.CanL
