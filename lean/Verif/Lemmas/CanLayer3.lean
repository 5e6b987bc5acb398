import Verif.Lemmas.CanLayer2

set_option linter.unusedSimpArgs false
set_option linter.unusedVariables false

namespace Verif.CanL
open Verif Verif.Drv Verif.Lay Verif.Spec

theorem completed_induct {l : Bool} {c : Call} {pre mid : List Ev} (h : Completed l c pre mid) (Q R : Sys → Prop)
    (h0 : ((((Sys.fresh l).run pre).begin c)).pc ≠ .idle)
    (hs : Q (((Sys.fresh l).run pre).begin c))
    (hq : ∀ s e, Inv s → Q s → s.pc ≠ .idle → (s.step e).pc ≠ .idle → Q (s.step e))
    (hr : ∀ s e, Inv s → Q s → s.pc ≠ .idle → (s.step e).pc = .idle → R (s.step e)) :
    R ((Sys.fresh l).run (pre ++ .call c :: mid)) := by
  obtain ⟨h1, h2, h3⟩ := h
  have hi : Inv (((Sys.fresh l).run pre).begin c) := begin_inv _ (run_inv _ (fresh_inv l) pre) c
  have hrun : ∀ m, (Sys.fresh l).run (pre ++ .call c :: m) = (((Sys.fresh l).run pre).begin c).run m := by
    intro m; rw [run_append]; rfl
  rw [hrun] at h2 ⊢
  replace h3 : ∀ k, k < mid.length → ((((Sys.fresh l).run pre).begin c).run (mid.take k)).pc ≠ .idle := by
    intro k hk; rw [← hrun]; exact h3 k hk
  generalize ((Sys.fresh l).run pre).begin c = s at *
  clear hrun h1
  induction mid generalizing s with
  | nil => exact absurd h2 h0
  | cons e es ih =>
    show R ((s.step e).run es)
    cases es with
    | nil => exact hr s e hi hs h0 h2
    | cons e2 es =>
      have hn : (s.step e).pc ≠ .idle := h3 1 (by simp)
      exact ih (s.step e) hn (hq s e hi hs h0 hn) h2 (step_inv s hi e) (fun k hk => h3 (k + 1) (by simpa using hk))

/-- in `handleInit` -/
def Pc.initing : Pc → Bool
  | .init | .wait | .check => true
  | p => p.starting

/-- in `handleShutdown` -/
def Pc.ending : Pc → Bool
  | .sWaiter | .sListen | .close => true
  | p => p.closed

/-- steps of other threads leave the caller alone -/
theorem other_step (s : Sys) (e : Ev) (h : isCaller e = false) (hc : ∀ c, e ≠ .call c) :
    (s.step e).pc = s.pc ∧ (s.step e).again = s.again ∧ (s.step e).reports = s.reports ∧ (s.step e).layer = s.layer ∧
    (s.step e).ret = s.ret := by
  cases e with
  | call c => exact absurd rfl (hc c)
  | caller c => cases h
  | worker ec =>
    simp only [Sys.step, Sys.workerStep]
    split <;> grind [Sys.set, Sys.setDrv, Sys.setErr, Sys.tell]
  | upd i =>
    simp only [Sys.step]
    split
    · simp
    · rename_i u hu
      cases u <;> grind [Sys.updStep, Sys.set, Sys.setDrv, Sys.setErr, Sys.setInt, Sys.tell]
  | _ => grind [Sys.step]

theorem call_step (s : Sys) (c : Call) (h : s.pc ≠ .idle) : s.step (.call c) = s := by
  simp only [Sys.step, Sys.begin, if_pos h]

/-- reduces a claim about the running call to the steps of the caller -/
theorem only_caller {Q R : Sys → Prop} (s : Sys) (e : Ev) (h : s.pc ≠ .idle)
    (hQ : ∀ s', s'.pc = s.pc → s'.again = s.again → s'.reports = s.reports → s'.layer = s.layer → Q s')
    (hc : ∀ c, e = .caller c → ((s.callerStep c).pc ≠ .idle → Q (s.callerStep c)) ∧ ((s.callerStep c).pc = .idle → R (s.callerStep c))) :
    ((s.step e).pc ≠ .idle → Q (s.step e)) ∧ ((s.step e).pc = .idle → R (s.step e)) := by
  by_cases h1 : ∃ c, e = .call c
  · obtain ⟨c, rfl⟩ := h1
    rw [call_step s c h]; exact ⟨fun _ => hQ s rfl rfl rfl rfl, fun h' => absurd h' h⟩
  by_cases h2 : ∃ c, e = .caller c
  · obtain ⟨c, rfl⟩ := h2
    exact hc c rfl
  · obtain ⟨a, b, c, d, _⟩ := other_step s e (by cases e <;> first | rfl | (exact absurd ⟨_, rfl⟩ h2)) (fun c hx => h1 ⟨c, hx⟩)
    exact ⟨fun _ => hQ _ a b c d, fun h' => absurd (a ▸ h') h⟩

/-- no error was reported -/
def clean (s : Sys) : Bool := s.reports.all (fun r => !IsError r)

theorem clean_snoc (s : Sys) (r : Report) : (s.reports ++ [r]).all (fun r => !IsError r) = (clean s && !IsError r) := by
  simp [clean, List.all_append]

theorem running_of_ready {s : Sys} (h : Inv s) (hr : s.st.driver = .ready) (hc : s.pc.closed = false) : Running s := by
  have h1 := h.rdy hr
  have hw : s.worker = .trigger ∨ s.worker = .loop := by
    by_cases a : s.worker = .trigger
    · exact Or.inl a
    · by_cases b : s.worker = .loop
      · exact Or.inr b
      · exact absurd (halted_closed _ (h.fin h1 a b)) (by simp [hc])
  have ht : s.thread = true := by
    cases ht : s.thread with
    | true => rfl
    | false => rw [h.thr.1 ht] at hw; simp at hw
  refine ⟨hr, h.up ht hc, ht, h.one, h.stp (by rcases hw with hw | hw <;> simp [hw]) ?_, hw⟩
  cases hh : s.pc.halted with
  | false => rfl
  | true => exact absurd (halted_closed _ hh) (by simp [hc])

set_option maxHeartbeats 1000000 in
theorem init_caller (s : Sys) (c : Choice) (hi : Inv s) (hl : s.layer = true) (ha : s.again = false) (hp : s.pc.initing = true) :
    ((s.callerStep c).pc ≠ .idle → (s.callerStep c).layer = true ∧ (s.callerStep c).again = false ∧ (s.callerStep c).pc.initing = true) ∧
    ((s.callerStep c).pc = .idle → clean (s.callerStep c) = true → Running (s.callerStep c)) := by
  have hr := fun h => running_of_ready hi h
  unfold Running at *
  unfold Sys.callerStep clean
  split
  all_goals repeat' split
  all_goals grind [Sys.leave, Pc.initing, Pc.starting, Pc.opening, Pc.closed, Sys.set, Sys.setDrv, Sys.setErr, Sys.setInt, Sys.tell, IsError]

theorem shut_caller (s : Sys) (c : Choice) (hi : Inv s) (hl : s.layer = true) (ha : s.again = false) (hp : s.pc.ending = true) (hc : clean s = true) :
    ((s.callerStep c).pc ≠ .idle → (s.callerStep c).layer = true ∧ (s.callerStep c).again = false ∧ (s.callerStep c).pc.ending = true ∧ clean (s.callerStep c) = true) ∧
    ((s.callerStep c).pc = .idle → clean (s.callerStep c) = true) := by
  unfold Sys.callerStep clean at *
  split
  all_goals repeat' split
  all_goals grind [Sys.leave, Pc.ending, Pc.closed, IsError]

theorem down_caller (s : Sys) (c : Choice) (hi : Inv s) (ha : s.again = false) (hp : s.pc.ending = true) :
    ((s.callerStep c).pc ≠ .idle → (s.callerStep c).again = false ∧ (s.callerStep c).pc.ending = true) ∧
    ((s.callerStep c).pc = .idle → (s.callerStep c).thread = false) := by
  unfold Sys.callerStep
  split
  all_goals repeat' split
  all_goals grind [Sys.leave, Pc.ending, Pc.closed]

set_option maxHeartbeats 1000000 in
theorem recover_caller (s : Sys) (c : Choice) (hi : Inv s) (hl : s.layer = true)
    (hp : s.pc = .recover ∧ s.again = false ∨ s.again = true ∧ s.pc.ending = true) :
    (s.callerStep c).layer = true ∧ ((s.callerStep c).pc ≠ .idle → (s.callerStep c).pc = .recover ∧ (s.callerStep c).again = false ∨ (s.callerStep c).again = true ∧ (s.callerStep c).pc.ending = true ∨
      (s.callerStep c).again = false ∧ (s.callerStep c).pc.initing = true) ∧
    ((s.callerStep c).pc = .idle → Running (s.callerStep c)) := by
  have hr := fun h => running_of_ready hi h
  unfold Running at *
  unfold Sys.callerStep
  split
  all_goals repeat' split
  all_goals grind [Sys.leave, Pc.initing, Pc.ending, Pc.closed]

set_option maxHeartbeats 1000000 in
theorem thr_caller (s : Sys) (c : Choice) (hi : Inv s) (hl : s.layer = false) (ha : s.again = false) (hp : s.pc.initing = true) :
    ((s.callerStep c).pc ≠ .idle → (s.callerStep c).layer = false ∧ (s.callerStep c).again = false ∧ (s.callerStep c).pc.initing = true) ∧
    ((s.callerStep c).pc = .idle → (∃ b, (s.callerStep c).ret = some b) ∧ ((s.callerStep c).ret = some true →
      (s.callerStep c).thread = true ∧ (s.callerStep c).sock = true ∧ (s.callerStep c).stopped = false ∧
      ((s.callerStep c).worker = .trigger ∨ (s.callerStep c).worker = .loop))) := by
  have hr := fun h => running_of_ready hi h
  unfold Running at hr
  obtain ⟨h1, h2, h3, h4, h5, h6, h7, h8, h9, h10, h11, h12, h13, h14⟩ := hi
  unfold Sys.callerStep
  split
  all_goals repeat' split
  all_goals grind [Sys.leave, Pc.initing, Pc.starting, Pc.opening, Pc.closed, Pc.halted, Sys.set, Sys.setDrv, Sys.setErr, Sys.setInt, Sys.tell]

theorem step_layer (s : Sys) (e : Ev) : (s.step e).layer = s.layer := by
  cases e with
  | call c => simp only [Sys.step, Sys.begin]; repeat' split
              all_goals rfl
  | caller c =>
    simp only [Sys.step, Sys.callerStep]
    repeat' split
    all_goals grind [Sys.leave, Sys.set, Sys.setDrv, Sys.setErr, Sys.setInt, Sys.tell]
  | _ => exact (other_step s _ rfl (by intro c h; cases h)).2.2.2.1

theorem run_layer (s : Sys) (evs : List Ev) : (s.run evs).layer = s.layer := by
  induction evs generalizing s with
  | nil => rfl
  | cons e es ih => exact (ih (s.step e)).trans (step_layer s e)

theorem again_step (s : Sys) (h : s.again = true → s.pc.ending = true) (e : Ev) : (s.step e).again = true → (s.step e).pc.ending = true := by
  cases e with
  | call c => simp only [Sys.step, Sys.begin]; repeat' split
              all_goals grind [Pc.ending, Pc.closed]
  | caller c =>
    simp only [Sys.step, Sys.callerStep]
    repeat' split
    all_goals grind [Sys.leave, Sys.set, Sys.setDrv, Sys.setErr, Sys.setInt, Sys.tell, Pc.ending, Pc.closed]
  | _ =>
    rw [(other_step s _ rfl (by intro c h; cases h)).1, (other_step s _ rfl (by intro c h; cases h)).2.1]
    exact h

theorem idle_again (l : Bool) (evs : List Ev) (h : ((Sys.fresh l).run evs).pc = .idle) : ((Sys.fresh l).run evs).again = false := by
  have key : ∀ (evs : List Ev) (s : Sys), (s.again = true → s.pc.ending = true) → (s.run evs).again = true → (s.run evs).pc.ending = true := by
    intro evs
    induction evs with
    | nil => exact fun s h => h
    | cons e es ih => exact fun s h => ih _ (again_step s h e)
  cases ha : ((Sys.fresh l).run evs).again with
  | false => rfl
  | true => have := key evs _ (by simp [Sys.fresh]) ha; rw [h] at this; cases this

theorem along_of_check (P : Sys → Ev → Prop) (f : Sys → Ev → Bool) (h : ∀ s e, f s e = true → P s e) :
    ∀ (evs : List Ev) (s : Sys), (evs.foldl (fun (a : Bool × Sys) e => (a.1 && f a.2 e, a.2.step e)) (true, s)).1 = true → Along P s evs := by
  intro evs
  have mono : ∀ (evs : List Ev) (a : Bool × Sys),
      (evs.foldl (fun (a : Bool × Sys) e => (a.1 && f a.2 e, a.2.step e)) a).1 = true → a.1 = true := by
    intro evs
    induction evs with
    | nil => exact fun a h => h
    | cons e es ih =>
      intro a h
      have := ih _ h
      simp only [Bool.and_eq_true] at this
      exact this.1
  induction evs with
  | nil => exact fun _ _ => trivial
  | cons e es ih =>
    intro s hx
    simp only [List.foldl_cons, Bool.true_and] at hx
    have h1 := mono es _ hx
    dsimp only at h1
    rw [h1] at hx
    exact ⟨h s e h1, ih _ hx⟩

theorem other_thread (s : Sys) (e : Ev) (he : Others e) (h : s.thread = false) (hw : s.worker = .none) : (s.step e).thread = false := by
  cases e with
  | call c => exact he.elim
  | caller c => exact he.elim
  | worker ec => simp only [Sys.step, Sys.workerStep, hw]; exact h
  | upd i =>
    simp only [Sys.step]
    split
    · exact h
    · rename_i u hu
      cases u <;> grind [Sys.updStep, Sys.set, Sys.setDrv, Sys.setErr, Sys.setInt, Sys.tell]
  | _ => grind [Sys.step]

/-- remaining steps of a call -/
def rank : Pc → Nat
  | .idle => 0 | .check => 1 | .wait => 2 | .spawn => 3 | .listen => 4 | .waiter => 5 | .drvOpen => 6 | .drvInt => 7 | .drvErr => 8 | .drvElse => 6
  | .drvFail _ => 2 | .drvTest => 9 | .init => 10 | .join => 11 | .sWait => 12 | .stop => 13 | .close => 14 | .sListen => 15 | .sWaiter => 16 | .recover => 17

/-- `again` only during the shutdown of `recover` -/
def AgainOk (s : Sys) : Prop := s.again = true → 11 ≤ rank s.pc ∧ rank s.pc ≤ 16

theorem rank_le (p : Pc) : rank p ≤ 17 := by cases p <;> simp [rank]

theorem set_pc (s : Sys) (x) : (s.set x).pc = s.pc := by unfold Sys.set Sys.tell; split <;> (try split) <;> rfl
theorem set_again (s : Sys) (x) : (s.set x).again = s.again := by unfold Sys.set Sys.tell; split <;> (try split) <;> rfl

theorem caller_rank (s : Sys) (c : Choice) (h : AgainOk s) (hi : s.pc ≠ .idle) :
    AgainOk (s.callerStep c) ∧ ((s.callerStep c).pc ≠ s.pc → rank (s.callerStep c).pc < rank s.pc) ∧
    ((s.callerStep c).pc = s.pc → s.pc = .wait ∨ s.pc = .sWait ∨ s.pc = .join) := by
  unfold AgainOk at *
  generalize hr : s.callerStep c = r
  unfold Sys.callerStep at hr
  cases hp : s.pc <;> rw [hp] at h hi <;> simp [rank] at h hi <;> simp only [hp] at hr
  all_goals (try simp only [Sys.leave] at hr)
  all_goals (repeat' (split at hr))
  all_goals subst hr
  all_goals simp_all [rank, set_again, Sys.setErr, Sys.setInt, Sys.setDrv]

theorem other_pc (s : Sys) (e : Ev) (h : Others e) : (s.step e).pc = s.pc ∧ (s.step e).again = s.again := by
  cases e with
  | caller c => cases h
  | call c => cases h
  | worker ec =>
    show (s.workerStep ec).pc = _ ∧ (s.workerStep ec).again = _
    unfold Sys.workerStep
    split <;> grind [Sys.set, Sys.setDrv, Sys.setErr, Sys.tell]
  | upd i =>
    simp only [Sys.step]
    split
    · exact ⟨rfl, rfl⟩
    · rename_i u _
      cases u <;> grind [Sys.updStep, Sys.set, Sys.setDrv, Sys.setErr, Sys.setInt, Sys.tell]
  | _ => simp only [Sys.step]; split <;> exact ⟨rfl, rfl⟩

theorem ev_cases (e : Ev) : (∃ c, e = .caller c) ∨ (∃ c, e = .call c) ∨ Others e := by
  cases e <;> simp [Others]

theorem step_again (s : Sys) (e : Ev) (h : AgainOk s) : AgainOk (s.step e) := by
  by_cases hi : s.pc = .idle
  · have ha : s.again = false := by
      cases hx : s.again
      · rfl
      · have := h hx; rw [hi] at this; simp [rank] at this
    rcases ev_cases e with ⟨c, rfl⟩ | ⟨c, rfl⟩ | ho
    · show AgainOk (s.callerStep c)
      unfold Sys.callerStep; rw [hi]; exact h
    · show AgainOk (s.begin c)
      unfold Sys.begin
      rw [if_neg (by simp [hi])]
      cases c <;> dsimp only <;> (try split) <;> intro hx <;> simp_all
    · intro hx; rw [(other_pc s _ ho).2, ha] at hx; cases hx
  · rcases ev_cases e with ⟨c, rfl⟩ | ⟨c, rfl⟩ | ho
    · exact (caller_rank s c h hi).1
    · have : s.step (.call c) = s := by show s.begin c = s; unfold Sys.begin; rw [if_pos hi]
      rw [this]; exact h
    · intro hx; rw [(other_pc s _ ho).1]; exact h (by rwa [(other_pc s _ ho).2] at hx)

theorem run_again (evs : List Ev) : ∀ s, AgainOk s → AgainOk (s.run evs) := by
  induction evs with
  | nil => exact fun _ h => h
  | cons e es ih => exact fun s h => ih _ (step_again s e h)

theorem moves_rank (mid : List Ev) : ∀ s, AgainOk s → (∀ k ≤ mid.length, (s.run (mid.take k)).pc ≠ .idle) → moves s mid + rank (s.run mid).pc ≤ rank s.pc := by
  induction mid with
  | nil => intro s _ _; simp [moves, Sys.run]
  | cons e es ih =>
    intro s h hk
    have h0 : s.pc ≠ .idle := by simpa [Sys.run] using hk 0 (Nat.zero_le _)
    have := ih (s.step e) (step_again s e h) (fun k hle => by simpa [Sys.run] using hk (k + 1) (by simpa using hle))
    have hrun : s.run (e :: es) = (s.step e).run es := rfl
    rw [hrun, moves]
    split
    · rename_i hc
      cases e with
      | caller c =>
        have : rank (s.step (.caller c)).pc < rank s.pc := (caller_rank s c h h0).2.1 hc.2
        omega
      | _ => exact absurd hc.1 (by simp [isCaller])
    · rename_i hc
      have : rank (s.step e).pc ≤ rank s.pc := by
        by_cases hpc : (s.step e).pc = s.pc
        · rw [hpc]; exact Nat.le_refl _
        · rcases ev_cases e with ⟨c, rfl⟩ | ⟨c, rfl⟩ | ho
          · exact absurd ⟨rfl, hpc⟩ hc
          · have : s.step (.call c) = s := by show s.begin c = s; unfold Sys.begin; rw [if_pos h0]
            rw [this]; exact Nat.le_refl _
          · exact absurd (other_pc s _ ho).1 hpc
      omega

end Verif.CanL
