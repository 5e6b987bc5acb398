import Verif.Lemmas.Layer

/-!
# C18 - C23: layers, groups, stacks
-/

set_option linter.unusedSimpArgs false

namespace Verif.Props
open Verif Verif.Lay Verif.Spec

variable {σ : Type}

/-- C18.  After any sequence of reports the severity is the worst of the initial and the reported ones. -/
theorem C18_status_worst (s : Status) (rs : List Report) :
    (rs.foldl Status.report s).sev.toNat = rs.foldl (fun a r => max a (reportSev r)) s.sev.toNat := by
  induction rs generalizing s with
  | nil => rfl
  | cons r rs ih =>
    rw [List.foldl_cons, List.foldl_cons, ih]
    congr 1
    cases r <;> exact (set_mono _ _ _).2.2

example : ([Report.warn "a".toList, .error [], .warn "b".toList].foldl Status.report Status.initial).sev.toNat = 2 := by decide

/-- C18.  The reason text is the non-empty reported texts, in order, separated by "; ". -/
theorem C18_reasons (rs : List Report) :
    (rs.foldl Status.report Status.initial).reason =
      "; ".toList.intercalate ((rs.map reportText).filter (· ≠ [])) := by
  have gen : ∀ (rs : List Report) (s : Status) (pre : List Text), (∀ p ∈ pre, p ≠ []) → s.reason = "; ".toList.intercalate pre →
      (rs.foldl Status.report s).reason = "; ".toList.intercalate (pre ++ (rs.map reportText).filter (· ≠ [])) := by
    intro rs
    induction rs with
    | nil => intro s pre _ h; simpa using h
    | cons r rs ih =>
      intro s pre hpre h
      rw [List.foldl_cons]
      have hreason : (s.report r).reason = if reportText r ≠ [] then
          (if s.reason = [] then reportText r else s.reason ++ "; ".toList ++ reportText r) else s.reason := by
        cases r <;> rfl
      by_cases hr : reportText r = []
      · rw [ih _ pre hpre (by rw [hreason]; simp [hr, h])]
        simp [hr]
      · rw [ih _ (pre ++ [reportText r]) (by
            intro p hp
            rcases List.mem_append.1 hp with hp | hp
            · exact hpre p hp
            · rw [List.mem_singleton] at hp; subst hp; exact hr) ?_]
        · simp [hr]
        · rw [hreason, if_pos hr]
          cases pre with
          | nil => simp [List.intercalate] at h ⊢; simp [h]
          | cons p ps =>
            have hne : s.reason ≠ [] := by
              rw [h]
              intro hc
              have hp := hpre p (by simp)
              cases ps with
              | nil => simp [List.intercalate] at hc; exact hp hc
              | cons q qs => simp [List.intercalate, List.intersperse] at hc
            rw [if_neg hne, h]
            have app : ∀ (l : List Text) (x : Text), l ≠ [] →
                "; ".toList.intercalate (l ++ [x]) = "; ".toList.intercalate l ++ "; ".toList ++ x := by
              intro l x hl
              induction l with
              | nil => exact absurd rfl hl
              | cons a l ihl =>
                cases l with
                | nil => simp [List.intercalate, List.intersperse]
                | cons b l =>
                  have := ihl (by simp)
                  simp [List.intercalate, List.intersperse] at this ⊢
                  exact this
            rw [app (p :: ps) _ (by simp)]
  simpa using gen rs Status.initial [] (by simp) rfl

example : ([Report.warn "a".toList, .error [], .warn "b".toList].foldl Status.report Status.initial) =
    { sev := .error, reason := "a; b".toList } := by decide

theorem sv_atMostWarn (e : Env σ) : sv e ≤ 1 ↔ AtMostWarn e.status := by
  unfold sv AtMostWarn
  cases e.status.sev <;> simp [Sev.toNat]

/-- C19.  Whatever its handlers do or throw, a single layer in a settled state moves exactly as the life cycle says. -/
theorem C19_layer_life_cycle (id : Nat) (s : LayerState) (hs : Settled s) (h : Handlers σ) (tr : List Method) (m : Method)
    (e : Env σ) (okay : Bool) (hok : okay = true ↔ AtMostWarn ((Tree.leaf id s h tr).call m e).2.status) :
    ((Tree.leaf id s h tr).call m e).1.state = nextLeaf s m okay := by
  have hu : Uniform s (Tree.leaf id s h tr) := by rw [uniform_leaf]
  rw [← sv_atMostWarn] at hok
  apply uniform_state
  cases m with
  | read =>
    have : nextLeaf s .read okay = s := by rcases hs with rfl | rfl | rfl <;> rfl
    rw [this]
    simp only [Tree.call, Tree.read]; split <;> rw [uniform_leaf]
  | write =>
    have : nextLeaf s .write okay = s := by rcases hs with rfl | rfl | rfl <;> rfl
    rw [this]
    simp only [Tree.call, Tree.write]; split <;> rw [uniform_leaf]
  | diag =>
    have : nextLeaf s .diag okay = s := by rcases hs with rfl | rfl | rfl <;> rfl
    rw [this]; exact diag_uniform s _ e hu
  | init =>
    simp only [Tree.call] at *
    rcases hs with rfl | rfl | rfl
    · obtain ⟨p, q⟩ := init_uniform _ e hu
      cases okay
      · exact q (by have := mt hok.2 (by simp); omega)
      · exact p (hok.1 rfl)
    · simp [Tree.init, nextLeaf, uniform_leaf]
    · simp [Tree.init, nextLeaf, uniform_leaf]
  | shutdown =>
    have : nextLeaf s .shutdown okay = .off := by rcases hs with rfl | rfl | rfl <;> rfl
    rw [this]; exact shutdown_uniform s _ e hu
  | halt =>
    have : nextLeaf s .halt okay = haltState s := by rcases hs with rfl | rfl | rfl <;> rfl
    rw [this]; exact halt_uniform s _ e hu
  | recover =>
    simp only [Tree.call] at *
    rcases hs with rfl | rfl | rfl
    · simp [Tree.recover, nextLeaf, uniform_leaf]
    · obtain ⟨p, q⟩ := recover_uniform _ e hu
      cases okay
      · exact q (by have := mt hok.2 (by simp); omega)
      · exact p (hok.1 rfl)
    · simp [Tree.recover, nextLeaf, uniform_leaf]

/-- an init handler that throws: the layer is off again -/
example : let h : Handlers Unit := ⟨fun m _ w _ => match m with | .init => (w, [], some "x".toList) | _ => (w, [], none)⟩
    Settled .off ∧ ((Tree.leaf 1 .off h []).call .init { world := (), status := .initial, log := [] }).1.state = .off ∧
    nextLeaf .off .init false = .off := ⟨Or.inl rfl, rfl, rfl⟩

/-- C19 for groups and stacks of any shape: the group with all its direct and indirect members moves as one layer. -/
theorem C19_group_life_cycle (t : Tree σ) (hg : IsGroup t) (s : LayerState) (hs : Settled s) (hu : Uniform s t) (m : Method)
    (e : Env σ) (okay : Bool) (hok : okay = true ↔ AtMostWarn (t.call m e).2.status) :
    Uniform (nextGroup s m okay) (t.call m e).1 := by
  rw [← sv_atMostWarn] at hok
  have hex : ∃ b st ms, t = Tree.group b st ms := by
    cases t with
    | leaf => cases hg
    | group b st ms => exact ⟨b, st, ms, rfl⟩
  have hst := uniform_state s t hu
  cases m with
  | read =>
    simp only [Tree.call] at *
    rcases hs with rfl | rfl | rfl
    · rw [off_read t e hst]; exact hu
    · obtain ⟨p, q, r⟩ := read_uniform .error (Or.inl rfl) t e hu
      by_cases hc : sv (t.read e).2 ≤ 1
      · exact p hc
      · exact r (by omega) hex
    · obtain ⟨p, q, r⟩ := read_uniform .ready (Or.inr rfl) t e hu
      cases okay
      · exact r (by have := mt hok.2 (by simp); omega) hex
      · exact p (hok.1 rfl)
  | write =>
    simp only [Tree.call] at *
    rcases hs with rfl | rfl | rfl
    · rw [off_write t e hst]; exact hu
    · obtain ⟨p, q, r⟩ := write_uniform .error (Or.inl rfl) t e hu
      by_cases hc : sv (t.write e).2 ≤ 1
      · exact p hc
      · exact r (by omega) hex
    · obtain ⟨p, q, r⟩ := write_uniform .ready (Or.inr rfl) t e hu
      cases okay
      · exact r (by have := mt hok.2 (by simp); omega) hex
      · exact p (hok.1 rfl)
  | diag =>
    have : nextGroup s .diag okay = s := by rcases hs with rfl | rfl | rfl <;> rfl
    rw [this]; exact diag_uniform s _ e hu
  | init =>
    simp only [Tree.call] at *
    rcases hs with rfl | rfl | rfl
    · obtain ⟨p, q⟩ := init_uniform _ e hu
      cases okay
      · exact q (by have := mt hok.2 (by simp); omega)
      · exact p (hok.1 rfl)
    · obtain ⟨b, st, ms, rfl⟩ := hex
      simp only [Tree.state] at hst; subst hst
      simpa [Tree.init, nextGroup, nextLeaf] using hu
    · obtain ⟨b, st, ms, rfl⟩ := hex
      simp only [Tree.state] at hst; subst hst
      simpa [Tree.init, nextGroup, nextLeaf] using hu
  | shutdown =>
    have : nextGroup s .shutdown okay = .off := by rcases hs with rfl | rfl | rfl <;> rfl
    rw [this]; exact shutdown_uniform s _ e hu
  | halt =>
    have : nextGroup s .halt okay = haltState s := by rcases hs with rfl | rfl | rfl <;> rfl
    rw [this]; exact halt_uniform s _ e hu
  | recover =>
    simp only [Tree.call] at *
    rcases hs with rfl | rfl | rfl
    · obtain ⟨b, st, ms, rfl⟩ := hex
      simp only [Tree.state] at hst; subst hst
      simpa [Tree.recover, nextGroup, nextLeaf] using hu
    · obtain ⟨p, q⟩ := recover_uniform _ e hu
      cases okay
      · exact q (by have := mt hok.2 (by simp); omega)
      · exact p (hok.1 rfl)
    · obtain ⟨b, st, ms, rfl⟩ := hex
      simp only [Tree.state] at hst; subst hst
      simpa [Tree.recover, nextGroup, nextLeaf] using hu

example : let h : Handlers Unit := ⟨fun _ _ w _ => (w, [], none)⟩
    IsGroup (Tree.group true .off [.leaf 1 .off h [], .group false .off [.leaf 2 .off h []]]) ∧
    Uniform .off (Tree.group true .off [.leaf 1 .off h [], .group false .off [.leaf 2 .off h []]]) ∧ nextGroup .off .init true = .ready := by
  refine ⟨trivial, ?_, rfl⟩
  simp [Uniform, UniformAll]

theorem nextGroup_settled (s : LayerState) (hs : Settled s) (m : Method) (b : Bool) : Settled (nextGroup s m b) := by
  rcases hs with rfl | rfl | rfl <;> cases m <;> cases b <;> simp [nextGroup, nextLeaf, Settled]

theorem isGroup_call (t : Tree σ) (h : IsGroup t) (m : Method) (e : Env σ) : IsGroup (t.call m e).1 := by
  cases t with
  | leaf => cases h
  | group b st ms =>
    have hS : ∀ b st (ms : List (Tree σ)) e, IsGroup ((Tree.group b st ms).shutdown e).1 := by
      intro b st ms e; unfold Tree.shutdown; dsimp only; (repeat' split) <;> trivial
    have hH : ∀ b st (ms : List (Tree σ)) e, IsGroup ((Tree.group b st ms).halt e).1 := by
      intro b st ms e; unfold Tree.halt; dsimp only; (repeat' split) <;> trivial
    have hF : ∀ r b st (ms : List (Tree σ)) e, IsGroup (failTail r b st ms e).1 := by
      intro r b st ms e; unfold failTail; dsimp only; (repeat' split) <;> first | exact hH .. | trivial
    cases m <;> simp only [Tree.call]
    · unfold Tree.read; dsimp only; (repeat' split) <;> first | exact hF .. | trivial
    · unfold Tree.write; dsimp only; (repeat' split) <;> first | exact hF .. | trivial
    · unfold Tree.diag; dsimp only; (repeat' split) <;> trivial
    · unfold Tree.init finishInit; dsimp only; (repeat' split) <;> first | exact hS .. | trivial
    · exact hS ..
    · exact hH ..
    · unfold Tree.recover finishRecover; dsimp only; (repeat' split) <;> first | exact hH .. | trivial

/-- C19.  After every history of calls on a group or stack that started off, all its layers, at every depth, are in the same
settled state: all off, all in error, or all ready. -/
theorem C19_group_history (ops : List (Method × Status)) (t : Tree σ) (hg : IsGroup t) (hu : Uniform .off t) (e : Env σ) :
    ∃ s, Settled s ∧ Uniform s (t.run e ops).1 := by
  have gen : ∀ (ops : List (Method × Status)) (t : Tree σ) (e : Env σ) (s : LayerState), IsGroup t → Settled s → Uniform s t →
      ∃ s', Settled s' ∧ Uniform s' (t.run e ops).1 := by
    intro ops
    induction ops with
    | nil => intro t e s _ hs hu; exact ⟨s, hs, hu⟩
    | cons o ops ih =>
      intro t e s hg hs hu
      obtain ⟨m, st⟩ := o
      by_cases hc : AtMostWarn (t.call m { e with status := st }).2.status
      · exact ih _ _ _ (isGroup_call t hg m _) (nextGroup_settled s hs m true)
          (C19_group_life_cycle t hg s hs hu m _ true (by simp [hc]))
      · exact ih _ _ _ (isGroup_call t hg m _) (nextGroup_settled s hs m false)
          (C19_group_life_cycle t hg s hs hu m _ false (by simp [hc]))
  exact gen ops t e .off hg (Or.inl rfl) hu

/-- start-up, a halt and a recovery of a stack with two layers -/
example : let h : Handlers Unit := ⟨fun _ _ w _ => (w, [], none)⟩
    let t := Tree.group true .off [.leaf 1 .off h [], .leaf 2 .off h []]
    (t.run { world := (), status := .initial, log := [] } [(.init, .initial), (.halt, .initial)]).1.state = .error ∧
    (t.run { world := (), status := .initial, log := [] } [(.init, .initial), (.halt, .initial), (.recover, .initial)]).1.state = .ready :=
  ⟨rfl, rfl⟩

/-- C19.  A layer becomes ready only by an init or recover call that ended with at most a warning. -/
theorem C19_ready_only_after_success (t : Tree σ) (hg : IsGroup t) (s : LayerState) (hs : Settled s) (hu : Uniform s t)
    (m : Method) (e : Env σ) (hb : s ≠ .ready) (ha : (t.call m e).1.state = .ready) :
    (m = .init ∨ m = .recover) ∧ AtMostWarn (t.call m e).2.status := by
  by_cases hc : AtMostWarn (t.call m e).2.status
  · have := uniform_state _ _ (C19_group_life_cycle t hg s hs hu m e true (by simp [hc]))
    rw [this] at ha
    refine ⟨?_, hc⟩
    rcases hs with rfl | rfl | rfl <;> cases m <;> simp [nextGroup, nextLeaf] at ha hb ⊢
  · have := uniform_state _ _ (C19_group_life_cycle t hg s hs hu m e false (by simp [hc]))
    rw [this] at ha
    rcases hs with rfl | rfl | rfl <;> cases m <;> simp [nextGroup, nextLeaf] at ha hb

/-- a handler that fails to initialise and throws on shutdown -/
def badHandlers : Handlers Unit := ⟨fun m _ w _ =>
  match m with
  | .init => (w, [.error "no".toList], none)
  | .shutdown => (w, [], some "boom".toList)
  | _ => (w, [], none)⟩
/-- handlers that only warn -/
def goodHandlers : Handlers Unit := ⟨fun m _ w _ => match m with
  | .init => (w, [.warn "hm".toList], none)
  | _ => (w, [], none)⟩

def exampleStack : Tree Unit :=
  .group true .off [.leaf 1 .off goodHandlers [], .group false .off [.leaf 2 .off goodHandlers [], .leaf 3 .off badHandlers [], .leaf 4 .off goodHandlers []]]

example : IsGroup exampleStack ∧ Uniform .off exampleStack ∧ Settled .off := by
  refine ⟨trivial, ?_, Or.inl rfl⟩
  simp [exampleStack, Uniform, UniformAll]

/-- C20.  For every history of calls on a freshly built tree of layers of any shape, the handlers of every leaf layer are only
invoked in the order the life cycle allows (init only when off, shutdown only when not off, halt only when running, recover
only when halted, read/write/diag never when off), and its state is the corresponding one. -/
theorem C20_handlers_follow_life_cycle (ops : List (Method × Status)) (t : Tree σ) (hf : Fresh t) (e : Env σ) :
    LifeOk (t.run e ops).1 := by
  apply run_life
  have : ∀ t : Tree σ, Fresh t → LifeOk t := by
    intro t
    induction t using Tree.induct with
    | leaf id st h tr => intro hf; rw [Fresh] at hf; rw [lifeOk_leaf, hf.1, hf.2]; exact ⟨.off, rfl, rfl⟩
    | group stack st ms ih =>
      intro hf
      rw [Fresh] at hf
      have hall : ∀ ms : List (Tree σ), FreshAll ms → ∀ t ∈ ms, Fresh t := by
        intro ms
        induction ms with
        | nil => simp
        | cons t ts ih =>
          intro h x hx
          rw [FreshAll] at h
          rcases List.mem_cons.1 hx with rfl | hx
          · exact h.1
          · exact ih h.2 x hx
      rw [lifeOk_group]
      exact fun t ht => ih t ht (hall ms hf.2 t ht)
  exact this t hf

example : let h : Handlers Unit := ⟨fun _ _ w _ => (w, [], none)⟩
    Fresh (Tree.group true .off [.leaf 1 .off h [], .group false .off [.leaf 2 .off h []]]) := by
  simp [Fresh, FreshAll]

/-- C20.  Which handlers a call on a single settled layer invokes, exactly. -/
theorem C20_leaf_invocations (id : Nat) (s : LayerState) (hs : Settled s) (h : Handlers σ) (tr : List Method) (m : Method)
    (e : Env σ) (entryOk : Bool) (hent : entryOk = true ↔ AtMostWarn e.status) :
    ((Tree.leaf id s h tr).call m e).2.log = e.log ++
      ((match m, s with
        | .read, .off => []
        | .read, _ => [.read]
        | .write, .off => []
        | .write, _ => [.write]
        | .diag, .off => []
        | .diag, _ => [.diag]
        | .shutdown, .off => []
        | .shutdown, _ => [.shutdown]
        | .halt, .ready => [.halt]
        | .halt, _ => []
        | .init, .off => if entryOk then
            (if (callHandler id h .init .init e).status.boundedWarn then [.init] else [.init, .shutdown]) else []
        | .init, _ => []
        | .recover, .error => if entryOk then
            (if (callHandler id h .recover .recover e).status.boundedWarn then [.recover] else [.recover, .halt]) else []
        | .recover, _ => [] : List Method).map fun x => (id, x)) := by
  have hent' : e.status.boundedWarn = entryOk := by
    rw [Bool.eq_iff_iff, bounded_iff, sv_atMostWarn, hent]
  rcases hs with rfl | rfl | rfl <;> cases m <;>
    simp [Tree.call, Tree.read, Tree.write, Tree.diag, Tree.shutdown, Tree.halt, Tree.init, Tree.recover, LayerState.toNat,
      finishInit, finishRecover, hent', callHandler]
  · cases entryOk
    · simp [hent', Tree.shutdown]
    · simp only [if_true]
      split <;> simp_all [Tree.shutdown, callHandler]
  · cases entryOk
    · simp [hent', Tree.halt, LayerState.toNat]
    · simp only [if_true]
      split <;> simp_all [Tree.halt, callHandler, LayerState.toNat]

/-- a failed init is followed by a shutdown -/
example : Settled .off ∧ ((Tree.leaf 1 .off badHandlers []).call .init { world := (), status := .initial, log := [] }).2.log =
    [(1, .init), (1, .shutdown)] := ⟨Or.inl rfl, rfl⟩

/-- what a handler said, an exception being an error with its text -/
def saidBy (x : σ × List Report × Option Text) : List Report := x.2.1 ++ (x.2.2.map Report.error).toList

theorem callHandler_said (id : Nat) (h : Handlers σ) (m : Method) (s : LayerState) (e : Env σ) :
    (callHandler id h m s e).status = (saidBy (h.run m s e.world e.status)).foldl Status.report e.status ∧
    (callHandler id h m s e).world = (h.run m s e.world e.status).1 := by
  refine ⟨?_, rfl⟩
  simp only [callHandler, saidBy]
  rw [List.foldl_append]
  cases hx : (h.run m s e.world e.status).2.2 with
  | none => rfl
  | some t => rfl

/-- C20.  In a settled state other than off, read, write and diag of a single layer call the handler once with the state the layer is in
and the status so far; all it reports is added to the status, and an exception counts as one more report, an error with its text. -/
theorem C20_cyclic_handlers (id : Nat) (s : LayerState) (hs : s = .error ∨ s = .ready) (h : Handlers σ) (tr : List Method) (m : Method)
    (hm : m = .read ∨ m = .write ∨ m = .diag) (e : Env σ) :
    ((Tree.leaf id s h tr).call m e).2.world = (h.run m s e.world e.status).1 ∧
    ((Tree.leaf id s h tr).call m e).2.status = (saidBy (h.run m s e.world e.status)).foldl Status.report e.status := by
  have hr : ((Tree.leaf id s h tr).call m e).2 = callHandler id h m s e := by
    rcases hs with rfl | rfl <;> rcases hm with rfl | rfl | rfl <;> rfl
  rw [hr]
  exact ⟨(callHandler_said id h m s e).2, (callHandler_said id h m s e).1⟩

example : let h : Handlers Nat := ⟨fun _ s w _ => (w + s.toNat, [.warn "a".toList], some "b".toList)⟩
    ((Tree.leaf 1 .error h []).call .read { world := 10, status := .initial, log := [] }).2.world = 13 ∧
    ((Tree.leaf 1 .error h []).call .read { world := 10, status := .initial, log := [] }).2.status = { sev := .error, reason := "a; b".toList } := by
  decide

/-- C20.  Likewise init, recover, halt and shutdown where the life cycle calls for them: the handler is called with the status so far, and
what it reports or throws is added; after a failed init the shutdown handler adds its reports, after a failed recover the halt
handler. -/
theorem C20_transition_handlers (id : Nat) (h : Handlers σ) (tr : List Method) (e : Env σ) :
    (∀ s, s ≠ LayerState.off → ((Tree.leaf id s h tr).call .shutdown e).2.status =
      (saidBy (h.run .shutdown .shutdown e.world e.status)).foldl Status.report e.status) ∧
    (((Tree.leaf id .ready h tr).call .halt e).2.status = (saidBy (h.run .halt .halt e.world e.status)).foldl Status.report e.status) ∧
    (AtMostWarn e.status → ∀ st w, st = (saidBy (h.run .init .init e.world e.status)).foldl Status.report e.status →
      w = (h.run .init .init e.world e.status).1 →
      ((Tree.leaf id .off h tr).call .init e).2.status = if st.boundedWarn then st else (saidBy (h.run .shutdown .shutdown w st)).foldl Status.report st) ∧
    (AtMostWarn e.status → ∀ st w, st = (saidBy (h.run .recover .recover e.world e.status)).foldl Status.report e.status →
      w = (h.run .recover .recover e.world e.status).1 →
      ((Tree.leaf id .error h tr).call .recover e).2.status = if st.boundedWarn then st else (saidBy (h.run .halt .halt w st)).foldl Status.report st) := by
  have hc := callHandler_said id h
  refine ⟨?_, ?_, ?_, ?_⟩
  · intro s hs
    simp only [Tree.call, Tree.shutdown, if_pos hs]
    exact (hc _ _ _).1
  · simp only [Tree.call, Tree.halt]
    rw [if_pos (by decide)]
    exact (hc _ _ _).1
  · intro he st w hst hw
    have hb : e.status.boundedWarn = true := (bounded_iff e).2 ((sv_atMostWarn e).2 he)
    have h1 := hc .init .init e
    rw [← hst, ← hw] at h1
    simp only [Tree.call, Tree.init, if_true, hb, finishInit, h1.1]
    cases hbw : st.boundedWarn with
    | true => simp [h1.1]
    | false =>
      simp only [Bool.not_false, if_true, Tree.shutdown, ne_eq, reduceCtorEq, not_false_eq_true, Bool.false_eq_true, if_false]
      rw [(hc _ _ _).1, h1.1, h1.2]
  · intro he st w hst hw
    have hb : e.status.boundedWarn = true := (bounded_iff e).2 ((sv_atMostWarn e).2 he)
    have h1 := hc .recover .recover e
    rw [← hst, ← hw] at h1
    simp only [Tree.call, Tree.recover, if_true, hb, finishRecover, h1.1]
    cases hbw : st.boundedWarn with
    | true => simp [h1.1]
    | false =>
      simp only [Bool.not_false, if_true, Tree.halt, Bool.false_eq_true, if_false]
      rw [if_pos (by decide), (hc _ _ _).1, h1.1, h1.2]

example : ((Tree.leaf 1 .ready badHandlers []).call .shutdown { world := (), status := .initial, log := [] }).2.status = { sev := .error, reason := "boom".toList } := by
  decide

/-- C20.  Order of the members of a group or stack in the other calls: halt and diag go through all members in order of addition,
shutdown of a plain group too. -/
theorem C20_member_order (stack : Bool) (st : LayerState) (ms : List (Tree σ)) (e : Env σ) :
    (st = .ready → ∃ ms' e', InOrder Tree.halt ms e ms' e' ∧ (Tree.group stack st ms).halt e = (.group stack .error ms', e')) ∧
    (st = .ready ∨ st = .error → ∃ ms' e', InOrder Tree.diag ms e ms' e' ∧ (Tree.group stack st ms).diag e = (.group stack st ms', e')) ∧
    (st ≠ .off → stack = false → ∃ ms' e', InOrder Tree.shutdown ms e ms' e' ∧ (Tree.group stack st ms).shutdown e = (.group stack .off ms', e')) := by
  refine ⟨?_, ?_, ?_⟩
  · rintro rfl
    refine ⟨_, _, seqF_inOrder Tree.halt ms e, ?_⟩
    rw [Tree.halt, if_pos (by decide)]
    simp only [haltList_eq]
  · intro h
    refine ⟨_, _, seqF_inOrder Tree.diag ms e, ?_⟩
    rw [Tree.diag, if_pos (by rcases h with rfl | rfl <;> decide)]
    simp only [diagList_eq]
  · rintro h rfl
    refine ⟨_, _, seqF_inOrder Tree.shutdown ms e, ?_⟩
    rw [Tree.shutdown, if_pos h]
    simp only [shutdownList_eq, Bool.false_eq_true, if_false]

example : ((Tree.group true .ready [Tree.leaf 1 .ready goodHandlers [], .leaf 2 .ready badHandlers []]).halt
      { world := (), status := .initial, log := [] }).2.log = [(1, .halt), (2, .halt)] ∧
    ((Tree.group false .ready [Tree.leaf 1 .ready goodHandlers [], .leaf 2 .ready badHandlers []]).shutdown
      { world := (), status := .initial, log := [] }).2.log = [(1, .shutdown), (2, .shutdown)] := by decide

/-- C19.  Recovery of a group or stack whose members are all in error: either every member is recovered in order, all end ready and the
status is at most a warning; or the first failing member ends it, the members after it are not asked to recover, and everything is
in error again. -/
theorem C19_recover_all_or_nothing (stack : Bool) (ms : List (Tree σ)) (hu : Uniform .error (Tree.group stack .error ms)) (e : Env σ)
    (he : AtMostWarn e.status) :
    let r := (Tree.group stack .error ms).recover e
    (∃ ms', InOrder Tree.recover ms e ms' r.2 ∧ AtMostWarn r.2.status ∧ r.1 = .group stack .ready ms' ∧ ∀ t ∈ ms', Uniform .ready t) ∨
    (∃ pre m post pre' e1, ms = pre ++ m :: post ∧
      InOrder Tree.recover pre e pre' e1 ∧ AtMostWarn e1.status ∧ ¬ AtMostWarn (m.recover e1).2.status ∧
      r = (Tree.group stack .recover (pre' ++ (m.recover e1).1 :: post)).halt (m.recover e1).2 ∧
      ¬ AtMostWarn r.2.status ∧ Uniform .error r.1) := by
  rw [← sv_atMostWarn] at he
  obtain ⟨hi1, hi2⟩ := recover_uniform _ e hu
  have hb : e.status.boundedWarn = true := (bounded_iff e).2 he
  simp only
  have hdef : (Tree.group stack .error ms).recover e =
      finishRecover (.group stack .recover (seqS Tree.recover ms true e).1) (seqS Tree.recover ms true e).2 := by
    rw [Tree.recover]; simp [hb, recoverList_eq]
  rcases seqS_cases Tree.recover recover_mono ms e he with ⟨h1, h2⟩ | ⟨pre, m, post, pre', e1, h1, h2, h3, h4, h5⟩
  · left
    have hr : (Tree.group stack .error ms).recover e =
        (.group stack .ready (seqS Tree.recover ms true e).1, (seqS Tree.recover ms true e).2) := by
      rw [hdef, finishRecover, if_neg]
      rw [not_bounded_iff]; omega
    rw [hr] at hi1 ⊢
    refine ⟨_, h1, (sv_atMostWarn _).1 h2, rfl, ?_⟩
    have := hi1 h2
    rw [uniform_group] at this
    exact this.2
  · right
    have hr : (Tree.group stack .error ms).recover e =
        (Tree.group stack .recover (pre' ++ (m.recover e1).1 :: post)).halt (m.recover e1).2 := by
      rw [hdef, h5, finishRecover, if_pos]
      rw [not_bounded_iff]; exact h4
    have hmono := halt_mono (Tree.group stack .recover (pre' ++ (m.recover e1).1 :: post)) (m.recover e1).2
    have hsv : 1 < sv ((Tree.group stack .error ms).recover e).2 := by rw [hr]; omega
    refine ⟨pre, m, post, pre', e1, h1, h2, (sv_atMostWarn _).1 h3, ?_, hr, ?_, hi2 hsv⟩
    · rw [← sv_atMostWarn]; omega
    · rw [← sv_atMostWarn]; omega

example : Uniform .error (Tree.group true .error [Tree.leaf 1 .error goodHandlers [], .leaf 2 .error badHandlers []]) ∧
    ((Tree.group true .error [Tree.leaf 1 .error goodHandlers [], .leaf 2 .error badHandlers []]).recover { world := (), status := .initial, log := [] }).2.log =
      [(1, .recover), (2, .recover)] := by
  refine ⟨by simp [Uniform, UniformAll], by decide⟩

example : Fresh exampleStack := by simp [exampleStack, Fresh, FreshAll]

/-- C21.  Start-up of a group or stack whose members are all off: either every member is initialised in order, all end ready and
the status is at most a warning; or the first failing member ends it, the members after it are untouched (no handler of them
ran), and everything ends off. -/
theorem C21_startup_all_or_nothing (stack : Bool) (ms : List (Tree σ)) (hu : Uniform .off (Tree.group stack .off ms)) (e : Env σ)
    (he : AtMostWarn e.status) :
    let r := (Tree.group stack .off ms).init e
    (∃ ms', InOrder Tree.init ms e ms' r.2 ∧ AtMostWarn r.2.status ∧ r.1 = .group stack .ready ms' ∧ ∀ t ∈ ms', Uniform .ready t) ∨
    (∃ pre m post pre' e1 pre'' m'', ms = pre ++ m :: post ∧
      InOrder Tree.init pre e pre' e1 ∧ AtMostWarn e1.status ∧ ¬ AtMostWarn (m.init e1).2.status ∧
      ¬ AtMostWarn r.2.status ∧ r.1 = .group stack .off (pre'' ++ m'' :: post) ∧ Uniform .off r.1) := by
  rw [← sv_atMostWarn] at he
  obtain ⟨hi1, hi2⟩ := init_uniform _ e hu
  have hu' := (uniform_group _ _ _ _).1 hu
  have hb : e.status.boundedWarn = true := (bounded_iff e).2 he
  simp only
  have hdef : (Tree.group stack .off ms).init e =
      finishInit (.group stack .init (seqS Tree.init ms true e).1) (seqS Tree.init ms true e).2 := by
    rw [Tree.init]; simp [hb, initList_eq]
  rcases seqS_cases Tree.init init_mono ms e he with ⟨h1, h2⟩ | ⟨pre, m, post, pre', e1, h1, h2, h3, h4, h5⟩
  · left
    have hr : (Tree.group stack .off ms).init e =
        (.group stack .ready (seqS Tree.init ms true e).1, (seqS Tree.init ms true e).2) := by
      rw [hdef, finishInit, if_neg]
      rw [not_bounded_iff]; omega
    rw [hr] at hi1 ⊢
    refine ⟨_, h1, (sv_atMostWarn _).1 h2, rfl, ?_⟩
    have := hi1 h2
    rw [uniform_group] at this
    exact this.2
  · right
    have hr : (Tree.group stack .off ms).init e =
        (Tree.group stack .init (pre' ++ (m.init e1).1 :: post)).shutdown (m.init e1).2 := by
      rw [hdef, h5, finishInit, if_pos]
      rw [not_bounded_iff]; exact h4
    have hmono := shutdown_mono (Tree.group stack .init (pre' ++ (m.init e1).1 :: post)) (m.init e1).2
    have hsv : 1 < sv ((Tree.group stack .off ms).init e).2 := by rw [hr]; omega
    -- members that are off are not touched by the shutdown
    have offF : ∀ (l : List (Tree σ)) e, (∀ t ∈ l, Uniform .off t) → seqF Tree.shutdown l e = (l, e) := by
      intro l
      induction l with
      | nil => intro e _; rfl
      | cons t ts ih =>
        intro e h
        have h0 : t.shutdown e = (t, e) := by
          have := uniform_state _ _ (h t (by simp))
          cases t <;> simp only [Tree.state] at this <;> subst this <;> simp [Tree.shutdown]
        simp [seqF, h0, ih e (fun x hx => h x (by simp [hx]))]
    have offR : ∀ (l : List (Tree σ)) e, (∀ t ∈ l, Uniform .off t) → seqR Tree.shutdown l e = (l, e) := by
      intro l
      induction l with
      | nil => intro e _; rfl
      | cons t ts ih =>
        intro e h
        have h0 : t.shutdown e = (t, e) := by
          have := uniform_state _ _ (h t (by simp))
          cases t <;> simp only [Tree.state] at this <;> subst this <;> simp [Tree.shutdown]
        simp [seqR, h0, ih e (fun x hx => h x (by simp [hx]))]
    have lenF : ∀ (l : List (Tree σ)) e, (seqF Tree.shutdown l e).1.length = l.length := by
      intro l; induction l with
      | nil => intro e; rfl
      | cons t ts ih => intro e; simp [seqF, ih]
    have appF : ∀ (a b : List (Tree σ)) e, seqF Tree.shutdown (a ++ b) e =
        ((seqF Tree.shutdown a e).1 ++ (seqF Tree.shutdown b (seqF Tree.shutdown a e).2).1,
         (seqF Tree.shutdown b (seqF Tree.shutdown a e).2).2) := by
      intro a b; induction a with
      | nil => intro e; rfl
      | cons t ts ih => intro e; simp [seqF, ih]
    have appR : ∀ (a b : List (Tree σ)) e, seqR Tree.shutdown (a ++ b) e =
        ((seqR Tree.shutdown a (seqR Tree.shutdown b e).2).1 ++ (seqR Tree.shutdown b e).1,
         (seqR Tree.shutdown a (seqR Tree.shutdown b e).2).2) := by
      intro a b; induction a with
      | nil => intro e; rfl
      | cons t ts ih => intro e; simp [seqR, ih]
    have hpost : ∀ t ∈ post, Uniform .off t := fun t ht => hu'.2 t (by rw [h1]; simp [ht])
    have hshape : ∃ pre'' m'', ((Tree.group stack .init (pre' ++ (m.init e1).1 :: post)).shutdown (m.init e1).2).1 =
        .group stack .off (pre'' ++ m'' :: post) := by
      unfold Tree.shutdown
      rw [if_pos (by simp)]
      cases stack
      · simp only [Bool.false_eq_true, if_false, shutdownList_eq, appF]
        refine ⟨(seqF Tree.shutdown pre' (m.init e1).2).1,
          ((m.init e1).1.shutdown (seqF Tree.shutdown pre' (m.init e1).2).2).1, ?_⟩
        rw [seqF]
        simp only [offF post _ hpost]
      · simp only [if_true, shutdownRev_eq, appR]
        refine ⟨(seqR Tree.shutdown pre' ((m.init e1).1.shutdown (m.init e1).2).2).1,
          ((m.init e1).1.shutdown (m.init e1).2).1, ?_⟩
        rw [seqR]
        simp only [offR post _ hpost]
    obtain ⟨pre'', m'', hsh⟩ := hshape
    refine ⟨pre, m, post, pre', e1, pre'', m'', h1, h2, (sv_atMostWarn _).1 h3, ?_, ?_, ?_, hi2 hsv⟩
    · rw [← sv_atMostWarn]; omega
    · rw [← sv_atMostWarn]; omega
    · rw [hr]; exact hsh

/-- the second case happens -/
example : let e : Env Unit := { world := (), status := .initial, log := [] }
    (exampleStack.init e).2.log = [(1, .init), (2, .init), (3, .init), (3, .shutdown), (2, .shutdown), (1, .shutdown)] ∧
    AtMostWarn e.status := by
  refine ⟨by decide, Or.inl rfl⟩

/-- C22.  Shutting down a stack that is not off calls shutdown on every member exactly once, in reverse order of addition, and
everything is off afterwards, whatever the handlers report or throw. -/
theorem C22_shutdown_reverse_complete (st : LayerState) (hst : st ≠ .off) (ms : List (Tree σ)) (h : ∀ t ∈ ms, ∃ s, Uniform s t)
    (e : Env σ) :
    let r := (Tree.group true st ms).shutdown e
    Uniform .off r.1 ∧ ∃ ms', r.1 = .group true .off ms' ∧ InOrder Tree.shutdown ms.reverse e ms'.reverse r.2 := by
  refine ⟨shutdown_group _ _ hst ms h e, ?_⟩
  unfold Tree.shutdown
  rw [if_pos hst]
  simp only [if_true, shutdownRev_eq]
  exact ⟨_, rfl, seqR_inOrder _ _ _⟩

example : ∀ t ∈ [Tree.leaf 1 .ready goodHandlers [], .leaf 2 .error badHandlers []], ∃ s, Uniform s t := by
  intro t ht
  simp only [List.mem_cons, List.not_mem_nil, or_false] at ht
  rcases ht with rfl | rfl
  · exact ⟨.ready, by simp [Uniform]⟩
  · exact ⟨.error, by simp [Uniform]⟩

/-- C22.  For a stack of plain layers that are not off: the shutdown handlers run once each, last layer first. -/
theorem C22_shutdown_handler_order (st : LayerState) (hst : st ≠ .off)
    (ls : List (Nat × LayerState × Handlers σ × List Method)) (h : ∀ l ∈ ls, l.2.1 ≠ .off) (e : Env σ) :
    ((Tree.group true st (ls.map fun l => .leaf l.1 l.2.1 l.2.2.1 l.2.2.2)).shutdown e).2.log =
      e.log ++ (ls.map (fun l => (l.1, Method.shutdown))).reverse := by
  unfold Tree.shutdown
  rw [if_pos hst]
  simp only [if_true, shutdownRev_eq]
  induction ls generalizing e with
  | nil => simp [seqR]
  | cons l ls ih =>
    simp only [List.map_cons, seqR, List.reverse_cons]
    rw [Tree.shutdown, if_pos (h l (by simp))]
    simp only [callHandler]
    rw [ih (fun x hx => h x (by simp [hx])) e]
    simp

/-- a shutdown handler that throws does not keep the others from being called -/
example : let t : Tree Unit := .group true .ready [.leaf 1 .ready goodHandlers [], .leaf 2 .error badHandlers [], .leaf 3 .ready goodHandlers []]
    (t.shutdown { world := (), status := .initial, log := [] }).2.log = [(3, .shutdown), (2, .shutdown), (1, .shutdown)] := by
  decide

/-- C23.  Reading a group or stack that is not off: every member is called exactly once in order, whatever the others report.
If the status is at most a warning, no state changes at any depth; otherwise nothing is left running at any depth. -/
theorem C23_read_cycle (stack : Bool) (s : LayerState) (hs : s = .error ∨ s = .ready) (ms : List (Tree σ))
    (hu : Uniform s (Tree.group stack s ms)) (e : Env σ) :
    let r := (Tree.group stack s ms).read e
    (∃ ms' e', InOrder Tree.read ms e ms' e' ∧ (AtMostWarn e'.status → r = (.group stack s ms', e')) ∧
      (AtMostWarn e'.status ↔ AtMostWarn r.2.status)) ∧
    (AtMostWarn r.2.status → Uniform s r.1) ∧ (¬ AtMostWarn r.2.status → Uniform .error r.1) := by
  obtain ⟨p, q, w⟩ := read_uniform s hs _ e hu
  have hoff : s.toNat > LayerState.off.toNat := by rcases hs with rfl | rfl <;> decide
  refine ⟨?_, ?_, ?_⟩
  · refine ⟨_, _, seqF_inOrder Tree.read ms e, ?_, ?_⟩
    · intro hok
      rw [Tree.read, if_pos hoff]
      simp only [readList_eq]
      rw [failTail, if_neg]
      rw [not_bounded_iff]; rw [← sv_atMostWarn] at hok; omega
    · rw [← sv_atMostWarn, ← sv_atMostWarn, Tree.read, if_pos hoff]
      simp only [readList_eq]
      constructor
      · intro hle
        rw [failTail, if_neg]
        · exact hle
        · rw [not_bounded_iff]; omega
      · intro hle
        exact Nat.le_trans (failTail_mono _ _ _ _ _) hle
  · rw [← sv_atMostWarn]; exact p
  · rw [← sv_atMostWarn]; intro h; exact w (by omega) ⟨_, _, _, rfl⟩

/-- a member that fails in `read` does not keep the next one from being read; then all are halted -/
example : let bad : Handlers Unit := ⟨fun m _ w _ => match m with | .read => (w, [], some "x".toList) | _ => (w, [], none)⟩
    let t : Tree Unit := .group true .ready [.leaf 1 .ready bad [], .leaf 2 .ready goodHandlers []]
    Uniform .ready t ∧ (t.read { world := (), status := .initial, log := [] }).2.log =
      [(1, .read), (2, .read), (1, .halt), (2, .halt)] := by
  refine ⟨?_, by decide⟩
  simp [Uniform, UniformAll]

/-- C23 for write: a group calls its members in order, a stack in reverse order. -/
theorem C23_write_cycle (stack : Bool) (s : LayerState) (hs : s = .error ∨ s = .ready) (ms : List (Tree σ))
    (hu : Uniform s (Tree.group stack s ms)) (e : Env σ) :
    let r := (Tree.group stack s ms).write e
    (∃ ms' e', (if stack then InOrder Tree.write ms.reverse e ms'.reverse e' else InOrder Tree.write ms e ms' e') ∧
      (AtMostWarn e'.status → r = (.group stack s ms', e')) ∧ (AtMostWarn e'.status ↔ AtMostWarn r.2.status)) ∧
    (AtMostWarn r.2.status → Uniform s r.1) ∧ (¬ AtMostWarn r.2.status → Uniform .error r.1) := by
  obtain ⟨p, q, w⟩ := write_uniform s hs _ e hu
  have hoff : s.toNat > LayerState.off.toNat := by rcases hs with rfl | rfl <;> decide
  have tail : ∀ (rev : Bool) ms' (e' : Env σ), (AtMostWarn e'.status → failTail rev stack s ms' e' = (.group stack s ms', e')) ∧
      (AtMostWarn e'.status ↔ AtMostWarn (failTail rev stack s ms' e').2.status) := by
    intro rev ms' e'
    rw [← sv_atMostWarn, ← sv_atMostWarn]
    refine ⟨?_, ?_, ?_⟩
    · intro h; rw [failTail, if_neg]; rw [not_bounded_iff]; omega
    · intro h
      rw [failTail, if_neg]
      · exact h
      · rw [not_bounded_iff]; omega
    · intro h; exact Nat.le_trans (failTail_mono _ _ _ _ _) h
  refine ⟨?_, ?_, ?_⟩
  · cases stack
    · refine ⟨_, _, seqF_inOrder Tree.write ms e, ?_⟩
      rw [Tree.write, if_pos hoff]
      simp only [writeList_eq, Bool.false_eq_true, if_false]
      exact tail false _ _
    · refine ⟨_, _, seqR_inOrder Tree.write ms e, ?_⟩
      rw [Tree.write, if_pos hoff]
      simp only [writeRev_eq, if_true]
      exact tail true _ _
  · rw [← sv_atMostWarn]; exact p
  · rw [← sv_atMostWarn]; intro h; exact w (by omega) ⟨_, _, _, rfl⟩

/-- a ready stack with a member that fails in `write`: everything ends in error, and the writes ran last layer first -/
example : let bad : Handlers Unit := ⟨fun m _ w _ => match m with | .write => (w, [], some "x".toList) | _ => (w, [], none)⟩
    let t : Tree Unit := .group true .ready [.leaf 1 .ready goodHandlers [], .leaf 2 .ready bad [], .leaf 3 .ready goodHandlers []]
    Uniform .ready t ∧ (t.write { world := (), status := .initial, log := [] }).2.log =
      [(3, .write), (2, .write), (1, .write), (3, .halt), (2, .halt), (1, .halt)] := by
  refine ⟨?_, by decide⟩
  simp [Uniform, UniformAll]

end Verif.Props
