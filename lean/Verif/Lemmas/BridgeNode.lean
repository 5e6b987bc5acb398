import Verif.Spec.BridgeNode
import Verif.Lemmas.Threaded

/-!
# Lemmas about the programs of the bridge
-/

set_option linter.unusedSimpArgs false

namespace Verif.Brn
open Verif Verif.Drv Verif.Thr Verif.Bridge Verif.Flt Verif.Spec Verif.Spec.Thr Verif.Spec.Brn

theorem node_run_append (n : Node) (es fs : List NEv) : n.run (es ++ fs) = (n.run es).run fs := by
  induction es generalizing n with
  | nil => rfl
  | cons e es ih => exact ih _

/-- frames are only added to those delivered -/
theorem delivered_prefix (s : TD) (e : Ev) : s.delivered <+: (s.step e).delivered := by
  cases e with
  | read w =>
    simp only [TD.step]
    split
    · split
      · rw [readDone_delivered]; exact List.prefix_refl _
      · exact List.prefix_refl _
    · exact List.prefix_refl _
  | spawn =>
    simp only [TD.step]
    split
    · rw [trigger_delivered]; exact List.prefix_refl _
    · exact List.prefix_refl _
  | init dev lb em fm sys =>
    simp only [TD.step, TD.init]
    repeat' split
    all_goals exact List.prefix_refl _
  | join sys =>
    simp only [TD.step, TD.joined]
    repeat' split
    all_goals exact List.prefix_refl _
  | _ =>
    simp only [TD.step]
    repeat' split
    all_goals simp

/-- a step that is no call of `init` or `recover` -/
def plain (e : Ev) : Prop := isInit e = false ∧ isRecover e = false

theorem internal_plain (e : Ev) (h : internal e = true) : plain e := by
  cases e <;> first | exact ⟨rfl, rfl⟩ | cases h

theorem ownStep_internal (e : Ev) (h : ownStep e = true) : internal e = true := by
  cases e <;> first | rfl | cases h

/-- `wire` is changed by `send` only -/
theorem wire_step (s : TD) (e : Ev) (h : internal e = true ∨ e = .shutdown) : (s.step e).d.wire = s.d.wire := by
  have hset : ∀ d : Driver, ∀ x, (d.setErrorCode x).wire = d.wire := by intro d x; unfold Driver.setErrorCode; split <;> rfl
  have hint : ∀ d : Driver, ∀ x, (d.setInternalError x).wire = d.wire := by intro d x; unfold Driver.setInternalError; split <;> rfl
  have hdrv : ∀ d : Driver, ∀ x, (d.setDriverState x).wire = d.wire := by intro d x; unfold Driver.setDriverState; split <;> rfl
  have hnr : ∀ d : Driver, d.setNotReady.wire = d.wire := by intro d; unfold Driver.setNotReady; exact hdrv _ _
  have hok : ∀ d : Driver, ∀ k, (d.readOk k).wire = d.wire := by
    intro d k
    unfold Driver.readOk
    dsimp only
    split
    · rw [hnr, hint]
    · rfl
  cases e with
  | init dev lb em fm sys => rcases h with h | h <;> cases h
  | recover => rcases h with h | h <;> cases h
  | send f ec => rcases h with h | h <;> cases h
  | read w =>
    simp only [TD.step]
    split
    · split
      · unfold TD.readDone
        split
        · rw [trigger_d]; exact hok _ _
        · show (s.d.readError _).wire = _
          unfold Driver.readError
          rw [hnr, hset]
      · rfl
    · rfl
  | spawn =>
    simp only [TD.step]
    split
    · rw [trigger_d]
    · rfl
  | join sys =>
    simp only [TD.step, TD.joined]
    split
    · split
      · split
        · split
          · rename_i b d hd
            show d.wire = s.d.wire
            unfold Driver.init at hd
            split at hd
            · split at hd
              · cases hd
              · split at hd
                · cases hd; exact hset _ _
                · cases hd; show (Driver.setDriverState _ _).wire = _; rw [hdrv, hint, hset]
            · cases hd; rfl
          · rfl
        · rfl
      · rfl
    · rfl
  | begin =>
    simp only [TD.step]
    split
    · split
      · exact hnr _
      · exact hnr _
    · rfl
  | reset =>
    simp only [TD.step]
    split
    · exact hdrv _ _
    · rfl
  | endLoop =>
    simp only [TD.step]
    split
    · show (s.d.runEnd 0).wire = _
      unfold Driver.runEnd
      show (Driver.setNotReady _).wire = _
      rw [hnr, hset]
    · rfl
  | _ =>
    simp only [TD.step]
    repeat' split
    all_goals rfl

/-- the thread of the driver has passed its start -/
def Past (t : Thread) : Prop := t ≠ .created ∧ t ≠ .checked

theorem past_step (s : TD) (e : Ev) (hp : plain e) (h : Past s.thread) : Past (s.step e).thread := by
  cases e with
  | init dev lb em fm sys => cases hp.1
  | recover => cases hp.2
  | begin => simp only [TD.step]; rw [if_neg h.1]; exact h
  | reset => simp only [TD.step]; rw [if_neg h.2]; exact h
  | spawn =>
    simp only [TD.step]
    split
    · rw [trigger_thread]; exact ⟨(fun h => nomatch h), (fun h => nomatch h)⟩
    · exact h
  | read w =>
    simp only [TD.step]
    split
    · split
      · rename_i e hs hh
        rw [(readDone_spec { s with handlers := hs } e).1]; exact h
      · exact h
    · exact h
  | endLoop =>
    simp only [TD.step]
    split
    · exact ⟨(fun h => nomatch h), (fun h => nomatch h)⟩
    · exact h
  | join sys =>
    simp only [TD.step, TD.joined]
    split
    · split
      · split
        · split
          · exact ⟨(fun h => nomatch h), (fun h => nomatch h)⟩
          · exact ⟨(fun h => nomatch h), (fun h => nomatch h)⟩
        · exact ⟨(fun h => nomatch h), (fun h => nomatch h)⟩
      · exact h
    · exact h
  | _ =>
    simp only [TD.step]
    repeat' split
    all_goals exact h

/-- while `main` spins: nobody waits, the event loop is not stopped, the thread is there -/
structure Spinning (s : TD) : Prop where
  user : s.user = .idle
  stopped : s.stopped = false
  thread : s.thread = .begun ∨ s.thread = .loop

theorem spinning_step (s : TD) (e : Ev) (h : Spinning s) (hi : internal e = true ∨ ∃ f ec, e = .send f ec) : Spinning (s.step e) := by
  have h0 := h
  obtain ⟨h1, h2, h3⟩ := h
  have hth : s.thread ≠ .created ∧ s.thread ≠ .checked := by rcases h3 with h | h <;> rw [h] <;> decide
  cases e with
  | init dev lb em fm sys => rcases hi with h | ⟨_, _, h⟩ <;> cases h
  | recover => rcases hi with h | ⟨_, _, h⟩ <;> cases h
  | shutdown => rcases hi with h | ⟨_, _, h⟩ <;> cases h
  | waited t => simp only [TD.step]; rw [if_neg (by rw [h1]; rintro ⟨h, -⟩; cases h)]; exact h0
  | close => simp only [TD.step, h1]; exact ⟨h1, h2, h3⟩
  | stop => simp only [TD.step, h1]; exact ⟨h1, h2, h3⟩
  | join sys => simp only [TD.step, h1]; exact ⟨h1, h2, h3⟩
  | begin => simp only [TD.step]; rw [if_neg hth.1]; exact h0
  | reset => simp only [TD.step]; rw [if_neg hth.2]; exact h0
  | endLoop => simp only [TD.step]; rw [if_neg (by rw [h2]; rintro ⟨h, -⟩; cases h)]; exact h0
  | spawn =>
    simp only [TD.step]
    split
    · exact ⟨by simpa using h1, by simpa using h2, .inr (by simp)⟩
    · exact h0
  | read w =>
    simp only [TD.step]
    split
    · split
      · rename_i e hs hh
        obtain ⟨r1, r2, r3, -⟩ := readDone_spec { s with handlers := hs } e
        exact ⟨by rw [r3]; exact h1, by rw [r2]; exact h2, by rw [r1]; exact h3⟩
      · exact h0
    · exact h0
  | _ =>
    simp only [TD.step]
    repeat' split
    all_goals exact ⟨h1, h2, h3⟩

/-- what `init` has returned, in a first session: nothing as long as it runs, then its result; after true the thread has started and nobody waits -/
structure First (s : TD) : Prop where
  waiting : s.user = .waiting → s.results = []
  idle : s.user = .idle → s.results = [.init true] ∧ Spinning s ∨ s.results = [.init false]
  user : s.user = .waiting ∨ s.user = .idle
  stopped : s.stopped = false

theorem first_step (s : TD) (e : Ev) (hg : Glob s) (h : First s) (hi : internal e = true) : First (s.step e) := by
  have h0 := h
  obtain ⟨h1, h2, h3, h4⟩ := h
  have hspin : s.user = .idle → First (s.step e) ∨ s.results = [.init false] := by
    intro hu
    rcases h2 hu with ⟨h, hs⟩ | h
    · refine .inl ?_
      have hs' := spinning_step s e hs (.inl hi)
      have hr : (s.step e).results = s.results := by
        cases e with
        | init dev lb em fm sys => cases hi
        | recover => cases hi
        | shutdown => cases hi
        | waited t => simp only [TD.step]; rw [if_neg (by rw [hu]; rintro ⟨h, -⟩; cases h)]
        | join sys => simp only [TD.step, hu]
        | spawn =>
          simp only [TD.step]
          split
          · simp
          · rfl
        | read w =>
          simp only [TD.step]
          split
          · split
            · rename_i e hs hh
              exact (readDone_spec { s with handlers := hs } e).2.2.2.2.2.2.1
            · rfl
          · rfl
        | _ =>
          simp only [TD.step]
          repeat' split
          all_goals rfl
      refine ⟨?_, ?_, .inr hs'.user, hs'.stopped⟩
      · intro hw; rw [hs'.user] at hw; cases hw
      · intro _; exact .inl ⟨by rw [hr, h], hs'⟩
    · exact .inr h
  rcases h3 with h3 | h3
  · -- waiting
    have hk : ∀ s' : TD, s'.user = s.user → s'.results = s.results → s'.stopped = false → First s' := by
      intro s' a b c
      refine ⟨fun h => by rw [b]; exact h1 h3, fun h => ?_, .inl (by rw [a]; exact h3), c⟩
      rw [a, h3] at h; cases h
    cases e with
    | init dev lb em fm sys => cases hi
    | recover => cases hi
    | shutdown => cases hi
    | send f ec => cases hi
    | waited t =>
      simp only [TD.step]
      split
      · rename_i hc
        refine ⟨fun h => (by cases h), fun _ => ?_, .inr rfl, h4⟩
        rw [h1 h3]
        cases t with
        | true => exact .inr rfl
        | false =>
          refine .inl ⟨rfl, rfl, h4, ?_⟩
          rcases hc.2 with h | h
          · cases h
          · exact hg.ready (by simpa [TD.isReady] using h)
      · exact h0
    | close => simp only [TD.step, h3]; exact hk _ rfl rfl h4
    | stop => simp only [TD.step, h3]; exact hk _ rfl rfl h4
    | join sys => simp only [TD.step, h3]; exact hk _ rfl rfl h4
    | spawn =>
      simp only [TD.step]
      split
      · exact hk _ (by simp) (by simp) (by simpa using h4)
      · exact h0
    | read w =>
      simp only [TD.step]
      split
      · split
        · rename_i e hs hh
          obtain ⟨r1, r2, r3, -, -, -, r7, -⟩ := readDone_spec { s with handlers := hs } e
          exact hk _ r3 r7 (by rw [r2]; exact h4)
        · exact h0
      · exact h0
    | _ =>
      simp only [TD.step]
      repeat' split
      all_goals first | exact h0 | exact hk _ rfl rfl h4 | exact hk _ rfl rfl rfl
  · rcases hspin h3 with h | h
    · exact h
    · -- init has returned false
      have hk : ∀ s' : TD, s'.user = s.user → s'.results = s.results → s'.stopped = false → First s' := by
        intro s' a b c
        refine ⟨fun h => ?_, fun _ => .inr (by rw [b, h]), .inr (by rw [a]; exact h3), c⟩
        rw [a, h3] at h; cases h
      cases e with
      | init dev lb em fm sys => cases hi
      | recover => cases hi
      | shutdown => cases hi
      | send f ec => cases hi
      | waited t => simp only [TD.step]; rw [if_neg (by rw [h3]; rintro ⟨h, -⟩; cases h)]; exact h0
      | close => simp only [TD.step, h3]; exact hk _ rfl rfl h4
      | stop => simp only [TD.step, h3]; exact hk _ rfl rfl h4
      | join sys => simp only [TD.step, h3]; exact hk _ rfl rfl h4
      | spawn =>
        simp only [TD.step]
        split
        · exact hk _ (by simp) (by simp) (by simpa using h4)
        · exact h0
      | read w =>
        simp only [TD.step]
        split
        · split
          · rename_i e hs hh
            obtain ⟨r1, r2, r3, -, -, -, r7, -⟩ := readDone_spec { s with handlers := hs } e
            exact hk _ r3 r7 (by rw [r2]; exact h4)
          · exact h0
        · exact h0
      | _ =>
        simp only [TD.step]
        repeat' split
        all_goals first | exact h0 | exact hk _ rfl rfl h4 | exact hk _ rfl rfl rfl

/-- the driver is in its first session: one `init`, then other steps; `quit`: `shutdown` was called -/
def Session (cfg : Config) (junk : Vector Byte 8) (kjunk : KFrame) (t : TD) : Prop :=
  ∃ em fm sys es, masks cfg.settings = .ok (em, fm) ∧ cfg.dev.length < 16 ∧ (∀ e ∈ es, plain e) ∧
    t = (TD.fresh junk kjunk).run (.init cfg.dev false em fm sys :: es)

theorem Session.step {cfg : Config} {junk : Vector Byte 8} {kjunk : KFrame} {t : TD} (h : Session cfg junk kjunk t) (e : Ev) (he : plain e) :
    Session cfg junk kjunk (t.step e) := by
  obtain ⟨em, fm, sys, es, h1, h2, h3, h4⟩ := h
  refine ⟨em, fm, sys, es ++ [e], h1, h2, ?_, ?_⟩
  · intro x hx
    simp only [List.mem_append, List.mem_cons, List.not_mem_nil, or_false] at hx
    rcases hx with hx | rfl
    · exact h3 x hx
    · exact he
  · rw [h4, ← List.cons_append, run_append]; rfl

theorem Session.glob {cfg : Config} {junk : Vector Byte 8} {kjunk : KFrame} {t : TD} (h : Session cfg junk kjunk t) : Glob t := by
  obtain ⟨em, fm, sys, es, h1, h2, h3, h4⟩ := h
  rw [h4]
  refine glob_run _ _ (glob_fresh junk kjunk) ?_
  intro e he
  simp only [List.mem_cons] at he
  rcases he with rfl | he
  · rfl
  · exact (h3 e he).2

theorem Session.owned {cfg : Config} {junk : Vector Byte 8} {kjunk : KFrame} {t : TD} (h : Session cfg junk kjunk t) : t.owner = none → t.active = none := by
  obtain ⟨em, fm, sys, es, h1, h2, h3, h4⟩ := h
  rw [h4]
  exact active_owned _ _ (fun _ => rfl)

theorem Session.sess {cfg : Config} {junk : Vector Byte 8} {kjunk : KFrame} {t : TD} (h : Session cfg junk kjunk t) : Sess [] [] t := by
  obtain ⟨em, fm, sys, es, h1, h2, h3, h4⟩ := h
  rw [h4]
  exact sess_run [] [] es _ (sess_init (TD.fresh junk kjunk) ⟨rfl, rfl, rfl, rfl, rfl, rfl, rfl, rfl, rfl⟩ _ _ _ _ _) h3

/-- the invariant of a program -/
structure Inv (cfg : Config) (junk : Vector Byte 8) (kjunk : KFrame) (n : Node) : Prop where
  conf : n.cfg = cfg
  new : n.phase = .new → n.t = TD.fresh junk kjunk
  starting : n.phase = .starting → Session cfg junk kjunk n.t ∧ First n.t ∧ n.listener = none ∧ n.published = [] ∧ n.stateListeners = 0
  running : n.phase = .running → Session cfg junk kjunk n.t ∧ Spinning n.t ∧ n.stateListeners = (if cfg.toCan then 1 else 0) + (if cfg.toTopic then 1 else 0) ∧ n.t.results = [.init true] ∧
    (if cfg.toTopic then n.listener.isSome = true ∧ listenerOf cfg.ids = n.listener else n.listener = none)
  closing : n.phase = .closing → Session cfg junk kjunk n.t ∧ Past n.t.thread ∧ n.t.user ≠ .waiting ∧ (n.t.user = .idle → n.t.thread = .none) ∧
    (if cfg.toTopic then n.listener.isSome = true ∧ listenerOf cfg.ids = n.listener else n.listener = none) ∧
    Thr.Down [.init true] n.t ∧ (n.t.results = [.init true] ∨ n.t.user = .idle)
  done : n.phase = .done → Session cfg junk kjunk n.t ∧ n.t.thread = .none ∧ n.t.user = .idle ∧ n.listener = none ∧ n.stateListeners = 0
  quiet : n.phase = .new ∨ n.phase = .failing ∨ n.phase = .failed ∨ n.phase = .crashed ∨ n.phase = .undefined → n.listener = none ∧ n.published = [] ∧ n.stateListeners = 0
  wire : n.phase ≠ .running ∧ n.phase ≠ .closing ∧ n.phase ≠ .done → n.t.d.wire = []


/-- while `main` shuts down -/
structure Closing (s : TD) : Prop where
  past : Past s.thread
  user : s.user = .closing false ∨ s.user = .stopping false ∨ s.user = .joining false ∨ s.user = .idle ∧ s.thread = .none

theorem closing_step (s : TD) (e : Ev) (h : Closing s) (hi : internal e = true) : Closing (s.step e) := by
  have h0 := h
  obtain ⟨h1, h2⟩ := h
  refine ⟨past_step s e (internal_plain e hi) h1, ?_⟩
  cases e with
  | init dev lb em fm sys => cases hi
  | recover => cases hi
  | shutdown => cases hi
  | send f ec => cases hi
  | waited t =>
    simp only [TD.step]
    rw [if_neg]
    · exact h2
    · rintro ⟨h, -⟩
      rcases h2 with h' | h' | h' | ⟨h', -⟩ <;> rw [h'] at h <;> cases h
  | close =>
    simp only [TD.step]
    rcases h2 with h | h | h | ⟨h, h'⟩
    · rw [h]
      dsimp only
      split
      · exact .inr (.inl rfl)
      · exact .inr (.inl rfl)
    · rw [h]; exact .inr (.inl h)
    · rw [h]; exact .inr (.inr (.inl h))
    · rw [h]; exact .inr (.inr (.inr ⟨h, h'⟩))
  | stop =>
    simp only [TD.step]
    rcases h2 with h | h | h | ⟨h, h'⟩
    · rw [h]; exact .inl h
    · rw [h]; exact .inr (.inr (.inl rfl))
    · rw [h]; exact .inr (.inr (.inl h))
    · rw [h]; exact .inr (.inr (.inr ⟨h, h'⟩))
  | join sys =>
    simp only [TD.step]
    rcases h2 with h | h | h | ⟨h, h'⟩
    · rw [h]; exact .inl h
    · rw [h]; exact .inr (.inl h)
    · rw [h]
      dsimp only
      split
      · unfold TD.joined
        dsimp only
        rw [if_neg (by decide)]
        exact .inr (.inr (.inr ⟨rfl, rfl⟩))
      · exact .inr (.inr (.inl h))
    · rw [h]; exact .inr (.inr (.inr ⟨h, h'⟩))
  | begin => simp only [TD.step]; rw [if_neg h1.1]; exact h2
  | reset => simp only [TD.step]; rw [if_neg h1.2]; exact h2
  | spawn =>
    simp only [TD.step]
    split
    · rename_i hb
      simp only [trigger_user, trigger_thread]
      rcases h2 with h | h | h | ⟨h, h'⟩
      · exact .inl h
      · exact .inr (.inl h)
      · exact .inr (.inr (.inl h))
      · rw [hb] at h'; cases h'
    · exact h2
  | endLoop =>
    simp only [TD.step]
    split
    · rename_i hc
      have := ((canWork_main s).1 hc.2).2
      rcases h2 with h | h | h | ⟨h, h'⟩
      · exact .inl h
      · exact .inr (.inl h)
      · exact .inr (.inr (.inl h))
      · rw [this] at h'; cases h'
    · exact h2
  | read w =>
    simp only [TD.step]
    split
    · split
      · rename_i e hs hh
        obtain ⟨r1, r2, r3, -⟩ := readDone_spec { s with handlers := hs } e
        rw [r1, r3]; exact h2
      · exact h2
    · exact h2
  | _ =>
    simp only [TD.step]
    repeat' split
    all_goals exact h2

/-- the user stays idle without a call -/
theorem idle_step (s : TD) (e : Ev) (h : s.user = .idle) (hi : internal e = true) : (s.step e).user = .idle := by
  cases e with
  | init dev lb em fm sys => cases hi
  | recover => cases hi
  | shutdown => cases hi
  | send f ec => cases hi
  | waited t => simp only [TD.step]; rw [if_neg (by rw [h]; rintro ⟨h, -⟩; cases h)]; exact h
  | close => simp only [TD.step, h]
  | stop => simp only [TD.step, h]
  | join sys => simp only [TD.step, h]
  | spawn =>
    simp only [TD.step]
    split
    · simp [h]
    · exact h
  | read w =>
    simp only [TD.step]
    split
    · split
      · rename_i e hs hh
        rw [(readDone_spec { s with handlers := hs } e).2.2.1]; exact h
      · exact h
    · exact h
  | _ =>
    simp only [TD.step]
    repeat' split
    all_goals exact h

/-- only the end of `shutdown` adds a result -/
theorem closing_results (s : TD) (e : Ev) (h : Closing s) (hi : internal e = true) : (s.step e).results = s.results ∨ (s.step e).user = .idle := by
  obtain ⟨h1, h2⟩ := h
  cases e with
  | init dev lb em fm sys => cases hi
  | recover => cases hi
  | shutdown => cases hi
  | send f ec => cases hi
  | waited t =>
    simp only [TD.step]
    split
    · exact .inr rfl
    · exact .inl rfl
  | join sys =>
    simp only [TD.step]
    rcases h2 with h | h | h | ⟨h, h'⟩
    · rw [h]; exact .inl rfl
    · rw [h]; exact .inl rfl
    · rw [h]
      dsimp only
      split
      · unfold TD.joined
        dsimp only
        rw [if_neg (by decide)]
        exact .inr rfl
      · exact .inl rfl
    · rw [h]; exact .inl rfl
  | spawn =>
    simp only [TD.step]
    split
    · simp
    · exact .inl rfl
  | read w =>
    simp only [TD.step]
    split
    · split
      · rename_i e hs hh
        exact .inl (readDone_spec { s with handlers := hs } e).2.2.2.2.2.2.1
      · exact .inl rfl
    · exact .inl rfl
  | _ =>
    simp only [TD.step]
    repeat' split
    all_goals exact .inl rfl

theorem inv_new (cfg : Config) (junk : Vector Byte 8) (kjunk : KFrame) : Inv cfg junk kjunk (Node.new cfg junk kjunk) := by
  constructor <;> simp [Node.new, TD.fresh, Driver.initial]

theorem notified_after (n : Node) (t : TD) (h : n.listener = none) (h2 : n.stateListeners = 0) :
    (n.after t).published = n.published ∧ (n.after t).states = n.states := by
  unfold Node.after
  rw [h, h2]
  simp

theorem after_fields (n : Node) (t : TD) : (n.after t).t = t ∧ (n.after t).cfg = n.cfg ∧ (n.after t).phase = n.phase ∧ (n.after t).listener = n.listener ∧
    (n.after t).stateListeners = n.stateListeners ∧ (n.after t).refused = n.refused ∧ (n.after t).unsent = n.unsent := ⟨rfl, rfl, rfl, rfl, rfl, rfl, rfl⟩

theorem message_fields (n : Node) (m : Msg) (ec : Int) : (n.message m ec).cfg = n.cfg ∧ (n.message m ec).phase = n.phase ∧ (n.message m ec).listener = n.listener ∧
    (n.message m ec).stateListeners = n.stateListeners ∧ ((n.message m ec).t = n.t ∨ ∃ f, (n.message m ec).t = n.t.step (.send f ec)) := by
  unfold Node.message
  split
  · exact ⟨rfl, rfl, rfl, rfl, .inl rfl⟩
  · rename_i f _ _
    split
    · dsimp only
      split
      · exact ⟨rfl, rfl, rfl, rfl, .inr ⟨f, rfl⟩⟩
      · exact ⟨rfl, rfl, rfl, rfl, .inr ⟨f, rfl⟩⟩
    · exact ⟨rfl, rfl, rfl, rfl, .inl rfl⟩

theorem send_results (s : TD) (f : Frame) (ec : Int) : (s.step (.send f ec)).results = s.results := by
  simp only [TD.step]
  split <;> rfl

theorem spinning_results (s : TD) (e : Ev) (h : Spinning s) (hi : internal e = true) : (s.step e).results = s.results := by
  have hu := h.user
  cases e with
  | init dev lb em fm sys => cases hi
  | recover => cases hi
  | shutdown => cases hi
  | send f ec => cases hi
  | waited t => simp only [TD.step]; rw [if_neg (by rw [hu]; rintro ⟨h, -⟩; cases h)]
  | join sys => simp only [TD.step, hu]
  | spawn =>
    simp only [TD.step]
    split
    · simp
    · rfl
  | read w =>
    simp only [TD.step]
    split
    · split
      · rename_i e hs hh
        exact (readDone_spec { s with handlers := hs } e).2.2.2.2.2.2.1
      · rfl
    · rfl
  | _ =>
    simp only [TD.step]
    repeat' split
    all_goals rfl

theorem inv_step (cfg : Config) (junk : Vector Byte 8) (kjunk : KFrame) (n : Node) (h : Inv cfg junk kjunk n) (e : NEv) : Inv cfg junk kjunk (n.step e) := by
  have h0 := h
  obtain ⟨i1, i2, i3, i4, i5, i6, i7, i8⟩ := h
  cases e with
  | main sys =>
    simp only [Node.step]
    split
    · rename_i hp
      obtain ⟨q1, q2, q3⟩ := i7 (.inl hp)
      have hw := i8 (by rw [hp]; exact ⟨(fun h => nomatch h), (fun h => nomatch h), (fun h => nomatch h)⟩)
      split
      · constructor
        case conf => exact i1
        case quiet => exact fun _ => ⟨q1, q2, q3⟩
        case wire => exact fun _ => hw
        all_goals exact fun h => nomatch h
      · rename_i hd
        rw [i1] at hd
        split
        · rename_i em fm hm
          rw [i1] at hm
          have hsess : Session cfg junk kjunk (n.t.step (.init n.cfg.dev false em fm sys)) := by
            refine ⟨em, fm, sys, [], hm, by omega, by simp, ?_⟩
            rw [i2 hp, i1]; rfl
          have hinit : First (n.t.step (.init n.cfg.dev false em fm sys)) ∧ (n.t.step (.init n.cfg.dev false em fm sys)).d.wire = [] := by
            rw [i2 hp, i1]
            have hdl : ¬ (cfg.dev.length ≥ 16) := hd
            cases sys with
            | fail c =>
              simp only [TD.step, TD.init, TD.fresh, Driver.init, Driver.initial, State.initial, if_true, if_neg hdl]
              refine ⟨⟨(fun h => nomatch h), fun _ => .inr ?_, .inr rfl, rfl⟩, ?_⟩
              · by_cases hc : (0 : Int) ≠ c
                · simp [Driver.setErrorCode, hc]
                · simp [Driver.setErrorCode, hc]
              · by_cases hc : (0 : Int) ≠ c
                · simp [Driver.setErrorCode, hc]
                · simp [Driver.setErrorCode, hc]
            | ok =>
              simp only [TD.step, TD.init, TD.fresh, Driver.init, Driver.initial, State.initial, if_true, if_neg hdl]
              refine ⟨⟨fun _ => rfl, (fun h => nomatch h), .inl rfl, rfl⟩, ?_⟩
              simp [Driver.setErrorCode, Driver.setInternalError, Driver.setDriverState]
          constructor
          case conf => exact i1
          case starting => exact fun _ => ⟨hsess, hinit.1, q1, by rw [show _ = (n.after _).published from rfl, (notified_after n _ q1 q3).1]; exact q2, q3⟩
          case wire => exact fun _ => hinit.2
          case quiet => intro h; rcases h with h | h | h | h | h <;> cases h
          all_goals exact fun h => nomatch h
        · constructor
          case conf => exact i1
          case quiet => exact fun _ => ⟨q1, q2, q3⟩
          case wire => exact fun _ => hw
          all_goals exact fun h => nomatch h
    · exact h0
  | started =>
    simp only [Node.step]
    split
    · rename_i hp
      obtain ⟨s1, s2, s3, s4, s5⟩ := i3 hp.1
      have hw := i8 (by rw [hp.1]; exact ⟨(fun h => nomatch h), (fun h => nomatch h), (fun h => nomatch h)⟩)
      split
      · rename_i hres
        have hspin : Spinning n.t ∧ n.t.results = [.init true] := by
          rcases s2.idle hp.2 with ⟨h, hs⟩ | h
          · exact ⟨hs, h⟩
          · rw [h] at hres; cases hres
        unfold Node.setup
        dsimp only
        rw [show n.cfg.toTopic = cfg.toTopic from by rw [i1], show n.cfg.toCan = cfg.toCan from by rw [i1], show n.cfg.ids = cfg.ids from by rw [i1]]
        by_cases ht : cfg.toTopic = true
        · rw [if_pos ht]
          split
          · rename_i l hl
            constructor
            case conf => exact i1
            case running => exact fun _ => ⟨s1, hspin.1, by simp [ht], hspin.2, by rw [if_pos ht]; exact ⟨rfl, hl⟩⟩
            case quiet => intro h; rcases h with h | h | h | h | h <;> cases h
            case wire => exact fun h => absurd rfl h.1
            all_goals exact fun h => nomatch h
          · constructor
            case conf => exact i1
            case quiet => exact fun _ => ⟨s3, s4, s5⟩
            case wire => exact fun _ => hw
            all_goals exact fun h => nomatch h
        · rw [if_neg ht]
          constructor
          case conf => exact i1
          case running => exact fun _ => ⟨s1, hspin.1, by simp [ht], hspin.2, by rw [if_neg ht]; exact s3⟩
          case quiet => intro h; rcases h with h | h | h | h | h <;> cases h
          case wire => exact fun h => absurd rfl h.1
          all_goals exact fun h => nomatch h
      · constructor
        case conf => exact i1
        case quiet => exact fun _ => ⟨s3, s4, s5⟩
        case wire => exact fun _ => hw
        all_goals exact fun h => nomatch h
    · exact h0
  | msg m ec =>
    simp only [Node.step]
    split
    · rename_i hp
      obtain ⟨r1, r2, r3, r4, r5⟩ := i4 hp.1
      obtain ⟨m1, m2, m3, m4, m5⟩ := message_fields n m ec
      have ht : Session cfg junk kjunk (n.message m ec).t ∧ Spinning (n.message m ec).t ∧ (n.message m ec).t.results = [.init true] := by
        rcases m5 with h | ⟨f, h⟩
        · rw [h]; exact ⟨r1, r2, r4⟩
        · rw [h]; exact ⟨r1.step _ ⟨rfl, rfl⟩, spinning_step _ _ r2 (.inr ⟨f, ec, rfl⟩), by rw [send_results]; exact r4⟩
      have hph : (n.message m ec).phase = .running := by rw [m2]; exact hp.1
      constructor
      case conf => rw [m1]; exact i1
      case running => exact fun _ => ⟨ht.1, ht.2.1, by rw [m4]; exact r3, ht.2.2, by rw [m3]; exact r5⟩
      case wire => intro h; exact absurd hph h.1
      all_goals (intro h; rw [hph] at h)
      case quiet => rcases h with h | h | h | h | h <;> cases h
      all_goals cases h
    · exact h0
  | quit =>
    simp only [Node.step]
    split
    · rename_i hp
      obtain ⟨r1, r2, r3, r4, r5⟩ := i4 hp
      constructor
      case conf => exact i1
      case closing =>
        intro _
        refine ⟨r1.step .shutdown ⟨rfl, rfl⟩, past_step n.t .shutdown ⟨rfl, rfl⟩ ?_, ?_, ?_, r5, ?_, ?_⟩
        · rcases r2.thread with h | h <;> rw [h] <;> exact ⟨(fun h => nomatch h), (fun h => nomatch h)⟩
        · show (n.t.step .shutdown).user ≠ .waiting
          simp only [TD.step, r2.user, if_true]; exact fun h => nomatch h
        · show (n.t.step .shutdown).user = .idle → _
          simp only [TD.step, r2.user, if_true]; exact fun h => nomatch h
        · refine ⟨glob_step n.t r1.glob .shutdown rfl, .inl ?_⟩
          show (_ ∨ _ ∨ _) ∧ _ ∧ (n.t.step .shutdown).results = _
          simp only [TD.step, r2.user, if_true]
          exact ⟨by rcases r2.thread with h | h; exact .inl h; exact .inr (.inl h), .inl rfl, r4⟩
        · left
          show (n.t.step .shutdown).results = _
          simp only [TD.step, r2.user, if_true]; exact r4
      case quiet => intro h; rcases h with h | h | h | h | h <;> cases h
      case wire => exact fun h => absurd rfl h.2.1
      all_goals exact fun h => nomatch h
    · exact h0
  | finish =>
    simp only [Node.step]
    split
    · rename_i hu
      split
      · rename_i hp
        obtain ⟨c1, c2, c3, c4, c5, c6, c7⟩ := i5 hp
        constructor
        case conf => exact i1
        case done => exact fun _ => ⟨c1, c4 hu, hu, rfl, rfl⟩
        case quiet => intro h; rcases h with h | h | h | h | h <;> cases h
        case wire => exact fun h => absurd rfl h.2.2
        all_goals exact fun h => nomatch h
      · split
        · rename_i hp
          obtain ⟨q1, q2, q3⟩ := i7 (.inr (.inl hp))
          have hw := i8 (by rw [hp]; exact ⟨(fun h => nomatch h), (fun h => nomatch h), (fun h => nomatch h)⟩)
          constructor
          case conf => exact i1
          case quiet => exact fun _ => ⟨q1, q2, q3⟩
          case wire => exact fun _ => hw
          all_goals exact fun h => nomatch h
        · exact h0
    · exact h0
  | drv e =>
    simp only [Node.step]
    split
    · rename_i he
      obtain ⟨hi, hnew⟩ := he
      have hpl := internal_plain e hi
      have hwire := wire_step n.t e (.inl hi)
      constructor
      case conf => exact i1
      case new => exact fun h => absurd h hnew
      case starting =>
        intro h
        obtain ⟨s1, s2, s3, s4, s5⟩ := i3 h
        exact ⟨s1.step e hpl, first_step n.t e s1.glob s2 hi, s3, by rw [(notified_after n _ s3 s5).1]; exact s4, s5⟩
      case running =>
        intro h
        obtain ⟨r1, r2, r3, r4, r5⟩ := i4 h
        exact ⟨r1.step e hpl, spinning_step n.t e r2 (.inl hi), r3, by rw [show ((n.after (n.t.step e)).t.results) = (n.t.step e).results from rfl, spinning_results n.t e r2 hi]; exact r4, r5⟩
      case closing =>
        intro h
        obtain ⟨c1, c2, c3, c4, c5, c6, c7⟩ := i5 h
        have hplain := c1.glob.plain
        have hc : Closing n.t := by
          refine ⟨c2, ?_⟩
          cases hu : n.t.user with
          | idle => exact .inr (.inr (.inr ⟨rfl, c4 hu⟩))
          | waiting => exact absurd hu c3
          | closing r => cases r with
            | false => exact .inl rfl
            | true => exact absurd hu hplain.1
          | stopping r => cases r with
            | false => exact .inr (.inl rfl)
            | true => exact absurd hu hplain.2.1
          | joining r => cases r with
            | false => exact .inr (.inr (.inl rfl))
            | true => exact absurd hu hplain.2.2
        have hc' := closing_step n.t e hc hi
        refine ⟨c1.step e hpl, hc'.past, ?_, ?_, c5, Thr.down_step _ _ c6 e hpl.2, ?_⟩
        · show (n.t.step e).user ≠ .waiting
          rcases hc'.user with h | h | h | ⟨h, -⟩ <;> rw [h] <;> exact fun h => nomatch h
        · intro hu
          have hu' : (n.t.step e).user = .idle := hu
          rcases hc'.user with h | h | h | ⟨-, h⟩
          · rw [h] at hu'; cases hu'
          · rw [h] at hu'; cases hu'
          · rw [h] at hu'; cases hu'
          · exact h
        · show (n.t.step e).results = _ ∨ (n.t.step e).user = .idle
          rcases c7 with h | h
          · rw [← h]; exact closing_results n.t e hc hi
          · exact .inr (idle_step n.t e h hi)
      case done =>
        intro h
        obtain ⟨d1, d2, d3, d4, d5⟩ := i6 h
        have hc' := closing_step n.t e ⟨by rw [d2]; exact ⟨(fun h => nomatch h), (fun h => nomatch h)⟩, .inr (.inr (.inr ⟨d3, d2⟩))⟩ hi
        have hidle : (n.t.step e).user = .idle ∧ (n.t.step e).thread = .none := by
          have hu := idle_step n.t e d3 hi
          rcases hc'.user with h | h | h | h
          · rw [hu] at h; cases h
          · rw [hu] at h; cases h
          · rw [hu] at h; cases h
          · exact h
        exact ⟨d1.step e hpl, hidle.2, hidle.1, d4, d5⟩
      case quiet =>
        intro h
        have h' : n.phase = .new ∨ n.phase = .failing ∨ n.phase = .failed ∨ n.phase = .crashed ∨ n.phase = .undefined := h
        obtain ⟨q1, q2, q3⟩ := i7 h'
        exact ⟨q1, by rw [(notified_after n _ q1 q3).1]; exact q2, q3⟩
      case wire =>
        intro h
        show (n.t.step e).d.wire = []
        rw [hwire]; exact i8 h
    · exact h0

theorem inv_run (cfg : Config) (junk : Vector Byte 8) (kjunk : KFrame) (es : List NEv) : ∀ n : Node, Inv cfg junk kjunk n → Inv cfg junk kjunk (n.run es) := by
  induction es with
  | nil => intro n h; exact h
  | cons e es ih => intro n h; exact ih _ (inv_step cfg junk kjunk n h e)


theorem arrived_prefix (s : TD) (e : Ev) : s.arrived <+: (s.step e).arrived := by
  have htrig : ∀ x : TD, x.trigger.arrived = x.arrived := by intro x; unfold TD.trigger; split <;> rfl
  cases e with
  | read w =>
    simp only [TD.step]
    split
    · split
      · unfold TD.readDone
        split
        · rw [htrig]; exact List.prefix_refl _
        · exact List.prefix_refl _
      · exact List.prefix_refl _
    · exact List.prefix_refl _
  | spawn =>
    simp only [TD.step]
    split
    · rw [htrig]; exact List.prefix_refl _
    · exact List.prefix_refl _
  | init dev lb em fm sys =>
    simp only [TD.step, TD.init]
    repeat' split
    all_goals exact List.prefix_refl _
  | join sys =>
    simp only [TD.step, TD.joined]
    repeat' split
    all_goals exact List.prefix_refl _
  | _ =>
    simp only [TD.step]
    repeat' split
    all_goals simp

/-- a step of the program is at most one step of the driver, unless the driver is destroyed -/
theorem step_t (n : Node) (e : NEv) : (n.step e).t = n.t ∨ (∃ x, (n.step e).t = n.t.step x ∧ ((∃ d l a b s, x = .init d l a b s) ∧ n.phase = .new ∨ internal x = true ∨ x = .shutdown ∨ ∃ f ec, x = .send f ec)) ∨
    (n.step e).t = n.t.destroy := by
  cases e with
  | main sys =>
    simp only [Node.step]
    split
    · rename_i hp
      split
      · exact .inl rfl
      · split
        · exact .inr (.inl ⟨_, rfl, .inl ⟨⟨_, _, _, _, _, rfl⟩, hp⟩⟩)
        · exact .inl rfl
    · exact .inl rfl
  | started =>
    simp only [Node.step]
    split
    · split
      · unfold Node.setup
        dsimp only
        repeat' split
        all_goals exact .inl rfl
      · exact .inr (.inr rfl)
    · exact .inl rfl
  | msg m ec =>
    simp only [Node.step]
    split
    · rcases (message_fields n m ec).2.2.2.2 with h | ⟨f, h⟩
      · exact .inl h
      · exact .inr (.inl ⟨_, h, .inr (.inr (.inr ⟨_, _, rfl⟩))⟩)
    · exact .inl rfl
  | quit =>
    simp only [Node.step]
    split
    · exact .inr (.inl ⟨_, rfl, .inr (.inr (.inl rfl))⟩)
    · exact .inl rfl
  | finish =>
    simp only [Node.step]
    repeat' split
    all_goals exact .inl rfl
  | drv x =>
    simp only [Node.step]
    split
    · rename_i h
      exact .inr (.inl ⟨_, rfl, .inr (.inl h.1)⟩)
    · exact .inl rfl

theorem arrived_step (n : Node) (e : NEv) : n.t.arrived <+: (n.step e).t.arrived := by
  rcases step_t n e with h | ⟨x, h, -⟩ | h
  · rw [h]; exact List.prefix_refl _
  · rw [h]; exact arrived_prefix _ _
  · rw [h]; exact List.prefix_refl _

theorem delivered_step (n : Node) (e : NEv) : n.t.delivered <+: (n.step e).t.delivered := by
  rcases step_t n e with h | ⟨x, h, -⟩ | h
  · rw [h]; exact List.prefix_refl _
  · rw [h]; exact delivered_prefix _ _
  · rw [h]; exact List.prefix_refl _

theorem arrived_run (es : List NEv) : ∀ n : Node, n.t.arrived <+: (n.run es).t.arrived := by
  induction es with
  | nil => intro n; exact List.prefix_refl _
  | cons e es ih => intro n; exact (arrived_step n e).trans (ih _)

/-- what the listener `l`, registered when `k` frames had been delivered, has published -/
structure Pub (l : Option (List Filter)) (k : Nat) (n : Node) : Prop where
  started : n.phase = .running ∨ n.phase = .closing ∨ n.phase = .done
  listener : n.phase ≠ .done → n.listener = some l
  count : k ≤ n.t.delivered.length
  published : n.phase ≠ .done → n.published = (n.t.delivered.drop k).flatMap (heard l)

theorem pub_after (l : Option (List Filter)) (k : Nat) (n : Node) (t : TD) (hl : n.listener = some l) (hc : k ≤ n.t.delivered.length)
    (hp : n.published = (n.t.delivered.drop k).flatMap (heard l)) (ht : n.t.delivered <+: t.delivered) :
    k ≤ t.delivered.length ∧ (n.after t).published = (t.delivered.drop k).flatMap (heard l) := by
  obtain ⟨r, hr⟩ := ht
  unfold Node.after
  rw [hl, hp, ← hr]
  refine ⟨by rw [List.length_append]; omega, ?_⟩
  dsimp only
  rw [List.drop_append, List.drop_append, List.flatMap_append]
  simp [show k - n.t.delivered.length = 0 by omega]

theorem pub_step (l : Option (List Filter)) (k : Nat) (n : Node) (h : Pub l k n) (e : NEv) : Pub l k (n.step e) := by
  have h0 := h
  obtain ⟨h1, h2, h3, h4⟩ := h
  have hph : n.phase ≠ .new ∧ n.phase ≠ .starting ∧ n.phase ≠ .failing := by rcases h1 with h | h | h <;> rw [h] <;> decide
  have hcount : k ≤ (n.step e).t.delivered.length := Nat.le_trans h3 (delivered_step n e).length_le
  cases e with
  | main sys => simp only [Node.step]; rw [if_neg hph.1]; exact h0
  | started => simp only [Node.step]; rw [if_neg (fun h => hph.2.1 h.1)]; exact h0
  | msg m ec =>
    by_cases hc : n.phase = .running ∧ n.cfg.toCan
    · have hnd : n.phase ≠ .done := by rw [hc.1]; decide
      have hsend : ∀ f, n.t.delivered <+: (n.t.step (.send f ec)).delivered := fun f => delivered_prefix _ _
      have hm := message_fields n m ec
      have hpub : (n.message m ec).published = ((n.message m ec).t.delivered.drop k).flatMap (heard l) := by
        unfold Node.message
        split
        · exact h4 hnd
        · rename_i f _ _
          split
          · dsimp only
            split
            · exact (pub_after l k n _ (h2 hnd) h3 (h4 hnd) (hsend f)).2
            · exact (pub_after l k n _ (h2 hnd) h3 (h4 hnd) (hsend f)).2
          · exact h4 hnd
      have he : n.step (.msg m ec) = n.message m ec := by simp only [Node.step]; rw [if_pos hc]
      rw [he] at hcount ⊢
      exact ⟨by rw [hm.2.1]; exact h1, fun _ => by rw [hm.2.2.1]; exact h2 hnd, hcount, fun _ => hpub⟩
    · simp only [Node.step]; rw [if_neg hc]; exact h0
  | quit =>
    by_cases hc : n.phase = .running
    · have hnd : n.phase ≠ .done := by rw [hc]; decide
      have he : n.step .quit = { n.after (n.t.step .shutdown) with phase := .closing } := by simp only [Node.step]; rw [if_pos hc]
      rw [he] at hcount ⊢
      exact ⟨.inr (.inl rfl), fun _ => h2 hnd, hcount, fun _ => (pub_after l k n _ (h2 hnd) h3 (h4 hnd) (delivered_prefix _ _)).2⟩
    · simp only [Node.step]; rw [if_neg hc]; exact h0
  | finish =>
    simp only [Node.step]
    split
    · split
      · exact ⟨.inr (.inr rfl), fun h => absurd rfl h, h3, fun h => absurd rfl h⟩
      · rw [if_neg hph.2.2]; exact h0
    · exact h0
  | drv x =>
    by_cases hc : internal x ∧ n.phase ≠ .new
    · have he : n.step (.drv x) = n.after (n.t.step x) := by simp only [Node.step]; rw [if_pos hc]
      rw [he] at hcount ⊢
      exact ⟨h1, h2, hcount, fun hnd => (pub_after l k n _ (h2 hnd) h3 (h4 hnd) (delivered_prefix _ _)).2⟩
    · simp only [Node.step]; rw [if_neg hc]; exact h0

theorem pub_run (l : Option (List Filter)) (k : Nat) (es : List NEv) : ∀ n : Node, Pub l k n → Pub l k (n.run es) := by
  induction es with
  | nil => intro n h; exact h
  | cons e es ih => intro n h; exact ih _ (pub_step l k n h e)

/-- only steps of the threads -/
theorem run_drv (ws : List Ev) (hw : ∀ e ∈ ws, internal e = true) : ∀ n : Node, n.phase ≠ .new → (n.run (ws.map .drv)).t = n.t.run ws ∧ (n.run (ws.map .drv)).phase = n.phase ∧
    (n.run (ws.map .drv)).cfg = n.cfg := by
  induction ws with
  | nil => intro n _; exact ⟨rfl, rfl, rfl⟩
  | cons e ws ih =>
    intro n hn
    have he : n.step (.drv e) = n.after (n.t.step e) := by simp only [Node.step]; rw [if_pos ⟨hw e (by simp), hn⟩]
    have := ih (fun e he => hw e (by simp [he])) (n.after (n.t.step e)) hn
    simp only [List.map_cons, Node.run, TD.run, he]
    exact this

theorem pointwise_length {α β : Type} (R : α → β → Prop) : ∀ (as : List α) (bs : List β), Pointwise R as bs → as.length = bs.length
  | [], [], _ => rfl
  | _ :: as, _ :: bs, h => by simp [pointwise_length R as bs h.2]
  | [], _ :: _, h => h.elim
  | _ :: _, [], h => h.elim

theorem pointwise_take {α β : Type} (R : α → β → Prop) : ∀ (k : Nat) (as : List α) (bs : List β), Pointwise R as bs → Pointwise R (as.take k) (bs.take k)
  | 0, _, _, _ => by simp [Pointwise]
  | _ + 1, [], [], _ => by simp [Pointwise]
  | k + 1, _ :: as, _ :: bs, h => ⟨h.1, pointwise_take R k as bs h.2⟩
  | _, [], _ :: _, h => h.elim
  | _, _ :: _, [], h => h.elim

theorem pointwise_drop {α β : Type} (R : α → β → Prop) : ∀ (k : Nat) (as : List α) (bs : List β), Pointwise R as bs → Pointwise R (as.drop k) (bs.drop k)
  | 0, _, _, h => h
  | _ + 1, [], [], _ => by simp [Pointwise]
  | k + 1, _ :: as, _ :: bs, h => pointwise_drop R k as bs h.2
  | _, [], _ :: _, h => h.elim
  | _, _ :: _, [], h => h.elim

/-- the driver is not ready -/
theorem notReady_step (s : TD) (e : Ev) (hp : Past s.thread) (h : s.d.state.driver ≠ .ready) (hi : internal e = true ∨ e = .shutdown ∨ ∃ f ec, e = .send f ec) : (s.step e).d.state.driver ≠ .ready := by
  have hset : ∀ d : Driver, ∀ x, (d.setErrorCode x).state.driver = d.state.driver := by intro d x; unfold Driver.setErrorCode; split <;> rfl
  have hint : ∀ d : Driver, ∀ x, (d.setInternalError x).state.driver = d.state.driver := by intro d x; unfold Driver.setInternalError; split <;> rfl
  have hnr : ∀ d : Driver, d.setNotReady.state.driver ≠ .ready := by
    intro d
    have hds : ∀ x, (d.setDriverState x).state.driver = x := by
      intro x
      unfold Driver.setDriverState
      split
      · rfl
      · rename_i hn
        rwa [Decidable.not_not] at hn
    unfold Driver.setNotReady
    rw [hds]
    split <;> decide
  have hro : ∀ (d : Driver) k, d.state.driver ≠ .ready → (d.readOk k).state.driver ≠ .ready := by
    intro d k hd
    unfold Driver.readOk
    dsimp only
    split
    · exact hnr _
    · exact hd
  have htrig : ∀ x : TD, x.trigger.d = x.d := by intro x; unfold TD.trigger; split <;> rfl
  cases e with
  | init dev lb em fm sys => rcases hi with h | h | ⟨_, _, h⟩ <;> cases h
  | recover => rcases hi with h | h | ⟨_, _, h⟩ <;> cases h
  | begin => simp only [TD.step]; rw [if_neg hp.1]; exact h
  | reset => simp only [TD.step]; rw [if_neg hp.2]; exact h
  | close =>
    simp only [TD.step]
    repeat' split
    all_goals exact h
  | join sys =>
    simp only [TD.step]
    split
    · split
      · unfold TD.joined
        dsimp only
        split
        · split
          · rename_i b d hd
            dsimp only
            unfold Driver.init at hd
            split at hd
            · rw [if_neg (by decide)] at hd
              cases sys with
              | fail c =>
                simp only [Outcome.ok.injEq, Prod.mk.injEq] at hd
                rw [← hd.2, hset]; exact h
              | ok =>
                simp only [Outcome.ok.injEq, Prod.mk.injEq] at hd
                rw [← hd.2]
                unfold Driver.setDriverState
                split
                · exact fun h => nomatch h
                · rename_i hn
                  rw [Decidable.not_not] at hn
                  rw [hn]; decide
            · simp only [Outcome.ok.injEq, Prod.mk.injEq] at hd
              rw [← hd.2]; exact h
          · exact h
        · exact h
      · exact h
    · exact h
  | endLoop =>
    simp only [TD.step]
    split
    · exact hnr _
    · exact h
  | spawn =>
    simp only [TD.step]
    split
    · rw [htrig]; exact h
    · exact h
  | read w =>
    simp only [TD.step]
    split
    · split
      · unfold TD.readDone
        split
        · rw [htrig]; exact hro _ _ h
        · exact hnr _
      · exact h
    · exact h
  | send f ec =>
    simp only [TD.step]
    split
    · rename_i b d hd
      unfold Driver.send at hd
      rw [if_neg h] at hd
      simp only [Outcome.ok.injEq, Prod.mk.injEq] at hd
      rw [← hd.2]; exact h
    · exact h
  | _ =>
    simp only [TD.step]
    repeat' split
    all_goals exact h


/-- the program can only end its part with the bus: phases after `running` -/
theorem phase_step (n : Node) (e : NEv) : (n.phase = .done → (n.step e).phase = .done) ∧ (n.phase = .crashed → (n.step e).phase = .crashed) ∧ (n.phase = .failed → (n.step e).phase = .failed) ∧
    (n.phase = .closing → (n.step e).phase = .closing ∨ (n.step e).phase = .done) ∧ (n.phase = .failing → (n.step e).phase = .failing ∨ (n.step e).phase = .failed ∧ n.t.user = .idle) ∧
    (n.phase = .undefined → (n.step e).phase = .undefined) := by
  have h : n.phase ≠ .new → n.phase ≠ .starting → n.phase ≠ .running → (n.step e).phase = n.phase ∨ (n.step e).phase = .done ∧ n.phase = .closing ∨ (n.step e).phase = .failed ∧ n.phase = .failing ∧ n.t.user = .idle := by
    intro h1 h2 h3
    cases e with
    | main sys => simp only [Node.step]; rw [if_neg h1]; exact .inl rfl
    | started => simp only [Node.step]; rw [if_neg (fun h => h2 h.1)]; exact .inl rfl
    | msg m ec => simp only [Node.step]; rw [if_neg (fun h => h3 h.1)]; exact .inl rfl
    | quit => simp only [Node.step]; rw [if_neg h3]; exact .inl rfl
    | finish =>
      simp only [Node.step]
      split
      · rename_i hu
        split
        · rename_i h; exact .inr (.inl ⟨rfl, h⟩)
        · split
          · rename_i h; exact .inr (.inr ⟨rfl, h, hu⟩)
          · exact .inl rfl
      · exact .inl rfl
    | drv x =>
      simp only [Node.step]
      split <;> exact .inl rfl
  refine ⟨?_, ?_, ?_, ?_, ?_, ?_⟩
  all_goals
    intro hp
    have h' := h (by rw [hp]; decide) (by rw [hp]; decide) (by rw [hp]; decide)
    rw [hp] at h'
    simpa using h'

/-- the wire is changed by messages in `running` only -/
theorem wire_node (n : Node) (e : NEv) (h : ¬ ∃ m ec, e = .msg m ec ∧ n.phase = .running ∧ n.cfg.toCan = true) (hn : n.phase = .new → n.t.d.state.driver = .closed) : (n.step e).t.d.wire = n.t.d.wire := by
  cases e with
  | main sys =>
    simp only [Node.step]
    split
    · rename_i hp
      split
      · rfl
      · split
        · have hset : ∀ d : Driver, ∀ x, (d.setErrorCode x).wire = d.wire := by intro d x; unfold Driver.setErrorCode; split <;> rfl
          have hint : ∀ d : Driver, ∀ x, (d.setInternalError x).wire = d.wire := by intro d x; unfold Driver.setInternalError; split <;> rfl
          have hdrv : ∀ d : Driver, ∀ x, (d.setDriverState x).wire = d.wire := by intro d x; unfold Driver.setDriverState; split <;> rfl
          rename_i hd _ em fm _
          show (n.t.step _).d.wire = _
          simp only [TD.step]
          split
          · unfold TD.init
            split
            · unfold Driver.init
              rw [if_pos (hn hp), if_neg hd]
              cases sys with
              | fail c => dsimp only; rw [hset]
              | ok => dsimp only; rw [hdrv, hint, hset]
            · rfl
          · rfl
        · rfl
    · rfl
  | started =>
    simp only [Node.step]
    split
    · split
      · unfold Node.setup
        dsimp only
        repeat' split
        all_goals rfl
      · rfl
    · rfl
  | msg m ec =>
    simp only [Node.step]
    rw [if_neg]
    exact fun hc => h ⟨m, ec, rfl, hc.1, hc.2⟩
  | quit =>
    simp only [Node.step]
    split
    · exact wire_step n.t .shutdown (.inr rfl)
    · rfl
  | finish =>
    simp only [Node.step]
    repeat' split
    all_goals rfl
  | drv x =>
    simp only [Node.step]
    split
    · rename_i hc
      exact wire_step n.t x (.inl hc.1)
    · rfl

/-- the destructor waits for a thread that does not end -/
structure Stuck (s : TD) : Prop where
  user : s.user = .joining false
  opened : s.d.socketOpen = true
  stopped : s.stopped = false
  thread : s.thread = .created ∨ s.thread = .checked ∨ s.thread = .begun ∨ s.thread = .loop

theorem stuck_step (s : TD) (e : Ev) (h : Stuck s) (hi : internal e = true) : Stuck (s.step e) := by
  have h0 := h
  obtain ⟨h1, h2, h3, h4⟩ := h
  have hset : ∀ d : Driver, ∀ x, (d.setErrorCode x).socketOpen = d.socketOpen := by intro d x; unfold Driver.setErrorCode; split <;> rfl
  have hint : ∀ d : Driver, ∀ x, (d.setInternalError x).socketOpen = d.socketOpen := by intro d x; unfold Driver.setInternalError; split <;> rfl
  have hdrv : ∀ d : Driver, ∀ x, (d.setDriverState x).socketOpen = d.socketOpen ∧ (d.setDriverState x).state.driver = x := by
    intro d x
    unfold Driver.setDriverState
    split
    · exact ⟨rfl, rfl⟩
    · rename_i hn
      exact ⟨rfl, by rwa [Decidable.not_not] at hn⟩
  have hnr : ∀ d : Driver, d.setNotReady.socketOpen = d.socketOpen := by intro d; unfold Driver.setNotReady; exact (hdrv _ _).1
  have hro : ∀ (d : Driver) k, (d.readOk k).socketOpen = d.socketOpen := by
    intro d k
    unfold Driver.readOk
    dsimp only
    split
    · show (Driver.setNotReady _).socketOpen = _
      rw [hnr, hint]
    · rfl
  have hth : s.thread ≠ .none ∧ s.thread ≠ .ended := by rcases h4 with h | h | h | h <;> rw [h] <;> decide
  cases e with
  | init dev lb em fm sys => cases hi
  | recover => cases hi
  | shutdown => cases hi
  | send f ec => cases hi
  | waited t => simp only [TD.step]; rw [if_neg (by rw [h1]; rintro ⟨h, -⟩; cases h)]; exact h0
  | close => simp only [TD.step, h1]; exact h0
  | stop => simp only [TD.step, h1]; exact h0
  | join sys =>
    simp only [TD.step, h1]
    rw [if_neg (fun h => h.elim hth.1 hth.2)]
    exact h0
  | begin =>
    simp only [TD.step]
    split
    · rw [if_pos (by unfold Driver.setNotReady; rw [(hdrv _ _).2, if_pos h2])]
      exact ⟨h1, by rw [show (TD.d _).socketOpen = _ from hnr s.d]; exact h2, h3, .inr (.inl rfl)⟩
    · exact h0
  | reset =>
    simp only [TD.step]
    split
    · exact ⟨h1, by rw [show (TD.d _).socketOpen = _ from (hdrv s.d .ready).1]; exact h2, rfl, .inr (.inr (.inl rfl))⟩
    · exact h0
  | spawn =>
    simp only [TD.step]
    split
    · unfold TD.trigger
      dsimp only
      split
      · exact ⟨h1, h2, h3, .inr (.inr (.inr rfl))⟩
      · exact ⟨h1, h2, h3, .inr (.inr (.inr rfl))⟩
    · exact h0
  | endLoop => simp only [TD.step]; rw [if_neg (by rw [h3]; rintro ⟨h, -⟩; cases h)]; exact h0
  | exit n => simp only [TD.step]; rw [if_neg (by rw [h3]; rintro ⟨h, -⟩; cases h)]; exact h0
  | read w =>
    simp only [TD.step]
    split
    · split
      · unfold TD.readDone
        split
        · unfold TD.trigger
          dsimp only
          rw [hro, if_pos h2]
          exact ⟨h1, by rw [show (TD.d _).socketOpen = _ from hro s.d _]; exact h2, h3, h4⟩
        · refine ⟨h1, ?_, h3, h4⟩
          show (s.d.readError _).socketOpen = true
          unfold Driver.readError
          rw [hnr, hset]; exact h2
      · exact h0
    · exact h0
  | _ =>
    simp only [TD.step]
    repeat' split
    all_goals exact ⟨h1, h2, h3, h4⟩

/-- how the socket was configured -/
def kept (d : Driver) : Bool × BitVec 32 × BitVec 32 := (d.loopback, d.errorMask, d.fatalMask)

theorem kept_step (s : TD) (e : Ev) (h : isInit e = false) : kept (s.step e).d = kept s.d := by
  have hset : ∀ d : Driver, ∀ x, kept (d.setErrorCode x) = kept d := by intro d x; unfold Driver.setErrorCode; split <;> rfl
  have hint : ∀ d : Driver, ∀ x, kept (d.setInternalError x) = kept d := by intro d x; unfold Driver.setInternalError; split <;> rfl
  have hdrv : ∀ d : Driver, ∀ x, kept (d.setDriverState x) = kept d := by intro d x; unfold Driver.setDriverState; split <;> rfl
  have hnr : ∀ d : Driver, kept d.setNotReady = kept d := by intro d; unfold Driver.setNotReady; exact hdrv _ _
  have hro : ∀ (d : Driver) k, kept (d.readOk k) = kept d := by
    intro d k
    unfold Driver.readOk
    dsimp only
    split
    · show kept (Driver.setNotReady _) = _
      rw [hnr, hint]; rfl
    · rfl
  have htrig : ∀ x : TD, x.trigger.d = x.d := by intro x; unfold TD.trigger; split <;> rfl
  cases e with
  | init dev lb em fm sys => cases h
  | begin =>
    simp only [TD.step]
    repeat' split
    · exact hnr _
    · exact hnr _
    · rfl
  | reset =>
    simp only [TD.step]
    split
    · exact hdrv _ _
    · rfl
  | close =>
    simp only [TD.step]
    repeat' split
    all_goals rfl
  | join sys =>
    simp only [TD.step]
    split
    · split
      · unfold TD.joined
        dsimp only
        split
        · split
          · rename_i b d hd
            dsimp only
            unfold Driver.init at hd
            split at hd
            · rw [if_neg (by decide)] at hd
              cases sys with
              | fail c =>
                simp only [Outcome.ok.injEq, Prod.mk.injEq] at hd
                rw [← hd.2, hset]
              | ok =>
                simp only [Outcome.ok.injEq, Prod.mk.injEq] at hd
                rw [← hd.2, hdrv, hint, hset]; rfl
            · simp only [Outcome.ok.injEq, Prod.mk.injEq] at hd
              rw [← hd.2]
          · rfl
        · rfl
      · rfl
    · rfl
  | endLoop =>
    simp only [TD.step]
    split
    · show kept (Driver.setNotReady _) = _
      rw [hnr, hset]
    · rfl
  | spawn =>
    simp only [TD.step]
    split
    · rw [htrig]
    · rfl
  | read w =>
    simp only [TD.step]
    split
    · split
      · unfold TD.readDone
        split
        · rw [htrig]; exact hro _ _
        · show kept (Driver.readError _ _) = _
          unfold Driver.readError
          rw [hnr, hset]
      · rfl
    · rfl
  | send f ec =>
    simp only [TD.step]
    split
    · rename_i b d hd
      dsimp only
      unfold Driver.send at hd
      split at hd
      · split at hd
        · split at hd
          · simp only [Outcome.ok.injEq, Prod.mk.injEq] at hd
            rw [← hd.2, hnr, hset]
          · simp only [Outcome.ok.injEq, Prod.mk.injEq] at hd
            rw [← hd.2]; rfl
        · cases hd
        · cases hd
      · simp only [Outcome.ok.injEq, Prod.mk.injEq] at hd
        rw [← hd.2]
    · rfl
  | _ =>
    simp only [TD.step]
    repeat' split
    all_goals rfl

theorem Session.kept {cfg : Config} {junk : Vector Byte 8} {kjunk : KFrame} {t : TD} (h : Session cfg junk kjunk t) :
    ∃ em fm, masks cfg.settings = .ok (em, fm) ∧ t.d.loopback = false ∧ t.d.errorMask = em ∧ t.d.fatalMask = fm := by
  obtain ⟨em, fm, sys, es, h1, h2, h3, h4⟩ := h
  have hrun : ∀ (es : List Ev) (s : TD), (∀ e ∈ es, isInit e = false) → Brn.kept (s.run es).d = Brn.kept s.d := by
    intro es
    induction es with
    | nil => intro s _; rfl
    | cons e es ih =>
      intro s hs
      rw [show s.run (e :: es) = (s.step e).run es from rfl, ih _ (fun e he => hs e (by simp [he])), kept_step s e (hs e (by simp))]
  have hset : ∀ d : Driver, ∀ x, Brn.kept (d.setErrorCode x) = Brn.kept d := by intro d x; unfold Driver.setErrorCode; split <;> rfl
  have hint : ∀ d : Driver, ∀ x, Brn.kept (d.setInternalError x) = Brn.kept d := by intro d x; unfold Driver.setInternalError; split <;> rfl
  have hdrv : ∀ d : Driver, ∀ x, Brn.kept (d.setDriverState x) = Brn.kept d := by intro d x; unfold Driver.setDriverState; split <;> rfl
  have hk : Brn.kept t.d = (false, em, fm) := by
    rw [h4, show (TD.fresh junk kjunk).run (.init cfg.dev false em fm sys :: es) = ((TD.fresh junk kjunk).step (.init cfg.dev false em fm sys)).run es from rfl, hrun es _ (fun e he => (h3 e he).1)]
    simp only [TD.step]
    rw [if_pos (show (TD.fresh junk kjunk).user = .idle from rfl)]
    unfold TD.init
    rw [if_pos (show (TD.fresh junk kjunk).thread = .none from rfl)]
    unfold Driver.init
    rw [if_pos (show (TD.fresh junk kjunk).d.state.driver = .closed from rfl), if_neg (by omega)]
    cases sys with
    | fail c => dsimp only; rw [hset]; rfl
    | ok => dsimp only; rw [hdrv, hint, hset]; rfl
  simp only [Brn.kept, Prod.mk.injEq] at hk
  exact ⟨em, fm, h1, hk.1, hk.2.1, hk.2.2⟩

end Verif.Brn
