import Verif.Lemmas.Chain
import Verif.Spec.ChainLog
import Verif.Props.Chain

/-!
# C107 Console of a chain node, C108 end of a chain node
-/

set_option linter.unusedVariables false

namespace Verif.Props
open Verif Verif.Lay Verif.Spec Verif.Chain Verif.ChainLog

variable {σ : Type}

private theorem endTrigger_one (name : Text) (r : Resp) :
    ∃ l, endTrigger name false r = [l] ∧ Tells name r l ∧ l.level ≠ .warn ∧ (l.level = .error ↔ r.success = false) := by
  obtain ⟨s, m⟩ := r
  cases s with
  | true =>
    by_cases h : m = []
    · subst h; exact ⟨_, rfl, .donePlain, by simp, by simp⟩
    · refine ⟨_, ?_, .done m h, by simp, by simp⟩
      simp [endTrigger, endResponse, h]
  | false =>
    by_cases h : m = []
    · subst h; exact ⟨_, rfl, .failedPlain, by simp, by simp⟩
    · refine ⟨_, ?_, .failed m h, by simp, by simp⟩
      simp [endTrigger, endResponse, h]

/-- C107.  Every request that is answered, in every state of the chain: the first line names the request, the last one tells the answer, an error line
exactly if it is a failure.  Between them there is nothing, except for one error line of a `recover` request that is answered with
failure and this text. -/
theorem C107_request (c : Chain σ) (e : Env σ) (v : Ev) (name : Text) (hn : RequestName v name) (a : Resp) (ha : (serve c e v).1.2.2 = some a) :
    ∃ es l, (serve c e v).2 = ⟨.info, name ++ "...".toList⟩ :: (es ++ [l]) ∧ Tells name a l ∧ (l.level = .error ↔ a.success = false) ∧
      (es = [] ∨ (v = .recover ∧ a.success = false ∧ es = [⟨.error, a.message⟩])) := by
  have hname : command v = name := by cases v <;> first | exact hn.symm | exact absurd hn id
  have plain : (∀ h : v = .recover, recoverLines c e = ([], false)) → ∃ es l, (serve c e v).2 = ⟨.info, name ++ "...".toList⟩ :: (es ++ [l]) ∧ Tells name a l ∧
      (l.level = .error ↔ a.success = false) ∧ (es = [] ∨ (v = .recover ∧ a.success = false ∧ es = [⟨.error, a.message⟩])) := by
    intro h
    obtain ⟨l, h1, h2, -, h4⟩ := endTrigger_one name a
    refine ⟨[], l, ?_, h2, h4, .inl rfl⟩
    have ha' : (c.step e v).2.2 = some a := ha
    unfold serve
    dsimp only
    rw [ha']
    dsimp only
    have hm : middle c e v = ([], false) := by
      cases v <;> first | rfl | exact h rfl
    rw [hm, hname]
    dsimp only
    rw [h1]
    rfl
  cases v with
  | recover =>
    by_cases hp : recoverLines c e = ([], false)
    · exact plain fun _ => hp
    · have hb : c.blocked = false := by
        cases hb : c.blocked with
        | false => rfl
        | true => simp [serve, Chain.step, hb] at ha
      have hs : (serve c e .recover).1 = ((c.handleRecover e).1, (c.handleRecover e).2.1, some (c.handleRecover e).2.2) := by
        simp [serve, Chain.step, hb]
      have hr : (c.handleRecover e).2.2 = a := by rw [hs] at ha; exact Option.some.inj ha
      have hl : (serve c e .recover).2 = startLine "Recovering".toList :: (recoverLines c e).1 ++ endTrigger "Recovering".toList (recoverLines c e).2 a := by
        have h2 : (c.step e .recover).2.2 = some a := ha
        show (match (c.step e .recover).2.2 with | none => _ | some a => _) = _
        rw [h2]
        rfl
      have hn' : name = "Recovering".toList := hn
      subst hn'
      unfold recoverLines at hp
      split at hp
      · rename_i hst
        cases hq : (c.resetErrors (start e)).2.1 with
        | some t =>
          have hrl : recoverLines c e = ([⟨.error, t⟩], false) := by
            unfold recoverLines; rw [if_pos hst, hq]
          have hat : a = ⟨false, t⟩ := by
            rw [← hr]; unfold Chain.handleRecover; rw [if_pos hst]; simp only [hq]
          obtain ⟨l, h1, h2, h3, h4⟩ := endTrigger_one "Recovering".toList a
          refine ⟨[⟨.error, t⟩], l, ?_, h2, h4, .inr ⟨rfl, by rw [hat], by rw [hat]⟩⟩
          rw [hl, hrl]
          dsimp only
          rw [h1]
          rfl
        | none =>
          rw [hq] at hp
          dsimp only at hp
          split at hp
          · rename_i hw
            have hrl : recoverLines c e = ([⟨.warn, "Recovering".toList ++ " successful with warning(s): ".toList ++ a.message⟩], true) := by
              unfold recoverLines; rw [if_pos hst, hq]; dsimp only; rw [if_pos hw, hr]
            have hsucc : a.success = true := by
              rw [← hr]
              have : (c.handleRecover e).2.2.success = (c.handleRecover e).2.1.status.boundedWarn := by
                unfold Chain.handleRecover; rw [if_pos hst]; simp only [hq]
              rw [this]
              unfold Status.boundedWarn
              rw [hw]; rfl
            refine ⟨[], ⟨.warn, "Recovering".toList ++ " successful with warning(s): ".toList ++ a.message⟩, ?_, ?_, by simp [hsucc], .inl rfl⟩
            · rw [hl, hrl]
              simp [endTrigger, endResponse, startLine]
            · obtain ⟨s, m⟩ := a
              dsimp only at hsucc
              subst hsucc
              exact .warned m
          · exact absurd rfl hp
      · exact absurd rfl hp
  | init b => exact plain fun h => nomatch h
  | halt => exact plain fun h => nomatch h
  | shutdown => exact plain fun h => nomatch h
  | begin b => exact absurd hn id
  | cycle => exact absurd hn id

example : (serve (chainOf [quiet] false) env0 (.init true)).2 = [⟨.info, "Initializing...".toList⟩, ⟨.info, "Initializing successful".toList⟩] := rfl
example : (serve (chainOf [onInit (.error "x".toList)] false) env0 (.init true)).2 =
    [⟨.info, "Initializing...".toList⟩, ⟨.error, "Initializing failed: x".toList⟩] := rfl
example : (serve (chainOf [quiet] false) env0 .recover).2 = [⟨.info, "Recovering...".toList⟩, ⟨.error, "Recovering failed: not running".toList⟩] := rfl
example :
    let r := (chainOf [⟨fun m _ w _ => (w, if m = .recover then [.warn "w".toList] else [], none)⟩] false).run env0 [.init true, .halt]
    (serve r.1 r.2 .recover).2 = [⟨.info, "Recovering...".toList⟩, ⟨.warn, "Recovering successful with warning(s): w".toList⟩] := rfl
example :
    let r := (Chain.fresh [layer 1 quiet] true [fun w _ => (w, [], some "t".toList)] [] false).run env0 [.init true, .halt]
    (serve r.1 r.2 .recover).2 = [⟨.info, "Recovering...".toList⟩, ⟨.error, "t".toList⟩, ⟨.error, "Recovering failed: t".toList⟩] := rfl

/-- C107.  Warnings: the last line of a request is a warning exactly for a `recover` request on a chain that is not off whose error resets did not throw and whose
report contains warnings and nothing worse. -/
theorem C107_warning (c : Chain σ) (hr : ReachedChain c) (e : Env σ) (hb : c.blocked = false) :
    (∃ t, (⟨.warn, t⟩ : Line) ∈ (serve c e .recover).2) ↔
      (c.tree.state ≠ .off ∧ (c.resetErrors (start e)).2.1 = none ∧ (serve c e .recover).1.2.1.status.sev = .warn) := by
  obtain ⟨s, hg⟩ := reached_good hr
  have hst := good_state hg
  have hgt : c.tree.state.toNat > LayerState.init.toNat ↔ c.tree.state ≠ .off := by
    rw [hst]
    rcases hg.2.1 with rfl | rfl | rfl <;> decide
  have hs : (serve c e .recover).1.2.1 = (c.handleRecover e).2.1 := by simp [serve, Chain.step, hb]
  have hl : (serve c e .recover).2 = startLine "Recovering".toList :: (recoverLines c e).1 ++ endTrigger "Recovering".toList (recoverLines c e).2 (c.handleRecover e).2.2 := by
    have h2 : (c.step e .recover).2.2 = some (c.handleRecover e).2.2 := by simp [Chain.step, hb]
    show (match (c.step e .recover).2.2 with | none => _ | some a => _) = _
    rw [h2]
    rfl
  rw [hl, hs, ← hgt]
  have hno : ∀ t, (⟨.warn, t⟩ : Line) ∉ endTrigger "Recovering".toList false (c.handleRecover e).2.2 := by
    intro t ht
    obtain ⟨l, h1, -, h3, -⟩ := endTrigger_one "Recovering".toList (c.handleRecover e).2.2
    rw [h1] at ht
    rw [← List.mem_singleton.1 ht] at h3
    exact h3 rfl
  have hstart : ∀ t, (⟨.warn, t⟩ : Line) ≠ startLine "Recovering".toList := fun t h => by cases h
  have hnone : ∀ m, (∀ t, (⟨.warn, t⟩ : Line) ∉ m) → ¬ ∃ t, (⟨.warn, t⟩ : Line) ∈ startLine "Recovering".toList :: m ++ endTrigger "Recovering".toList false (c.handleRecover e).2.2 := by
    rintro m hm ⟨t, ht⟩
    rcases List.mem_append.1 ht with ht | ht
    · rcases List.mem_cons.1 ht with ht | ht
      · exact hstart t ht
      · exact hm t ht
    · exact hno t ht
  unfold recoverLines
  by_cases h1 : c.tree.state.toNat > LayerState.init.toNat
  · rw [if_pos h1]
    cases hq : (c.resetErrors (start e)).2.1 with
    | some t =>
      dsimp only
      exact ⟨fun h => absurd h (hnone _ (fun u hu => by cases List.mem_singleton.1 hu)), fun h => by cases h.2.1⟩
    | none =>
      dsimp only
      by_cases hw : (c.handleRecover e).2.1.status.sev = .warn
      · rw [if_pos hw]
        exact ⟨fun _ => ⟨h1, rfl, hw⟩, fun _ => ⟨_, List.mem_append_left _ (List.mem_cons_of_mem _ (List.mem_singleton.2 rfl))⟩⟩
      · rw [if_neg hw]
        exact ⟨fun h => absurd h (hnone _ (fun u hu => by cases hu)), fun h => absurd h.2.2 hw⟩
  · rw [if_neg h1]
    exact ⟨fun h => absurd h (hnone _ (fun u hu => by cases hu)), fun h => absurd h.1 h1⟩

example :
    let r := (chainOf [⟨fun m _ w _ => (w, if m = .recover then [.warn "w".toList] else [], none)⟩] false).run env0 [.init true, .halt]
    r.1.blocked = false ∧ r.1.tree.state ≠ .off ∧ (serve r.1 r.2 .recover).1.2.1.status.sev = .warn := ⟨rfl, by decide, rfl⟩

/-- C107.  Requests for objects: a line exactly for those that failed; it names the node and the reason. -/
theorem C107_objects (set : Bool) (node : Text) (a : OD.Answer) :
    (a.success = true → objectLines set node a = []) ∧
    (a.success = false → ∃ l, objectLines set node a = [l] ∧
      Tells ((if set then "Setting object ".toList else "Getting object ".toList) ++ node) ⟨false, a.message⟩ l) := by
  unfold objectLines endResponse
  refine ⟨fun h => by simp [h], fun h => ?_⟩
  by_cases hm : a.message = []
  · rw [hm]; simp only [h]; exact ⟨_, rfl, .failedPlain⟩
  · simp only [h, if_neg hm]; exact ⟨_, rfl, .failed _ hm⟩

example : objectLines false "arm1".toList ⟨false, "node not found".toList, []⟩ = [⟨.error, "Getting object arm1 failed: node not found".toList⟩] := rfl

/-- C107, an error line does not mean that the chain is not running: after warnings during `init` the line says that it failed although all layers are ready and
the control loop runs. -/
theorem C107_init_warning_false :
    let r := serve (chainOf [quiet, onInit (.warn "w".toList)] false) env0 (.init true)
    r.2 = [⟨.info, "Initializing...".toList⟩, ⟨.error, "Initializing failed: w".toList⟩] ∧
    states r.1.1.tree = (.ready, [.ready, .ready]) ∧ r.1.1.looping = 1 := ⟨rfl, rfl, rfl⟩

/-! ### control loop -/

private theorem hit_iff {last now : Nat} (h : last ≤ now) : hit last now = true ↔ last + 10000 ≤ now := by
  have e : hit last now = (decide (last + 10000 ≤ now) || decide (now < last)) := rfl
  rw [e, decide_eq_false (by omega : ¬ now < last), Bool.or_false, decide_eq_true_eq]

private theorem lines_after (s : Sites) (cs : List (Nat × Status)) (hf : Forward cs)
    (he : ∀ c ∈ cs, s.err ≤ c.1) (hw : ∀ c ∈ cs, s.warn ≤ c.1) :
    (∀ p ∈ loopLines s cs, (p.2.level = .error → s.err + 10000 ≤ p.1) ∧ (p.2.level = .warn → s.warn + 10000 ≤ p.1)) ∧
    (loopLines s cs).Pairwise fun p q => p.2.level = q.2.level → p.1 + 10000 ≤ q.1 := by
  induction cs generalizing s with
  | nil => exact ⟨by simp [loopLines], by simp [loopLines]⟩
  | cons c cs ih =>
    obtain ⟨now, st⟩ := c
    have hf' : Forward cs := (List.pairwise_cons.1 hf).2
    have hle : ∀ c ∈ cs, now ≤ c.1 := (List.pairwise_cons.1 hf).1
    have he0 := he (now, st) (by simp)
    have hw0 := hw (now, st) (by simp)
    dsimp only at he0 hw0
    have he' : ∀ c ∈ cs, s.err ≤ c.1 := fun c hc => he c (by simp [hc])
    have hw' : ∀ c ∈ cs, s.warn ≤ c.1 := fun c hc => hw c (by simp [hc])
    unfold loopLines
    dsimp only
    unfold cycleLines
    split
    · split
      · rename_i hhit
        have hh : s.err + 10000 ≤ now := (hit_iff (by assumption)).1 hhit
        obtain ⟨i1, i2⟩ := ih { s with err := now } hf' hle hw'
        simp only [List.map_cons, List.map_nil, List.cons_append, List.nil_append, List.mem_cons, List.pairwise_cons]
        refine ⟨?_, ?_, i2⟩
        · rintro p (rfl | hp)
          · exact ⟨fun _ => hh, (fun h => by cases h)⟩
          · have := i1 p hp
            dsimp only at this
            exact ⟨fun h => by have := this.1 h; omega, this.2⟩
        · intro q hq h
          have := (i1 q hq).1 h.symm
          dsimp only at this
          exact this
      · obtain ⟨i1, i2⟩ := ih s hf' he' hw'
        exact ⟨i1, i2⟩
    · split
      · split
        · rename_i hhit
          have hh : s.warn + 10000 ≤ now := (hit_iff (by assumption)).1 hhit
          obtain ⟨i1, i2⟩ := ih { s with warn := now } hf' he' hle
          simp only [List.map_cons, List.map_nil, List.cons_append, List.nil_append, List.mem_cons, List.pairwise_cons]
          refine ⟨?_, ?_, i2⟩
          · rintro p (rfl | hp)
            · exact ⟨(fun h => by cases h), fun _ => hh⟩
            · have := i1 p hp
              dsimp only at this
              exact ⟨this.1, fun h => by have := this.2 h; omega⟩
          · intro q hq h
            have := (i1 q hq).2 h.symm
            dsimp only at this
            exact this
        · obtain ⟨i1, i2⟩ := ih s hf' he' hw'
          exact ⟨i1, i2⟩
      · obtain ⟨i1, i2⟩ := ih s hf' he' hw'
        exact ⟨i1, i2⟩

/-- C107.  However fast the control loop runs, two of its error lines are at least ten seconds apart, and two of its warnings as well. -/
theorem C107_loop_rate (cs : List (Nat × Status)) (hf : Forward cs) :
    (loopLines ⟨0, 0⟩ cs).Pairwise fun p q => p.2.level = q.2.level → p.1 + 10000 ≤ q.1 :=
  (lines_after ⟨0, 0⟩ cs hf (fun _ _ => Nat.zero_le _) (fun _ _ => Nat.zero_le _)).2

private theorem warn_only (s : Status) (h : s.boundedWarn = true) (h' : s.sev ≠ .ok) : s.sev = .warn := by
  unfold Status.boundedWarn at h
  revert h h'
  cases s.sev <;> simp [Sev.toNat]

private theorem lines_told (s : Sites) (cs : List (Nat × Status)) (hf : Forward cs)
    (he : ∀ c ∈ cs, s.err ≤ c.1) (hw : ∀ c ∈ cs, s.warn ≤ c.1) :
    (∀ c ∈ cs, Bad c.2 → c.1 < s.err + 10000 ∨ ∃ c' ∈ cs, Bad c'.2 ∧ (c'.1, ⟨.error, c'.2.reason⟩) ∈ loopLines s cs ∧ c'.1 ≤ c.1 ∧ c.1 < c'.1 + 10000) ∧
    (∀ c ∈ cs, c.2.sev = .warn → c.1 < s.warn + 10000 ∨ ∃ c' ∈ cs, c'.2.sev = .warn ∧ (c'.1, ⟨.warn, c'.2.reason⟩) ∈ loopLines s cs ∧ c'.1 ≤ c.1 ∧
      c.1 < c'.1 + 10000) := by
  induction cs generalizing s with
  | nil => exact ⟨fun c hc => by simp at hc, fun c hc => by simp at hc⟩
  | cons c cs ih =>
    obtain ⟨now, st⟩ := c
    have hf' : Forward cs := (List.pairwise_cons.1 hf).2
    have hle : ∀ c ∈ cs, now ≤ c.1 := (List.pairwise_cons.1 hf).1
    have he0 := he (now, st) (by simp)
    have hw0 := hw (now, st) (by simp)
    dsimp only at he0 hw0
    have he' : ∀ c ∈ cs, s.err ≤ c.1 := fun c hc => he c (by simp [hc])
    have hw' : ∀ c ∈ cs, s.warn ≤ c.1 := fun c hc => hw c (by simp [hc])
    have hbad : Bad st ↔ st.boundedWarn = false := by
      unfold Bad; rw [← bounded_atMost]; simp
    have hmild : st.sev = .warn → st.boundedWarn = true := fun h => by unfold Status.boundedWarn; rw [h]; rfl
    unfold loopLines
    dsimp only
    unfold cycleLines
    cases hb : st.boundedWarn with
    | false =>
      simp only [Bool.not_false, if_true]
      by_cases hh : hit s.err now = true
      · rw [if_pos hh]
        obtain ⟨i1, i2⟩ := ih { s with err := now } hf' hle hw'
        dsimp only at i1 i2
        refine ⟨?_, ?_⟩
        · intro c hc hcb
          right
          rcases List.mem_cons.1 hc with rfl | hc
          · exact ⟨(now, st), by simp, hcb, by simp, Nat.le_refl _, Nat.lt_add_of_pos_right (by decide)⟩
          · rcases i1 c hc hcb with h | ⟨c', h1, h2, h3, h4⟩
            · exact ⟨(now, st), by simp, hbad.2 hb, by simp, hle c hc, h⟩
            · exact ⟨c', by simp [h1], h2, by simp [h3], h4⟩
        · intro c hc hcw
          rcases List.mem_cons.1 hc with rfl | hc
          · rw [hmild hcw] at hb; cases hb
          · rcases i2 c hc hcw with h | ⟨c', h1, h2, h3, h4⟩
            · exact .inl h
            · exact .inr ⟨c', by simp [h1], h2, by simp [h3], h4⟩
      · rw [if_neg hh]
        have hlt : now < s.err + 10000 := Nat.lt_of_not_le fun h => hh ((hit_iff he0).2 h)
        obtain ⟨i1, i2⟩ := ih s hf' he' hw'
        refine ⟨?_, ?_⟩
        · intro c hc hcb
          rcases List.mem_cons.1 hc with rfl | hc
          · exact .inl hlt
          · rcases i1 c hc hcb with h | ⟨c', h1, h2, h3, h4⟩
            · exact .inl h
            · exact .inr ⟨c', by simp [h1], h2, by simp [h3], h4⟩
        · intro c hc hcw
          rcases List.mem_cons.1 hc with rfl | hc
          · rw [hmild hcw] at hb; cases hb
          · rcases i2 c hc hcw with h | ⟨c', h1, h2, h3, h4⟩
            · exact .inl h
            · exact .inr ⟨c', by simp [h1], h2, by simp [h3], h4⟩
    | true =>
      simp only [Bool.not_true, Bool.false_eq_true, if_false]
      by_cases hok : st.sev = .ok
      · rw [if_neg (by simp [hok])]
        obtain ⟨i1, i2⟩ := ih s hf' he' hw'
        refine ⟨?_, ?_⟩
        · intro c hc hcb
          rcases List.mem_cons.1 hc with rfl | hc
          · rw [hbad.1 hcb] at hb; cases hb
          · rcases i1 c hc hcb with h | ⟨c', h1, h2, h3, h4⟩
            · exact .inl h
            · exact .inr ⟨c', by simp [h1], h2, by simp [h3], h4⟩
        · intro c hc hcw
          rcases List.mem_cons.1 hc with rfl | hc
          · dsimp only at hcw; rw [hok] at hcw; cases hcw
          · rcases i2 c hc hcw with h | ⟨c', h1, h2, h3, h4⟩
            · exact .inl h
            · exact .inr ⟨c', by simp [h1], h2, by simp [h3], h4⟩
      · rw [if_pos hok]
        have hwn := warn_only st hb hok
        by_cases hh : hit s.warn now = true
        · rw [if_pos hh]
          obtain ⟨i1, i2⟩ := ih { s with warn := now } hf' he' hle
          dsimp only at i1 i2
          refine ⟨?_, ?_⟩
          · intro c hc hcb
            rcases List.mem_cons.1 hc with rfl | hc
            · rw [hbad.1 hcb] at hb; cases hb
            · rcases i1 c hc hcb with h | ⟨c', h1, h2, h3, h4⟩
              · exact .inl h
              · exact .inr ⟨c', by simp [h1], h2, by simp [h3], h4⟩
          · intro c hc hcw
            right
            rcases List.mem_cons.1 hc with rfl | hc
            · exact ⟨(now, st), by simp, hcw, by simp, Nat.le_refl _, Nat.lt_add_of_pos_right (by decide)⟩
            · rcases i2 c hc hcw with h | ⟨c', h1, h2, h3, h4⟩
              · exact ⟨(now, st), by simp, hwn, by simp, hle c hc, h⟩
              · exact ⟨c', by simp [h1], h2, by simp [h3], h4⟩
        · rw [if_neg hh]
          have hlt : now < s.warn + 10000 := Nat.lt_of_not_le fun h => hh ((hit_iff hw0).2 h)
          obtain ⟨i1, i2⟩ := ih s hf' he' hw'
          refine ⟨?_, ?_⟩
          · intro c hc hcb
            rcases List.mem_cons.1 hc with rfl | hc
            · rw [hbad.1 hcb] at hb; cases hb
            · rcases i1 c hc hcb with h | ⟨c', h1, h2, h3, h4⟩
              · exact .inl h
              · exact .inr ⟨c', by simp [h1], h2, by simp [h3], h4⟩
          · intro c hc hcw
            rcases List.mem_cons.1 hc with rfl | hc
            · exact .inl hlt
            · rcases i2 c hc hcw with h | ⟨c', h1, h2, h3, h4⟩
              · exact .inl h
              · exact .inr ⟨c', by simp [h1], h2, by simp [h3], h4⟩

/-- C107.  From second ten of the clock on, every cycle that ends with an error is covered by an error line of the ten seconds before (or of itself)
with the reasons of a cycle that ended with an error, and every cycle that ends with warnings by such a warning. -/
theorem C107_loop_told_partial (cs : List (Nat × Status)) (hf : Forward cs) (c : Nat × Status) (hc : c ∈ cs) (h10 : 10000 ≤ c.1) :
    (Bad c.2 → ∃ c' ∈ cs, Bad c'.2 ∧ (c'.1, ⟨.error, c'.2.reason⟩) ∈ loopLines ⟨0, 0⟩ cs ∧ c'.1 ≤ c.1 ∧ c.1 < c'.1 + 10000) ∧
    (c.2.sev = .warn → ∃ c' ∈ cs, c'.2.sev = .warn ∧ (c'.1, ⟨.warn, c'.2.reason⟩) ∈ loopLines ⟨0, 0⟩ cs ∧ c'.1 ≤ c.1 ∧ c.1 < c'.1 + 10000) := by
  obtain ⟨h1, h2⟩ := lines_told ⟨0, 0⟩ cs hf (fun _ _ => Nat.zero_le _) (fun _ _ => Nat.zero_le _)
  refine ⟨fun hb => ?_, fun hw => ?_⟩
  · rcases h1 c hc hb with h | h
    · dsimp only at h; omega
    · exact h
  · rcases h2 c hc hw with h | h
    · dsimp only at h; omega
    · exact h

private theorem lines_only (s : Sites) (cs : List (Nat × Status)) (p : Nat × Line) (hp : p ∈ loopLines s cs) :
    ∃ c ∈ cs, p.1 = c.1 ∧ p.2.text = c.2.reason ∧ ((p.2.level = .error ∧ Bad c.2) ∨ (p.2.level = .warn ∧ c.2.sev = .warn)) := by
  induction cs generalizing s with
  | nil => simp [loopLines] at hp
  | cons c cs ih =>
    obtain ⟨now, st⟩ := c
    unfold loopLines at hp
    dsimp only at hp
    rcases List.mem_append.1 hp with hp | hp
    · refine ⟨(now, st), by simp, ?_⟩
      unfold cycleLines at hp
      split at hp
      · rename_i hb
        split at hp
        · simp at hp
          subst hp
          refine ⟨rfl, rfl, .inl ⟨rfl, ?_⟩⟩
          unfold Bad; rw [← bounded_atMost]; simpa using hb
        · simp at hp
      · rename_i hb
        split at hp
        · rename_i hok
          split at hp
          · simp at hp
            subst hp
            exact ⟨rfl, rfl, .inr ⟨rfl, warn_only st (by simpa using hb) hok⟩⟩
          · simp at hp
        · simp at hp
    · obtain ⟨c, hc, h⟩ := ih _ hp
      exact ⟨c, by simp [hc], h⟩

/-- C107.  The control loop writes nothing else: each line has the time, the reasons and the level of a cycle that ended with an error or with warnings. -/
theorem C107_loop_only (cs : List (Nat × Status)) (p : Nat × Line) (hp : p ∈ loopLines ⟨0, 0⟩ cs) :
    ∃ c ∈ cs, p.1 = c.1 ∧ p.2.text = c.2.reason ∧ ((p.2.level = .error ∧ Bad c.2) ∨ (p.2.level = .warn ∧ c.2.sev = .warn)) :=
  lines_only _ cs p hp

/-- an error that lasts: lines at 20 s, 30 s, 40 s -/
example : Forward [(20000, ⟨.error, "a".toList⟩), (25000, ⟨.error, "b".toList⟩), (30000, ⟨.error, "c".toList⟩), (31000, ⟨.warn, "d".toList⟩)] ∧
    loopLines ⟨0, 0⟩ [(20000, ⟨.error, "a".toList⟩), (25000, ⟨.error, "b".toList⟩), (30000, ⟨.error, "c".toList⟩), (31000, ⟨.warn, "d".toList⟩)] =
      [(20000, ⟨.error, "a".toList⟩), (30000, ⟨.error, "c".toList⟩), (31000, ⟨.warn, "d".toList⟩)] :=
  ⟨by simp [Forward], rfl⟩

/-- C107, not every error of the control loop is told: with a simulated clock, which starts at 0, nothing is told in the first ten seconds; and an error
with another reason than the one told is left out. -/
theorem C107_loop_false :
    loopLines ⟨0, 0⟩ [(9999, ⟨.error, "a".toList⟩)] = [] ∧
    loopLines ⟨0, 0⟩ [(20000, ⟨.error, "a".toList⟩), (25000, ⟨.error, "b".toList⟩)] = [(20000, ⟨.error, "a".toList⟩)] := ⟨rfl, rfl⟩

/-! ## C108 -/

/-- C108.  The node ends, in whatever state it is, after every history in which control threads begin before the `init` request that creates them is
answered: all layers are off, no control loop runs, the heartbeat is stopped and the end does not wait for ever. -/
theorem C108_end_partial (ms : List (Tree σ)) (rf : Bool) (em : List (Resetter σ)) (pubs : List (Publisher σ)) (sync : Bool)
    (hms : ∀ t ∈ ms, Uniform .off t) (e : Env σ) (evs : List Ev) (hv : ∀ v ∈ evs, Timely v) :
    let r := (Chain.fresh ms rf em pubs sync).run e evs
    let d := (destroy r.1 r.2).1
    Uniform .off d.tree ∧ d.looping = 0 ∧ d.running = false ∧ d.timer = false ∧ d.blocked = false ∧ d.bad = false ∧ d.leftNew = 0 := by
  intro r d
  have h : Neat r.1 := run_neat evs hv _ e (fresh_neat ms rf em pubs sync hms)
  obtain ⟨a1, a2, a3, a4, ⟨h, h2, h3, h4⟩ | ⟨h, h2, h3, h4⟩⟩ := h
  · have hst := good_state h
    have hh : Good .off (r.1.tree.halt (start r.2)).1 := by
      have := good_halt h (start r.2); simpa using this
    have hd : d = { r.1 with tree := (r.1.tree.halt (start r.2)).1 } := by
      show (destroy r.1 r.2).1 = _
      unfold destroy Chain.shutdownLayer
      dsimp only
      rw [if_neg (by simp [good_state hh])]
    rw [hd]
    exact ⟨hh.2.2, by simp [Chain.looping, a2, h3], h2, h4, a3, a4, a1⟩
  · have hh : ∃ s, s ≠ .off ∧ Good s (r.1.tree.halt (start r.2)).1 := by
      rcases h with h | h
      · exact ⟨.error, by decide, by have := good_halt h (start r.2); simpa using this⟩
      · exact ⟨.error, by decide, by have := good_halt h (start r.2); simpa using this⟩
    obtain ⟨s, hs, hh⟩ := hh
    let tr := ((r.1.tree.halt (start r.2)).1.shutdown (r.1.tree.halt (start r.2)).2).1
    have hd : d = { r.1 with tree := tr, timer := false, running := false, owned := none, leftLooping := 0 } := by
      show (destroy r.1 r.2).1 = _
      unfold destroy Chain.shutdownLayer
      dsimp only
      rw [if_pos (by rw [good_state hh]; exact hs)]
      unfold Chain.stopThread
      dsimp only
      rw [if_pos h2, h3]
    rw [hd]
    exact ⟨(good_shutdown hh _).2.2, by simp [Chain.looping], rfl, rfl, a3, a4, a1⟩

example : let r := (chainOf [quiet, quiet] true).run env0 [.init true, .cycle, .cycle]
    (destroy r.1 r.2).2.log.drop r.2.log.length = [(1, .halt), (1, .halt), (1, .shutdown), (1, .shutdown)] ∧ (destroy r.1 r.2).1.looping = 0 ∧
      r.1.looping = 1 := ⟨rfl, rfl, rfl⟩

/-- C108, the code does not keep it: if an initialisation failed before its thread began, this thread goes on with the destroyed node. -/
theorem C108_late_thread_false :
    let r := (chainOf [onInit (.error "x".toList)] false).run env0 [.init false, .begin false]
    (destroy r.1 r.2).1.looping = 1 ∧ (destroy r.1 r.2).1.running = true := ⟨rfl, rfl⟩

end Verif.Props
