import Verif.Spec.ChainDiag
import Verif.Props.Chain
import Verif.Props.MotorDiag
import Verif.Props.NodeLayer
import Verif.Props.CanLayer

/-!
# What the diagnostics of a chain tell about its layers and drives: C129
-/

namespace Verif.Props
open Verif Verif.Lay Verif.M402 Verif.Spec Verif.Spec.M402 Verif.Spec.CDiag
open Verif.Chain hiding Ev

variable {σ : Type}

private theorem set_le (s : Status) (v : Sev) (r : Text) : s.sev.toNat ≤ (s.set v r).sev.toNat ∧ v.toNat ≤ (s.set v r).sev.toNat := by
  unfold Status.set; dsimp only; split
  · exact ⟨by omega, Nat.le_refl _⟩
  · exact ⟨Nat.le_refl _, by omega⟩

private theorem report_le (s : Status) (r : Report) : s.sev.toNat ≤ (s.report r).sev.toNat ∧ weight r ≤ (s.report r).sev.toNat := by
  cases r with
  | warn t => exact set_le s .warn t
  | error t => exact set_le s .error t
  | stale t => exact set_le s .stale t

private theorem reports_le (rs : List Report) : ∀ s : Status, s.sev.toNat ≤ (rs.foldl Status.report s).sev.toNat ∧
    (∀ r ∈ rs, weight r ≤ (rs.foldl Status.report s).sev.toNat) := by
  induction rs with
  | nil => exact fun s => ⟨Nat.le_refl _, by simp⟩
  | cons r rs ih =>
    intro s
    obtain ⟨h1, h2⟩ := ih (s.report r)
    obtain ⟨g1, g2⟩ := report_le s r
    refine ⟨Nat.le_trans g1 h1, ?_⟩
    intro x hx
    rcases List.mem_cons.1 hx with rfl | hx
    · exact Nat.le_trans g2 h1
    · exact h2 x hx

/-- what one layer adds -/
private theorem call_le (id : Nat) (h : Handlers σ) (st : LayerState) (e : Env σ) :
    let e' := callHandler id h .diag st e
    let r := h.run .diag st e.world e.status
    e'.world = r.1 ∧ e.status.sev.toNat ≤ e'.status.sev.toNat ∧ (∀ x ∈ r.2.1, weight x ≤ e'.status.sev.toNat) ∧
      (r.2.2 ≠ none → 2 ≤ e'.status.sev.toNat) := by
  obtain ⟨h1, h2⟩ := reports_le (h.run .diag st e.world e.status).2.1 e.status
  unfold callHandler
  dsimp only
  cases hx : (h.run .diag st e.world e.status).2.2 with
  | none => exact ⟨rfl, h1, h2, fun hn => absurd rfl hn⟩
  | some t =>
    dsimp only
    obtain ⟨g1, g2⟩ := set_le ((h.run .diag st e.world e.status).2.1.foldl Status.report e.status) .error t
    exact ⟨rfl, Nat.le_trans h1 g1, fun x hx => Nat.le_trans (h2 x hx) g1, fun _ => g2⟩

/-- what is known of a report of a tree -/
private def Told (R : σ → σ → Prop) (hs : List (Handlers σ)) (e e' : Env σ) : Prop :=
  R e.world e'.world ∧ e.status.sev.toNat ≤ e'.status.sev.toNat ∧
  (∀ h ∈ hs, ∃ st w s, R e.world w ∧ (∀ x ∈ (h.run .diag st w s).2.1, weight x ≤ e'.status.sev.toNat) ∧
    ((h.run .diag st w s).2.2 ≠ none → 2 ≤ e'.status.sev.toNat))

private theorem told_diag (R : σ → σ → Prop) (hrefl : ∀ w, R w w) (htrans : ∀ a b c, R a b → R b c → R a c) (st : LayerState)
    (hst : LayerState.shutdown.toNat < st.toNat) (t : Tree σ) : ∀ e : Env σ, Uniform st t →
      (∀ h ∈ layers t, ∀ st w s, R w (h.run .diag st w s).1) → Told R (layers t) e (t.diag e).2 := by
  induction t using Tree.induct with
  | leaf id st' h tr =>
    intro e hu hR
    rw [uniform_leaf] at hu; subst hu
    unfold Tree.diag
    rw [if_pos hst]
    obtain ⟨h1, h2, h3, h4⟩ := call_le id h st' e
    simp only [layers, List.mem_singleton] at hR ⊢
    refine ⟨?_, h2, ?_⟩
    · rw [h1]; exact hR h rfl _ _ _
    · intro h' hh
      simp only [List.mem_singleton] at hh
      subst hh
      exact ⟨st', e.world, e.status, hrefl _, h3, h4⟩
  | group stack st' ms ih =>
    intro e hu hR
    rw [uniform_group] at hu
    obtain ⟨rfl, hu⟩ := hu
    unfold Tree.diag
    rw [if_pos hst]
    simp only [layers] at hR ⊢
    clear stack
    induction ms generalizing e with
    | nil => exact ⟨hrefl _, Nat.le_refl _, fun h hh => absurd hh (by simp [layersAll])⟩
    | cons t ts iht =>
      simp only [layersAll, List.mem_append] at hR ⊢
      have ut : Uniform st' t := hu t (List.mem_cons_self ..)
      have uts : ∀ x ∈ ts, Uniform st' x := fun x hx => hu x (List.mem_cons_of_mem _ hx)
      obtain ⟨a1, a2, a3⟩ := ih t (List.mem_cons_self ..) e ut (fun h hh => hR h (Or.inl hh))
      have hts : Told R (layersAll ts) (t.diag e).2 (diagList ts (t.diag e).2).2 := by
        apply iht
        · exact fun h hh => hR h (Or.inr hh)
        · exact fun x hx => ih x (List.mem_cons_of_mem _ hx)
        · exact uts
      obtain ⟨b1, b2, b3⟩ := hts
      unfold diagList
      dsimp only
      refine ⟨htrans _ _ _ a1 b1, Nat.le_trans a2 b2, ?_⟩
      · intro h hh
        rcases List.mem_append.1 hh with hh | hh
        · obtain ⟨s1, w, s2, r, c1, c2⟩ := a3 h hh
          exact ⟨s1, w, s2, r, fun x hx => Nat.le_trans (c1 x hx) b2, fun hx => Nat.le_trans (c2 hx) b2⟩
        · obtain ⟨s1, w, s2, r, c⟩ := b3 h hh
          exact ⟨s1, w, s2, htrans _ _ _ a1 r, c⟩

private theorem report_told (c : Chain σ) (hr : ReachedChain c) (e : Env σ) (hon : c.tree.state ≠ .off) (hrun : c.running = true)
    (R : σ → σ → Prop) (hrefl : ∀ w, R w w) (htrans : ∀ a b c, R a b → R b c → R a c)
    (hR : ∀ h ∈ layers c.tree, ∀ st w s, R w (h.run .diag st w s).1) :
    ∃ e', (c.report e).2.level = e'.status.sev ∧ Told R (layers c.tree) (start e) e' := by
  obtain ⟨s, hg, hset, hu⟩ := reached_good hr
  have hst : c.tree.state = s := good_state ⟨hg, hset, hu⟩
  refine ⟨(c.tree.diag (start e)).2, ?_, ?_⟩
  · unfold Chain.report
    rw [if_neg hon, hrun]; rfl
  · refine told_diag R hrefl htrans s ?_ c.tree (start e) hu hR
    rcases hset with rfl | rfl | rfl
    · exact absurd hst hon
    · decide
    · decide

private theorem set_max (s : Status) (v : Sev) (r : Text) : (s.set v r).sev.toNat = max s.sev.toNat v.toNat := by
  unfold Status.set; dsimp only; split <;> omega

private theorem reports_max (rs : List Report) : ∀ s : Status, (rs.foldl Status.report s).sev.toNat = (rs.map weight).foldl max s.sev.toNat := by
  induction rs with
  | nil => exact fun s => rfl
  | cons r rs ih =>
    intro s
    rw [List.foldl_cons, ih, List.map_cons, List.foldl_cons]
    congr 1
    cases r <;> exact set_max ..

/-- world and status after all were asked -/
private def afterAll (st : LayerState) : List (Handlers σ) → σ → Status → σ × Status
  | [], w, s => (w, s)
  | h :: hs, w, s =>
    let r := h.run .diag st w s
    let told := r.2.1.foldl Status.report s
    afterAll st hs r.1 (match r.2.2 with | none => told | some t => told.set .error t)

private theorem afterAll_append (st : LayerState) (a b : List (Handlers σ)) : ∀ w s,
    afterAll st (a ++ b) w s = afterAll st b (afterAll st a w s).1 (afterAll st a w s).2 := by
  induction a with
  | nil => exact fun w s => rfl
  | cons h a ih => exact fun w s => ih _ _

private theorem diag_after (st : LayerState) (hst : LayerState.shutdown.toNat < st.toNat) (t : Tree σ) : ∀ e : Env σ, Uniform st t →
    ((t.diag e).2.world, (t.diag e).2.status) = afterAll st (layers t) e.world e.status := by
  induction t using Tree.induct with
  | leaf id st' h tr =>
    intro e hu
    rw [uniform_leaf] at hu; subst hu
    unfold Tree.diag
    rw [if_pos hst]
    rfl
  | group stack st' ms ih =>
    intro e hu
    rw [uniform_group] at hu
    obtain ⟨rfl, hu⟩ := hu
    unfold Tree.diag
    rw [if_pos hst]
    simp only [layers]
    clear stack
    induction ms generalizing e with
    | nil => rfl
    | cons t ts iht =>
      have h1 := ih t (List.mem_cons_self ..) e (hu t (List.mem_cons_self ..))
      have h2 : ((diagList ts (t.diag e).2).2.world, (diagList ts (t.diag e).2).2.status) = afterAll st' (layersAll ts) (t.diag e).2.world (t.diag e).2.status := by
        apply iht
        · exact fun x hx => ih x (List.mem_cons_of_mem _ hx)
        · exact fun x hx => hu x (List.mem_cons_of_mem _ hx)
      simp only [layersAll]
      rw [afterAll_append, ← h1]
      unfold diagList
      exact h2

private theorem after_max (st : LayerState) (hs : List (Handlers σ)) : ∀ w s,
    (afterAll st hs w s).2.sev.toNat = ((interviews st hs w s).flatMap (said st)).foldl max s.sev.toNat := by
  induction hs with
  | nil => exact fun w s => rfl
  | cons h hs ih =>
    intro w s
    simp only [afterAll, interviews, List.flatMap_cons, List.foldl_append]
    rw [ih]
    congr 1
    simp only [said, List.foldl_append, ← reports_max]
    cases (h.run .diag st w s).2.2 with
    | none => rfl
    | some t => exact set_max ..

/-- C129.  While a chain is on and its control thread runs, its diagnostics show the worst that was said when all its layers were asked one after the other (0 if nothing
was said). -/
theorem C129_worst (c : Chain σ) (hr : ReachedChain c) (e : Env σ) (hon : c.tree.state ≠ .off) (hrun : c.running = true) :
    (c.report e).2.level.toNat = ((interviews c.tree.state (layers c.tree) e.world Status.initial).flatMap (said c.tree.state)).foldl max 0 := by
  obtain ⟨s, hg, hset, hu⟩ := reached_good hr
  have hst : c.tree.state = s := good_state ⟨hg, hset, hu⟩
  have hs : LayerState.shutdown.toNat < s.toNat := by
    rcases hset with rfl | rfl | rfl
    · exact absurd hst hon
    · decide
    · decide
  have hl : (c.report e).2.level = (c.tree.diag (start e)).2.status.sev := by
    unfold Chain.report
    rw [if_neg hon, hrun]; rfl
  have := diag_after s hs c.tree (start e) hu
  rw [hl, hst, show (c.tree.diag (start e)).2.status = (afterAll s (layers c.tree) e.world Status.initial).2 from congrArg Prod.snd this, after_max]
  rfl

private theorem run_app (a b : List Ev) : ∀ m : Motor, (m.run (a ++ b)).1 = ((m.run a).1.run b).1 := by
  induction a with
  | nil => exact fun m => rfl
  | cons e a ih => exact fun m => ih (m.step e).1

private theorem allowed_app {q : Bool} {a b : List Ev} (ha : Allowed q a) (hb : Allowed q b) : Allowed q (a ++ b) := by
  intro hq w d hx
  rcases List.mem_append.1 hx with hx | hx
  · exact ha hq w d hx
  · exact hb hq w d hx

/-- how the motor went on -/
private def On (q : Bool) (get : σ → Motor) (w w' : σ) : Prop := ∃ es, Allowed q es ∧ get w' = ((get w).run es).1

private theorem asked (c : Chain σ) (hr : ReachedChain c) (e : Env σ) (hon : c.tree.state ≠ .off) (hrun : c.running = true)
    (q : Bool) (get : σ → Motor) (h : Handlers σ) (hh : h ∈ layers c.tree) (hm : IsMotor q get h) (ho : ∀ h' ∈ layers c.tree, GoesOn q get h') :
    ∃ es between, Allowed q es ∧ Allowed q between ∧
      ∀ v ∈ ((get e.world).run es).1.handleDiag between, (if v = 1 then 1 else 2) ≤ (c.report e).2.level.toNat := by
  obtain ⟨e', hl, _, _, h3⟩ := report_told c hr e hon hrun (On q get)
    (fun w => ⟨[], (fun _ _ _ hx => absurd hx (List.not_mem_nil)), rfl⟩)
    (fun a b c hab hbc => by
      obtain ⟨x, hx, hx'⟩ := hab
      obtain ⟨y, hy, hy'⟩ := hbc
      exact ⟨x ++ y, allowed_app hx hy, by rw [run_app, ← hx', hy']⟩)
    (fun h' hh' st w s => ho h' hh' st w s)
  obtain ⟨st, w, s, ⟨es, hes, hw⟩, hc, _⟩ := h3 h hh
  obtain ⟨between, text, hb, _, hrep⟩ := hm st w s
  refine ⟨es, between, hes, hb, fun v hv => ?_⟩
  rw [hl]
  have hw' : get w = ((get e.world).run es).1 := hw
  rw [hrep, hw'] at hc
  have := hc _ (List.mem_map_of_mem hv)
  by_cases h1 : v = 1
  · simpa [h1, weight] using this
  · simpa [h1, weight] using this

private theorem lastWord_quiet (es l : List Ev) (h : Allowed true l) : lastWord (es ++ l) = lastWord es := by
  unfold lastWord
  rw [List.foldl_append]
  have : ∀ (l : List Ev) (o : Option (BitVec 16)), (∀ w d, Ev.read w d ∉ l) →
      l.foldl (fun s e => match e with | .read sw _ => some sw | _ => s) o = o := by
    intro l
    induction l with
    | nil => exact fun o _ => rfl
    | cons e l ih =>
      intro o h
      cases e with
      | read w d => exact absurd (List.mem_cons_self ..) (h w d)
      | _ => exact ih o (fun w d hx => h w d (List.mem_cons_of_mem _ hx))
  exact this l _ (h rfl)

private theorem lastWord_some (es l : List Ev) (sw : BitVec 16) (h : lastWord es = some sw) : ∃ sw', lastWord (es ++ l) = some sw' := by
  unfold lastWord at h ⊢
  rw [List.foldl_append, h]
  clear h
  induction l generalizing sw with
  | nil => exact ⟨sw, rfl⟩
  | cons e l ih =>
    cases e with
    | read w d => exact ih w
    | _ => exact ih sw

/-- C129 for a drive (partial: its status word is not read while the report is made).  The diagnostics of the chain show an error or worse if the drive's last status word
calls for one, at least a warning if it calls for one, and all right only if the drive is enabled without warning or limit. -/
theorem C129_drives_partial (c : Chain σ) (hr : ReachedChain c) (e : Env σ) (hon : c.tree.state ≠ .off) (hrun : c.running = true)
    (get : σ → Motor) (h : Handlers σ) (hh : h ∈ layers c.tree) (hm : IsMotor true get h) (ho : ∀ h' ∈ layers c.tree, GoesOn true get h')
    (m0 : Motor) (hf : M402.Fresh m0) (past : List Ev) (hp : get e.world = (m0.run past).1) (sw : BitVec 16) (hw : lastWord past = some sw) :
    (Alarming sw → 2 ≤ (c.report e).2.level.toNat) ∧ (Cautious sw → 1 ≤ (c.report e).2.level.toNat) ∧
    ((c.report e).2.level = .ok → fits "xxxxxxxxx01x0111".toList sw = true ∧ sw.getLsbD 7 = false ∧ sw.getLsbD 11 = false) := by
  obtain ⟨es, between, hes, hb, hc⟩ := asked c hr e hon hrun true get h hh hm ho
  rw [hp, ← run_app] at hc
  have hl : lastWord (past ++ es) = some sw := by rw [lastWord_quiet past es hes, hw]
  obtain ⟨r1, r2, r3, r4⟩ := C128_report_partial m0 hf (past ++ es) between sw hl (hb rfl)
  refine ⟨fun ha => ?_, fun ha => ?_, fun ha => ?_⟩
  · simpa using hc 2 (r1.2 ha)
  · simpa using hc 1 (r2.2 ha)
  · apply r4.1
    rw [ha] at hc
    cases hd : (m0.run (past ++ es)).1.handleDiag between with
    | nil => rfl
    | cons v l =>
      have := hc v (by rw [hd]; exact List.mem_cons_self ..)
      split at this <;> simp [Sev.toNat] at this

/-- C129 for a drive with any schedule: all right is shown only if at some moment of the report the drive's last status word was that of an enabled drive, and at some
moment one without warning and limit. -/
theorem C129_drives_any (c : Chain σ) (hr : ReachedChain c) (e : Env σ) (hon : c.tree.state ≠ .off) (hrun : c.running = true)
    (get : σ → Motor) (h : Handlers σ) (hh : h ∈ layers c.tree) (hm : IsMotor false get h) (ho : ∀ h' ∈ layers c.tree, GoesOn false get h')
    (m0 : Motor) (hf : M402.Fresh m0) (past : List Ev) (hp : get e.world = (m0.run past).1) (sw0 : BitVec 16) (hw : lastWord past = some sw0)
    (hok : (c.report e).2.level = .ok) :
    ∃ (es between : List Ev) (sw sw' : BitVec 16), lastWord (past ++ es) = some sw ∧ lastWord (past ++ es ++ between) = some sw' ∧
      fits "xxxxxxxxx01x0111".toList sw' = true ∧ sw.getLsbD 7 = false ∧ sw.getLsbD 11 = false := by
  obtain ⟨es, between, hes, hb, hc⟩ := asked c hr e hon hrun false get h hh hm ho
  rw [hp, ← run_app] at hc
  obtain ⟨sw, h1⟩ := lastWord_some past es sw0 hw
  obtain ⟨sw', h2⟩ := lastWord_some (past ++ es) between sw h1
  refine ⟨es, between, sw, sw', h1, h2, ?_⟩
  apply (C128_two_words m0 hf (past ++ es) between sw sw' h1 h2).2.2
  rw [hok] at hc
  cases hd : (m0.run (past ++ es)).1.handleDiag between with
  | nil => rfl
  | cons v l =>
    have := hc v (by rw [hd]; exact List.mem_cons_self ..)
    split at this <;> simp [Sev.toNat] at this

/-- C129 for a node.  No error is shown only if at some moment of the report the device was known to be operational, and its heartbeat, if it is supervised, was in time. -/
theorem C129_nodes (c : Chain σ) (hr : ReachedChain c) (e : Env σ) (hon : c.tree.state ≠ .off) (hrun : c.running = true)
    (R : σ → σ → Prop) (hR : Course R (layers c.tree)) (get : σ → Nmt.Node) (clock : σ → Int) (h : Handlers σ) (hh : h ∈ layers c.tree)
    (hn : IsNode get clock h) (hok : (c.report e).2.level.toNat < 2) :
    ∃ w, R e.world w ∧ (get w).state = 5 ∧
      ((get w).hb.present = true → (get w).hb.valid = true → (get w).hb.buf = 0 ∨ clock w ≤ (get w).hbTimeout) := by
  obtain ⟨e', hl, _, _, h3⟩ := report_told c hr e hon hrun R hR.refl hR.trans hR.layer
  rw [hl] at hok
  obtain ⟨st, w, s, hw, h1, h2⟩ := h3 h hh
  obtain ⟨sdo, text, hrep⟩ := hn st w s
  refine ⟨w, hw, ?_⟩
  have hnone : (get w).handleDiag (clock w) sdo = .nothing := by
    rw [hrep] at h1 h2
    cases hd : (get w).handleDiag (clock w) sdo with
    | nothing => rfl
    | notOperational x =>
      rw [hd] at h1
      have : 2 ≤ e'.status.sev.toNat := h1 (.error text) (List.mem_singleton.2 rfl)
      omega
    | heartbeatTimeout =>
      rw [hd] at h1
      have : 2 ≤ e'.status.sev.toNat := h1 (.error text) (List.mem_singleton.2 rfl)
      omega
    | exception =>
      rw [hd] at h2
      have : 2 ≤ e'.status.sev.toNat := h2 (by simp)
      omega
  have hop : (get w).state = 5 := by
    apply Classical.byContradiction
    intro hx
    unfold Nmt.Node.handleDiag at hnone
    rw [if_pos (show (get w).state ≠ Nmt.Operational from hx)] at hnone
    cases hnone
  exact ⟨hop, fun hp hv => (((C89_diag (get w) hp hv (clock w) sdo).2 hop).2.1 hnone)⟩

private def nodeLayer : Handlers Nmt.Node :=
  ⟨fun m _ w _ => match m with
    | .diag => (w, match w.handleDiag 0 none with
      | .nothing => ([], none)
      | .notOperational _ => ([.error []], none)
      | .heartbeatTimeout => ([.error []], none)
      | .exception => ([], some []))
    | _ => (w, [], none)⟩
private def aNode : Nmt.Node := Nmt.Node.fresh 1 true { present := true, dflt := some 250, conf := some 250, buf := 250, valid := true }
private def oneNode : Chain Nmt.Node :=
  ((Chain.fresh [.leaf 1 .off nodeLayer []] false [] [] true).run ⟨aNode, .initial, []⟩ [.init true]).1

example : ReachedChain oneNode ∧ oneNode.tree.state ≠ .off ∧ oneNode.running = true ∧ Course (· = ·) (layers oneNode.tree) ∧
    nodeLayer ∈ layers oneNode.tree ∧ IsNode id (fun _ => 0) nodeLayer ∧
    (oneNode.report ⟨{ aNode with state := 5 }, .initial, []⟩).2.level = .ok ∧ (oneNode.report ⟨aNode, .initial, []⟩).2.level = .error := by
  have hl : layers oneNode.tree = [nodeLayer] := rfl
  refine ⟨⟨_, false, [], [], true, ⟨aNode, .initial, []⟩, [.init true], by intro t ht; simp at ht; subst ht; rw [uniform_leaf], rfl⟩,
    by decide +kernel, by decide +kernel, ⟨fun _ => rfl, fun _ _ _ h1 h2 => h1.trans h2, ?_⟩, by rw [hl]; simp, fun _ _ _ => ⟨none, [], rfl⟩, ?_, ?_⟩
  · intro h hh st w s
    rw [hl] at hh
    simp only [List.mem_singleton] at hh
    subst hh; rfl
  · decide +kernel
  · decide +kernel

/-- C129 for the bus.  No error is shown only if at some moment of the report the driver was ready. -/
theorem C129_bus (c : Chain σ) (hr : ReachedChain c) (e : Env σ) (hon : c.tree.state ≠ .off) (hrun : c.running = true)
    (R : σ → σ → Prop) (hR : Course R (layers c.tree)) (get : σ → Drv.State × Frame) (h : Handlers σ) (hh : h ∈ layers c.tree)
    (hb : IsBus get h) (hok : (c.report e).2.level.toNat < 2) : ∃ w, R e.world w ∧ (get w).1.driver = .ready := by
  obtain ⟨e', hl, _, _, h3⟩ := report_told c hr e hon hrun R hR.refl hR.trans hR.layer
  rw [hl] at hok
  obtain ⟨st, w, s, hw, h1, _⟩ := h3 h hh
  obtain ⟨rs, vs, hd, hrep⟩ := hb st w s
  refine ⟨w, hw, ?_⟩
  rw [hrep] at h1
  apply Classical.byContradiction
  intro hn
  have hmem : Report.error "CAN layer not ready".toList ∈ rs := by
    unfold CanL.diag at hd
    simp only [if_neg hn] at hd
    split at hd
    · split at hd
      · injection hd with hd; injection hd with hd _; subst hd; exact List.mem_singleton.2 rfl
      · cases hd
    · injection hd with hd; injection hd with hd _; subst hd; exact List.mem_singleton.2 rfl
  have : 2 ≤ e'.status.sev.toNat := h1 _ hmem
  omega

private def busLayer : Handlers (Drv.State × Frame) :=
  ⟨fun m _ w _ => match m with
    | .diag => (w, if w.1.driver = .ready then [] else [.error "CAN layer not ready".toList], none)
    | _ => (w, [], none)⟩
private def noFrame : Frame := { id := 0, isError := false, isRtr := false, isExtended := false, data := Vector.replicate 8 0, dlc := 0 }
private def oneBus : Chain (Drv.State × Frame) :=
  ((Chain.fresh [.leaf 1 .off busLayer []] false [] [] true).run ⟨(⟨.ready, 0, 0⟩, noFrame), .initial, []⟩ [.init true]).1

-- the state of the driver as it is, with an error frame of no bytes
example : oneBus.tree.state ≠ .off ∧ oneBus.running = true ∧ layers oneBus.tree = [busLayer] ∧ Course (· = ·) (layers oneBus.tree) ∧
    IsBus (fun w => (w.1, noFrame)) busLayer ∧
    (oneBus.report ⟨(⟨.ready, 0, 0x40⟩, noFrame), .initial, []⟩).2.level = .ok ∧
    (oneBus.report ⟨(⟨.opened, 0, 0x40⟩, noFrame), .initial, []⟩).2.level = .error := by
  refine ⟨by decide +kernel, by decide +kernel, rfl, ⟨fun _ => rfl, fun _ _ _ h1 h2 => h1.trans h2, ?_⟩, ?_, by decide +kernel, by decide +kernel⟩
  · intro h hh st w s
    have hh : h ∈ [busLayer] := hh
    simp only [List.mem_singleton] at hh
    subst hh; rfl
  · intro st w s
    have h0 : noFrame.dlc.toNat ≤ 8 := by decide
    unfold CanL.diag
    simp only [h0, if_true]
    split
    · exact ⟨_, _, rfl, rfl⟩
    · exact ⟨_, _, rfl, rfl⟩

/-! a chain of two layers, a quiet one and the layer of a motor; while the motor makes its report, `between` happens to it -/

private def still : Handlers Motor := ⟨fun _ _ w _ => (w, [], none)⟩
private def motorLayer (between : List M402.Ev) : Handlers Motor :=
  ⟨fun m _ w _ => match m with
    | .diag => ((w.run between).1, (w.handleDiag between).map (fun v => if v = 1 then .warn [] else .error []), none)
    | _ => (w, [], none)⟩
private def twoLayers (between : List M402.Ev) : Chain Motor :=
  ((Chain.fresh [.leaf 1 .off still [], .leaf 2 .off (motorLayer between) []] false [] [] true).run ⟨aMotor, .initial, []⟩ [.init true]).1

private theorem two_reached (between : List M402.Ev) : ReachedChain (twoLayers between) :=
  ⟨_, false, [], [], true, ⟨aMotor, .initial, []⟩, [.init true],
    by intro t ht; simp at ht; rcases ht with rfl | rfl <;> rw [uniform_leaf], rfl⟩
private theorem two_layers (between : List M402.Ev) : layers (twoLayers between).tree = [still, motorLayer between] := rfl
private theorem two_motor (q : Bool) (between : List M402.Ev) (h : Allowed q between) : IsMotor q id (motorLayer between) :=
  fun _ _ _ => ⟨between, fun _ => [], h, rfl, rfl⟩
private theorem two_on (q : Bool) (between : List M402.Ev) (h : Allowed q between) : ∀ h' ∈ layers (twoLayers between).tree, GoesOn q id h' := by
  intro h' hh
  rw [two_layers] at hh
  simp only [List.mem_cons, List.not_mem_nil, or_false] at hh
  rcases hh with rfl | rfl
  · exact fun _ _ _ => ⟨[], (fun _ _ _ hx => absurd hx List.not_mem_nil), rfl⟩
  · exact fun _ _ _ => ⟨between, h, rfl⟩

-- with the drive switched on but not enabled a warning is shown, in a fault an error, and all right when it is enabled
example : let c := twoLayers [.write]
    c.tree.state ≠ .off ∧ c.running = true ∧ motorLayer [.write] ∈ layers c.tree ∧ IsMotor true id (motorLayer [.write]) ∧
    (∀ h' ∈ layers c.tree, GoesOn true id h') ∧ (c.report ⟨(aMotor.run [.read 0x0023 0]).1, .initial, []⟩).2.level = .warn ∧
    (c.report ⟨(aMotor.run [.read 0x0008 0]).1, .initial, []⟩).2.level = .error ∧ Alarming 0x0008 ∧
    (c.report ⟨(aMotor.run [.read 0x0027 0]).1, .initial, []⟩).2.level = .ok ∧
    (interviews c.tree.state (layers c.tree) (aMotor.run [.read 0x0023 0]).1 Status.initial).flatMap (said c.tree.state) = [1] := by
  have hq : Allowed true [M402.Ev.write] := by intro _ w d; simp
  refine ⟨by decide +kernel, by decide +kernel, by rw [two_layers]; simp, two_motor _ _ hq, two_on _ _ hq, by decide +kernel, by decide +kernel,
    Or.inr (Or.inr (Or.inl (by decide))), by decide +kernel, by decide +kernel⟩

/-- C129 fails when a status word is read while the report is made: the chain shows that all is right although the drive was in a fault before and has an active limit now. -/
theorem C129_mixed_false : ∃ (c : Chain Motor) (e : Env Motor) (h : Handlers Motor) (past later : List M402.Ev) (sw sw' : BitVec 16),
    ReachedChain c ∧ c.tree.state ≠ .off ∧ c.running = true ∧ h ∈ layers c.tree ∧ IsMotor false id h ∧ (∀ h' ∈ layers c.tree, GoesOn false id h') ∧
    e.world = (aMotor.run past).1 ∧ lastWord past = some sw ∧ (c.report e).1.world = (aMotor.run (past ++ later)).1 ∧
    lastWord (past ++ later) = some sw' ∧ Alarming sw ∧ Alarming sw' ∧ (c.report e).2.level = .ok := by
  have hq : Allowed false [M402.Ev.read 0x0827 0] := fun h => absurd h (by decide)
  exact ⟨twoLayers [.read 0x0827 0], ⟨(aMotor.run [.read 0x0008 0]).1, .initial, []⟩, motorLayer [.read 0x0827 0], [.read 0x0008 0], [.read 0x0827 0],
    0x0008, 0x0827, two_reached _, by decide +kernel, by decide +kernel, by rw [two_layers]; simp, two_motor _ _ hq, two_on _ _ hq, rfl, rfl, rfl, rfl,
    Or.inr (Or.inr (Or.inl (by decide))), Or.inr (Or.inr (Or.inr (Or.inr (by decide)))), by decide +kernel⟩

end Verif.Props
