import Verif.Spec.NodeLayer
import Verif.Lemmas.Node
import Verif.Lemmas.Master

/-! Lemmas about initialising, recovering and shutting down a node. -/

set_option linter.unusedSimpArgs false

namespace Verif.Nmt
open Verif Verif.Spec Verif.Spec.NodeLayer

/-- the state according to the log -/
def current (s : Byte) : List Item → Byte
  | [] => s
  | .told s' :: l => current s' l
  | .assumed s' :: l => current s' l
  | .isReset :: l => current PreOperational l
  | _ :: l => current s l

theorem current_append (s : Byte) (a b : List Item) : current s (a ++ b) = current (current s a) b := by
  induction a generalizing s with
  | nil => rfl
  | cons x a ih => cases x <;> simp [current, ih]

theorem work_append (a b : List Item) : work (a ++ b) = work a ++ work b := by
  induction a with
  | nil => rfl
  | cons x a ih => cases x <;> simp [work, ih]

theorem latest_cons (x : Item) (l : List Item) (s : Byte) (h : Latest l s) : Latest (x :: l) s := by
  obtain ⟨l1, y, l2, rfl, h⟩ := h
  exact ⟨x :: l1, y, l2, rfl, h⟩

theorem current_latest (s0 s : Byte) (l : List Item) (h : current s0 l = s) : Latest l s ∨
    (s0 = s ∧ ∀ y ∈ l, (∀ s', y = .told s' → s' = s) ∧ (∀ s', y = .assumed s' → s' = s) ∧ y ≠ .isReset) ∨
    (s = PreOperational ∧ Item.isReset ∈ l) := by
  induction l generalizing s0 with
  | nil => exact Or.inr (Or.inl ⟨h, by simp⟩)
  | cons x l ih =>
    cases x with
    | told a =>
      rcases ih a h with h1 | ⟨rfl, h1⟩ | ⟨h1, h2⟩
      · exact Or.inl (latest_cons _ _ _ h1)
      · exact Or.inl ⟨[], .told a, l, rfl, Or.inl rfl, h1⟩
      · exact Or.inr (Or.inr ⟨h1, by simp [h2]⟩)
    | assumed a =>
      rcases ih a h with h1 | ⟨rfl, h1⟩ | ⟨h1, h2⟩
      · exact Or.inl (latest_cons _ _ _ h1)
      · exact Or.inl ⟨[], .assumed a, l, rfl, Or.inr rfl, h1⟩
      · exact Or.inr (Or.inr ⟨h1, by simp [h2]⟩)
    | isReset =>
      rcases ih PreOperational h with h1 | ⟨rfl, h1⟩ | ⟨h1, h2⟩
      · exact Or.inl (latest_cons _ _ _ h1)
      · exact Or.inr (Or.inr ⟨rfl, by simp⟩)
      · exact Or.inr (Or.inr ⟨h1, by simp⟩)
    | sent f =>
      rcases ih s0 h with h1 | ⟨h0, h1⟩ | ⟨h1, h2⟩
      · exact Or.inl (latest_cons _ _ _ h1)
      · exact Or.inr (Or.inl ⟨h0, by simpa using h1⟩)
      · exact Or.inr (Or.inr ⟨h1, by simp [h2]⟩)
    | pdos =>
      rcases ih s0 h with h1 | ⟨h0, h1⟩ | ⟨h1, h2⟩
      · exact Or.inl (latest_cons _ _ _ h1)
      · exact Or.inr (Or.inl ⟨h0, by simpa using h1⟩)
      · exact Or.inr (Or.inr ⟨h1, by simp [h2]⟩)
    | configured =>
      rcases ih s0 h with h1 | ⟨h0, h1⟩ | ⟨h1, h2⟩
      · exact Or.inl (latest_cons _ _ _ h1)
      · exact Or.inr (Or.inl ⟨h0, by simpa using h1⟩)
      · exact Or.inr (Or.inr ⟨h1, by simp [h2]⟩)

theorem frame_node (i : Initing) (f : Frame) (t : Int) :
    (i.frame f t).pc = i.pc ∧ (i.frame f t).recovering = i.recovering ∧ (i.frame f t).node.id = i.node.id ∧
    (i.frame f t).node.phase = i.node.phase ∧ work (i.frame f t).log = work i.log ∧
    (i.node.state = current s i.log → (i.frame f t).node.state = current s (i.frame f t).log) ∧
    ((i.frame f t).log = i.log ∨ (i.frame f t).log = i.log ++ [.told f.data[0]]) := by
  obtain ⟨nd, pc, log, rec⟩ := i
  unfold Initing.frame
  simp only [Node.step]
  cases hl : nd.listening with
  | false => simp [hl]
  | true =>
    cases hi : nd.hb.interval none with
    | mk hb o =>
      cases o with
      | none => simp [hl, hi, Node.handleNMT]
      | some v =>
        simp only [hl, hi, Option.isSome_some, and_self, if_true, Node.handleNMT, switchState_state, switchState_rest, work_append, work,
          List.append_nil, current_append, current, true_and, implies_true, or_true, and_true]

/-- the work done when the calling thread is at a place -/
def Done (node : Byte) (recovering : Bool) : Pc → List Item → Prop
  | .listen, w => w = []
  | .sdo, w => w = []
  | .reset, w => w = []
  | .resetting, w => w = (plan node).take 1
  | .pdo, w => w = (plan node).take 2
  | .values, w => w = (plan node).take 3
  | .sdoAgain, w => w = (plan node).take 4
  | .start, w => w = (plan node).take 4
  | .starting, w => w = if recovering then (plan node).drop 4 else plan node
  | .done .fine, w => w = if recovering then (plan node).drop 4 else plan node
  | .done _, w => ∃ k, w = if recovering then (plan node).drop 4 else (plan node).take k

/-- where the command is when the calling thread is at a place -/
def Phased : Pc → Phase → Prop
  | .resetting, p => (∃ d, p = .waiting .resetCom d) ∨ p = .finishing .resetCom
  | .starting, p => ∃ d, p = .waiting .start d
  | _, p => p = .idle

structure InitInv (n0 : Node) (r : Bool) (i : Initing) : Prop where
  id : i.node.id = n0.id
  isRec : i.recovering = r
  places : r = true → i.pc = .starting ∨ ∃ x, i.pc = .done x
  work : Done n0.id r i.pc (work i.log)
  phase : Phased i.pc i.node.phase
  state : (∀ x, i.pc ≠ .done x) → i.node.state = current n0.state i.log
  early : i.pc = .listen ∨ i.pc = .sdo ∨ i.pc = .reset ∨ i.pc = .resetting → ∀ s, Item.assumed s ∉ i.log
  boot : n0.state ≠ BootUp → i.node.phase = .finishing .resetCom → Item.told BootUp ∈ i.log
  ready : n0.state ≠ BootUp → Item.isReset ∈ i.log → ∃ l1 l2, i.log = l1 ++ .isReset :: l2 ∧ Item.told BootUp ∈ l1

theorem told_early (s0 : Byte) (l : List Item) (h0 : s0 ≠ BootUp) (h : current s0 l = BootUp) (ha : ∀ s, Item.assumed s ∉ l) : Item.told BootUp ∈ l := by
  rcases current_latest s0 BootUp l h with ⟨l1, x, l2, rfl, hx | hx, _⟩ | ⟨h1, _⟩ | ⟨h1, _⟩
  · simp [hx]
  · subst hx
    exact absurd (by simp) (ha BootUp)
  · exact absurd h1 h0
  · cases h1

theorem mem_work (l : List Item) : Item.isReset ∈ work l ↔ Item.isReset ∈ l := by
  induction l with
  | nil => simp [work]
  | cons x l ih => cases x <;> simp [work, ih]

theorem frame_inv (n0 : Node) (r : Bool) (i : Initing) (f : Frame) (t : Int) (h : InitInv n0 r i) : InitInv n0 r (i.frame f t) := by
  obtain ⟨a1, a2, a3, a4, a5, a6, a7, a8, a9⟩ := h
  obtain ⟨f1, f2, f3, f4, f5, f6, f7⟩ := frame_node (s := n0.state) i f t
  refine ⟨by rw [f3, a1], by rw [f2, a2], by rw [f1]; exact a3, by rw [f1, f5]; exact a4, by rw [f1, f4]; exact a5, ?_, ?_, ?_, ?_⟩
  · rw [f1]
    intro hx
    exact f6 (a6 hx)
  · rw [f1]
    intro hp s hs
    rcases f7 with f7 | f7 <;> rw [f7] at hs
    · exact a7 hp s hs
    · simp only [List.mem_append, List.mem_singleton, reduceCtorEq, or_false] at hs
      exact a7 hp s hs
  · rw [f4]
    intro h0 hp
    have := a8 h0 hp
    rcases f7 with f7 | f7 <;> rw [f7]
    · exact this
    · exact List.mem_append_left _ this
  · intro h0
    rcases f7 with f7 | f7 <;> rw [f7]
    · exact a9 h0
    · intro hm
      simp only [List.mem_append, List.mem_singleton, reduceCtorEq, or_false] at hm
      obtain ⟨l1, l2, h1, h2⟩ := a9 h0 hm
      exact ⟨l1, l2 ++ [.told f.data[0]], by rw [h1]; simp, h2⟩

/-- how a reset goes on -/
theorem resetting_cont (i : Initing) (e : Ev) (to : Bool) (hp : i.pc = .resetting) (hph : (∃ d, i.node.phase = .waiting .resetCom d) ∨ i.node.phase = .finishing .resetCom)
    (he : e = .wake ∨ (∃ now sdo, e = .expire now sdo) ∨ ∃ ok, e = .finish ok) :
    i.cont e to = i ∨
    (i.node.state = BootUp ∧ (∃ d, i.node.phase = .waiting .resetCom d) ∧ i.cont e to = { i with node := { i.node with phase := .finishing .resetCom } }) ∨
    (∃ hb, i.cont e to = { i with node := { i.node with hb := hb, phase := .idle }, pc := .done (if to then .error else .exception) }) ∨
    (∃ hb, i.cont e to = { i with node := { i.node with hb := hb, phase := .idle }, pc := .done .error }) ∨
    (∃ n', i.cont e to = { i with node := n', pc := .done .error, log := i.log ++ [.assumed BootUp] } ∧ n'.id = i.node.id ∧ n'.phase = .idle) ∨
    (i.node.phase = .finishing .resetCom ∧ (∃ hb, i.cont e to =
      { i with node := { i.node with state := PreOperational, hb := hb, phase := .idle }, pc := .done (if to then .error else .exception) })) ∨
    (i.node.phase = .finishing .resetCom ∧ (∃ hb, i.cont e to =
      { i with node := { i.node with state := PreOperational, hb := hb, phase := .idle }, pc := .pdo, log := i.log ++ [.isReset] })) := by
  obtain ⟨nd, pc, log, rc⟩ := i
  obtain ⟨nid, nsync, nst, nhb, nt, nsy, nl, nph⟩ := nd
  subst hp
  dsimp only at hph ⊢
  rcases hph with ⟨d, rfl⟩ | rfl
  · rcases he with rfl | ⟨now, sdo, rfl⟩ | ⟨ok, rfl⟩
    · by_cases hs : nst = BootUp
      · right; left
        refine ⟨hs, ⟨d, rfl⟩, ?_⟩
        simp [Initing.cont, Initing.command, Node.step, hs, Cmd.target, Node.waited, Cmd.isReset, items]
      · left
        simp [Initing.cont, Initing.command, Node.step, hs, Cmd.target, items]
    · by_cases ht : now < d
      · left
        simp [Initing.cont, Initing.command, Node.step, ht, items]
      by_cases hs : nst = BootUp
      · right; left
        refine ⟨hs, ⟨d, rfl⟩, ?_⟩
        simp [Initing.cont, Initing.command, Node.step, hs, ht, Cmd.target, Node.waited, Cmd.isReset, items]
      · cases hi : nhb.interval sdo with
        | mk hb o =>
          cases o with
          | none =>
            right; right; left
            refine ⟨hb, ?_⟩
            simp [Initing.cont, Initing.command, Node.step, hs, ht, hi, Cmd.target, Node.waited, Cmd.isReset, items]
          | some v =>
            by_cases hv : v = 0
            · right; right; right; right; left
              refine ⟨{ ((⟨nid, nsync, nst, hb, nt, nsy, nl, .waiting .resetCom d⟩ : Node).switchState BootUp).1 with phase := .idle }, ?_, ?_, rfl⟩
              · have hso := switchState_out (⟨nid, nsync, nst, hb, nt, nsy, nl, .waiting .resetCom d⟩ : Node) BootUp
                rw [if_neg (show ¬ BootUp = (⟨nid, nsync, nst, hb, nt, nsy, nl, .waiting .resetCom d⟩ : Node).state from fun e => hs e.symm)] at hso
                simp [Initing.cont, Initing.command, Node.step, hs, ht, hi, show v = 0#16 from hv, hso, Cmd.target, Node.waited, Cmd.isReset, items]
              · exact (switchState_rest _ _).2.2.2.2.1
            · right; right; right; left
              refine ⟨hb, ?_⟩
              simp [Initing.cont, Initing.command, Node.step, hs, ht, hi, show ¬ v = 0#16 from hv, Cmd.target, Node.waited, Cmd.isReset, items]
    · left
      simp [Initing.cont, Initing.command, Node.step, items]
  · rcases he with rfl | ⟨now, sdo, rfl⟩ | ⟨ok, rfl⟩
    · left
      simp [Initing.cont, Initing.command, Node.step, items]
    · left
      simp [Initing.cont, Initing.command, Node.step, items]
    · cases hpr : nhb.present with
      | false =>
        iterate 6 right
        refine ⟨rfl, nhb, ?_⟩
        simp [Initing.cont, Initing.command, Node.step, hpr, items]
      | true =>
        cases hc : nhb.conf with
        | none =>
          iterate 5 right
          left
          refine ⟨rfl, nhb, ?_⟩
          simp [Initing.cont, Initing.command, Node.step, hpr, hc, items]
        | some v =>
          cases ok with
          | true =>
            iterate 6 right
            refine ⟨rfl, { nhb with buf := v, valid := true }, ?_⟩
            simp [Initing.cont, Initing.command, Node.step, hpr, hc, items]
          | false =>
            iterate 5 right
            left
            refine ⟨rfl, { nhb with buf := v, valid := true }, ?_⟩
            simp [Initing.cont, Initing.command, Node.step, hpr, hc, items]

/-- how a start goes on -/
theorem starting_cont (i : Initing) (e : Ev) (to : Bool) (hp : i.pc = .starting) (hph : ∃ d, i.node.phase = .waiting .start d)
    (he : e = .wake ∨ (∃ now sdo, e = .expire now sdo) ∨ ∃ ok, e = .finish ok) :
    i.cont e to = i ∨
    (i.node.state = Operational ∧ i.cont e to = { i with node := { i.node with phase := .idle }, pc := .done .fine }) ∨
    (∃ hb, i.cont e to = { i with node := { i.node with hb := hb, phase := .idle }, pc := .done (if to then .error else .exception) }) ∨
    (i.node.state ≠ Operational ∧ (∃ now sdo hb v, e = .expire now sdo ∧ i.node.hb.interval sdo = (hb, some v) ∧ v ≠ 0 ∧
      i.cont e to = { i with node := { i.node with hb := hb, phase := .idle }, pc := .done (if i.recovering then .fine else .error) })) ∨
    (∃ n', i.cont e to = { i with node := n', pc := .done .fine, log := i.log ++ [.assumed Operational] } ∧ n'.id = i.node.id ∧ n'.phase = .idle ∧
      n'.state = Operational ∧ ∃ now sdo, e = .expire now sdo ∧ (i.node.hb.interval sdo).2 = some 0) := by
  obtain ⟨nd, pc, log, rc⟩ := i
  obtain ⟨nid, nsync, nst, nhb, nt, nsy, nl, nph⟩ := nd
  subst hp
  obtain ⟨d, hph⟩ := hph
  dsimp only at hph
  subst hph
  dsimp only
  rcases he with rfl | ⟨now, sdo, rfl⟩ | ⟨ok, rfl⟩
  · by_cases hs : nst = Operational
    · right; left
      refine ⟨hs, ?_⟩
      simp [Initing.cont, Initing.command, Node.step, hs, Cmd.target, Node.waited, Cmd.isReset, items]
    · left
      simp [Initing.cont, Initing.command, Node.step, hs, Cmd.target, items]
  · by_cases ht : now < d
    · left
      simp [Initing.cont, Initing.command, Node.step, ht, items]
    by_cases hs : nst = Operational
    · right; left
      refine ⟨hs, ?_⟩
      simp [Initing.cont, Initing.command, Node.step, hs, ht, Cmd.target, Node.waited, Cmd.isReset, items]
    · cases hi : nhb.interval sdo with
      | mk hb o =>
        cases o with
        | none =>
          right; right; left
          refine ⟨hb, ?_⟩
          simp [Initing.cont, Initing.command, Node.step, hs, ht, hi, Cmd.target, Node.waited, Cmd.isReset, items]
        | some v =>
          by_cases hv : v = 0
          · iterate 4 right
            refine ⟨{ ((⟨nid, nsync, nst, hb, nt, nsy, nl, .waiting .start d⟩ : Node).switchState Operational).1 with phase := .idle }, ?_, ?_, rfl, switchState_state _ _, now, sdo, rfl, by rw [hi, hv]⟩
            · have hso := switchState_out (⟨nid, nsync, nst, hb, nt, nsy, nl, .waiting .start d⟩ : Node) Operational
              rw [if_neg (show ¬ Operational = (⟨nid, nsync, nst, hb, nt, nsy, nl, .waiting .start d⟩ : Node).state from fun e => hs e.symm)] at hso
              simp [Initing.cont, Initing.command, Node.step, hs, ht, hi, show v = 0#16 from hv, hso, Cmd.target, Node.waited, Cmd.isReset, items]
            · exact (switchState_rest _ _).2.2.2.2.1
          · right; right; right; left
            refine ⟨hs, now, sdo, hb, v, rfl, hi, hv, ?_⟩
            simp [Initing.cont, Initing.command, Node.step, hs, ht, hi, show ¬ v = 0#16 from hv, Cmd.target, Node.waited, Cmd.isReset, items]
  · left
    simp [Initing.cont, Initing.command, Node.step, items]

theorem cont_inv (n0 : Node) (r : Bool) (i : Initing) (e : Ev) (to : Bool) (he : e = .wake ∨ (∃ now sdo, e = .expire now sdo) ∨ ∃ ok, e = .finish ok)
    (h : InitInv n0 r i) : InitInv n0 r (i.cont e to) := by
  obtain ⟨a1, a2, a3, a4, a5, a6, a7, a8, a9⟩ := h
  have hrf : i.pc = .resetting → r = false := by
    intro hp
    cases r with
    | false => rfl
    | true =>
      rcases a3 rfl with h | ⟨x, h⟩ <;> rw [hp] at h <;> cases h
  by_cases hp : i.pc = .resetting
  · rw [hp] at a4 a5 a6 a7
    have hr := hrf hp
    subst hr
    simp only [Done, Phased] at a4 a5
    have a6' := a6 (by simp)
    have a7' := a7 (by simp)
    have hnone : Item.isReset ∉ i.log := by
      rw [← mem_work, a4]
      simp [plan]
    rcases resetting_cont i e to hp a5 he with hc | ⟨hs, ⟨d, hd⟩, hc⟩ | ⟨hb, hc⟩ | ⟨hb, hc⟩ | ⟨n', hc, hn1, hn2⟩ | ⟨hf, hb, hc⟩ | ⟨hf, hb, hc⟩
    · rw [hc]
      exact ⟨a1, a2, a3, by rw [hp]; exact a4, by rw [hp]; exact a5, fun _ => a6', fun _ => a7', a8, a9⟩
    · rw [hc]
      refine ⟨a1, a2, fun h => (nomatch h), ?_, ?_, fun _ => a6', fun _ => a7', fun h0 _ => ?_, a9⟩
      · show Done n0.id false i.pc _
        rw [hp]
        exact a4
      · show Phased i.pc _
        rw [hp]
        exact Or.inr rfl
      · exact told_early n0.state i.log h0 (by rw [← a6', hs]) a7'
    · rw [hc]
      refine ⟨a1, a2, fun h => (nomatch h), ?_, rfl, fun h => absurd rfl (h _), by simp, fun _ h => (nomatch h), a9⟩
      cases to <;> exact ⟨1, a4⟩
    · rw [hc]
      exact ⟨a1, a2, fun h => (nomatch h), ⟨1, a4⟩, rfl, fun h => absurd rfl (h _), by simp, fun _ h => (nomatch h), a9⟩
    · rw [hc]
      refine ⟨by rw [← a1]; exact hn1, a2, fun h => (nomatch h), ⟨1, ?_⟩, hn2, fun h => absurd rfl (h _), by simp,
        fun _ h => absurd (hn2.symm.trans h) (by simp), fun h0 hm => ?_⟩
      · show work (i.log ++ [Item.assumed BootUp]) = _
        rw [work_append, a4]
        rfl
      · have hm : Item.isReset ∈ i.log ++ [Item.assumed BootUp] := hm
        simp only [List.mem_append, List.mem_singleton, reduceCtorEq, or_false] at hm
        exact absurd hm hnone
    · rw [hc]
      refine ⟨a1, a2, fun h => (nomatch h), ?_, rfl, fun h => absurd rfl (h _), by simp, fun _ h => (nomatch h), a9⟩
      cases to <;> exact ⟨1, a4⟩
    · rw [hc]
      refine ⟨a1, a2, fun h => (nomatch h), ?_, rfl, fun _ => ?_, by simp, fun _ h => (nomatch h), fun h0 _ => ⟨i.log, [], rfl, a8 h0 hf⟩⟩
      · show work (i.log ++ [Item.isReset]) = _
        rw [work_append, a4]
        rfl
      · show PreOperational = current n0.state (i.log ++ [Item.isReset])
        rw [current_append]
        rfl
  · by_cases hq : i.pc = .starting
    · rw [hq] at a4 a5 a6 a7
      simp only [Done, Phased] at a4 a5
      have a6' := a6 (by simp)
      rcases starting_cont i e to hq a5 he with hc | ⟨hs, hc⟩ | ⟨hb, hc⟩ | ⟨hs, now, sdo, hb, v, _, _, _, hc⟩ | ⟨n', hc, hn1, hn2, hn3, _⟩
      · rw [hc]
        exact ⟨a1, a2, a3, by rw [hq]; exact a4, by rw [hq]; exact a5, fun _ => a6', by rw [hq]; simp, a8, a9⟩
      · rw [hc]
        exact ⟨a1, a2, fun _ => Or.inr ⟨_, rfl⟩, a4, rfl, fun h => absurd rfl (h _), by simp, fun _ h => (nomatch h), a9⟩
      · rw [hc]
        refine ⟨a1, a2, fun _ => Or.inr ⟨_, rfl⟩, ?_, rfl, fun h => absurd rfl (h _), by simp, fun _ h => (nomatch h), a9⟩
        cases to <;> exact ⟨5, by rw [a4]; rfl⟩
      · rw [hc]
        refine ⟨a1, a2, fun _ => Or.inr ⟨_, rfl⟩, ?_, rfl, fun h => absurd rfl (h _), by simp, fun _ h => (nomatch h), a9⟩
        rw [a2]
        cases r
        · exact ⟨5, by rw [a4]; rfl⟩
        · exact a4
      · rw [hc]
        refine ⟨by rw [← a1]; exact hn1, a2, fun _ => Or.inr ⟨_, rfl⟩, ?_, hn2, fun h => absurd rfl (h _), by simp,
          fun _ h => absurd (hn2.symm.trans h) (by simp), fun h0 hm => ?_⟩
        · show work (i.log ++ [Item.assumed Operational]) = _
          rw [work_append, a4]
          simp [work]
        · have hm : Item.isReset ∈ i.log ++ [Item.assumed Operational] := hm
          simp only [List.mem_append, List.mem_singleton, reduceCtorEq, or_false] at hm
          obtain ⟨l1, l2, h1, h2⟩ := a9 h0 hm
          exact ⟨l1, l2 ++ [.assumed Operational], by show i.log ++ [Item.assumed Operational] = _; rw [h1]; simp, h2⟩
    · have : i.cont e to = i := by
        unfold Initing.cont
        cases h : i.pc <;> simp_all
      rw [this]
      exact ⟨a1, a2, a3, a4, a5, a6, a7, a8, a9⟩

theorem call_step (n : Node) (c : Cmd) (now : Int) (h : n.phase = .idle) :
    n.step (.call c now) = ({ n with hb := if c.isReset then n.hb.reset else n.hb, phase := .waiting c (now + c.timeout) }, [.sent (nmtFrame c.code n.id)]) := by
  simp [Node.step, h]

theorem items_call (f : Frame) : items [.sent f] = [.sent f] := rfl

theorem step_inv (n0 : Node) (r : Bool) (i : Initing) (e : IEv) (h : InitInv n0 r i) : InitInv n0 r (i.step e) := by
  cases e with
  | frame f t => exact frame_inv n0 r i f t h
  | wake => exact cont_inv n0 r i .wake false (Or.inl rfl) h
  | expire now sdo to => exact cont_inv n0 r i _ to (Or.inr (Or.inl ⟨now, sdo, rfl⟩)) h
  | finish ok to => exact cont_inv n0 r i _ to (Or.inr (Or.inr ⟨ok, rfl⟩)) h
  | next p now =>
    have hh := h
    obtain ⟨a1, a2, a3, a4, a5, a6, a7, a8, a9⟩ := h
    have hrf : (∀ x, i.pc ≠ .done x) → i.pc ≠ .starting → r = false := by
      intro h1 h2
      cases r with
      | false => rfl
      | true =>
        rcases a3 rfl with h | ⟨x, h⟩
        · exact absurd h h2
        · exact absurd h (h1 x)
    cases hp : i.pc with
    | listen =>
      have hr := hrf (by rw [hp]; simp) (by rw [hp]; simp)
      subst hr
      rw [hp] at a4 a5 a6 a7
      simp only [Initing.step, Initing.next, hp]
      exact ⟨a1, a2, fun h => (nomatch h), a4, a5, fun _ => a6 (by simp), fun _ => a7 (by simp), a8, a9⟩
    | sdo =>
      have hr := hrf (by rw [hp]; simp) (by rw [hp]; simp)
      subst hr
      rw [hp] at a4 a5 a6 a7
      have f : ∀ x, x ≠ Report.fine → Done n0.id false (.done x) (work i.log) := by
        intro x hx
        cases x with
        | fine => exact absurd rfl hx
        | error => exact ⟨0, a4⟩
        | exception => exact ⟨0, a4⟩
      simp only [Initing.step, Initing.next, hp]
      cases p <;> simp only [if_true, reduceCtorEq, if_false]
      · exact ⟨a1, a2, fun h => (nomatch h), a4, a5, fun _ => a6 (by simp), fun _ => a7 (by simp), a8, a9⟩
      all_goals exact ⟨a1, a2, fun h => (nomatch h), f _ (by simp), a5, fun h => absurd rfl (h _), by simp, a8, a9⟩
    | reset =>
      have hr := hrf (by rw [hp]; simp) (by rw [hp]; simp)
      subst hr
      rw [hp] at a4 a5 a6 a7
      simp only [Initing.step, Initing.next, hp]
      cases p <;> simp only [if_true, reduceCtorEq, if_false]
      · simp only [call_step _ _ _ a5, items_call]
        refine ⟨a1, a2, fun h => (nomatch h), ?_, Or.inl ⟨_, rfl⟩, fun _ => ?_, fun _ s hs => ?_, fun _ h => (nomatch h), fun h0 hm => ?_⟩
        · show work (i.log ++ [.sent (nmtFrame Cmd.resetCom.code i.node.id)]) = _
          rw [work_append, show work i.log = [] from a4, a1]
          rfl
        · show i.node.state = current n0.state (i.log ++ [.sent (nmtFrame Cmd.resetCom.code i.node.id)])
          rw [current_append, ← a6 (by simp)]
          rfl
        · have hs : Item.assumed s ∈ i.log ++ [.sent (nmtFrame Cmd.resetCom.code i.node.id)] := hs
          simp only [List.mem_append, List.mem_singleton, reduceCtorEq, or_false] at hs
          exact a7 (by simp) s hs
        · have hm : Item.isReset ∈ i.log ++ [.sent (nmtFrame Cmd.resetCom.code i.node.id)] := hm
          simp only [List.mem_append, List.mem_singleton, reduceCtorEq, or_false] at hm
          rw [← mem_work, show work i.log = [] from a4] at hm
          cases hm
      all_goals exact hh
    | pdo =>
      have hr := hrf (by rw [hp]; simp) (by rw [hp]; simp)
      subst hr
      rw [hp] at a4 a5 a6 a7
      have f : ∀ x, x ≠ Report.fine → Done n0.id false (.done x) (work i.log) := by
        intro x hx
        cases x with
        | fine => exact absurd rfl hx
        | error => exact ⟨2, a4⟩
        | exception => exact ⟨2, a4⟩
      simp only [Initing.step, Initing.next, hp]
      cases p <;> simp only [if_true, reduceCtorEq, if_false]
      · refine ⟨a1, a2, fun h => (nomatch h), ?_, a5, fun _ => ?_, by simp, fun _ h => absurd (a5.symm.trans h) (by simp), fun h0 hm => ?_⟩
        · show work (i.log ++ [.pdos]) = _
          rw [work_append, show work i.log = _ from a4]
          rfl
        · show i.node.state = current n0.state (i.log ++ [.pdos])
          rw [current_append, ← a6 (by simp)]
          rfl
        · have hm : Item.isReset ∈ i.log ++ [.pdos] := hm
          simp only [List.mem_append, List.mem_singleton, reduceCtorEq, or_false] at hm
          obtain ⟨l1, l2, h1, h2⟩ := a9 h0 hm
          exact ⟨l1, l2 ++ [.pdos], by show i.log ++ [Item.pdos] = _; rw [h1]; simp, h2⟩
      all_goals exact ⟨a1, a2, fun h => (nomatch h), f _ (by simp), a5, fun h => absurd rfl (h _), by simp, a8, a9⟩
    | values =>
      have hr := hrf (by rw [hp]; simp) (by rw [hp]; simp)
      subst hr
      rw [hp] at a4 a5 a6 a7
      have f : ∀ x, x ≠ Report.fine → Done n0.id false (.done x) (work i.log) := by
        intro x hx
        cases x with
        | fine => exact absurd rfl hx
        | error => exact ⟨3, a4⟩
        | exception => exact ⟨3, a4⟩
      simp only [Initing.step, Initing.next, hp]
      cases p <;> simp only [if_true, reduceCtorEq, if_false]
      · refine ⟨a1, a2, fun h => (nomatch h), ?_, a5, fun _ => ?_, by simp, fun _ h => absurd (a5.symm.trans h) (by simp), fun h0 hm => ?_⟩
        · show work (i.log ++ [.configured]) = _
          rw [work_append, show work i.log = _ from a4]
          rfl
        · show i.node.state = current n0.state (i.log ++ [.configured])
          rw [current_append, ← a6 (by simp)]
          rfl
        · have hm : Item.isReset ∈ i.log ++ [.configured] := hm
          simp only [List.mem_append, List.mem_singleton, reduceCtorEq, or_false] at hm
          obtain ⟨l1, l2, h1, h2⟩ := a9 h0 hm
          exact ⟨l1, l2 ++ [.configured], by show i.log ++ [Item.configured] = _; rw [h1]; simp, h2⟩
      all_goals exact ⟨a1, a2, fun h => (nomatch h), f _ (by simp), a5, fun h => absurd rfl (h _), by simp, a8, a9⟩
    | sdoAgain =>
      have hr := hrf (by rw [hp]; simp) (by rw [hp]; simp)
      subst hr
      rw [hp] at a4 a5 a6 a7
      have f : ∀ x, x ≠ Report.fine → Done n0.id false (.done x) (work i.log) := by
        intro x hx
        cases x with
        | fine => exact absurd rfl hx
        | error => exact ⟨4, a4⟩
        | exception => exact ⟨4, a4⟩
      simp only [Initing.step, Initing.next, hp]
      cases p <;> simp only [if_true, reduceCtorEq, if_false]
      · exact ⟨a1, a2, fun h => (nomatch h), a4, a5, fun _ => a6 (by simp), by simp, a8, a9⟩
      all_goals exact ⟨a1, a2, fun h => (nomatch h), f _ (by simp), a5, fun h => absurd rfl (h _), by simp, a8, a9⟩
    | start =>
      have hr := hrf (by rw [hp]; simp) (by rw [hp]; simp)
      subst hr
      rw [hp] at a4 a5 a6 a7
      simp only [Initing.step, Initing.next, hp]
      cases p <;> simp only [if_true, reduceCtorEq, if_false]
      · simp only [call_step _ _ _ a5, items_call]
        refine ⟨a1, a2, fun h => (nomatch h), ?_, ⟨_, rfl⟩, fun _ => ?_, by simp, fun _ h => (nomatch h), fun h0 hm => ?_⟩
        · show work (i.log ++ [.sent (nmtFrame Cmd.start.code i.node.id)]) = _
          rw [work_append, show work i.log = _ from a4, a1]
          rfl
        · show i.node.state = current n0.state (i.log ++ [.sent (nmtFrame Cmd.start.code i.node.id)])
          rw [current_append, ← a6 (by simp)]
          rfl
        · have hm : Item.isReset ∈ i.log ++ [.sent (nmtFrame Cmd.start.code i.node.id)] := hm
          simp only [List.mem_append, List.mem_singleton, reduceCtorEq, or_false] at hm
          obtain ⟨l1, l2, h1, h2⟩ := a9 h0 hm
          exact ⟨l1, l2 ++ [.sent (nmtFrame Cmd.start.code i.node.id)],
            by show i.log ++ [Item.sent (nmtFrame Cmd.start.code i.node.id)] = _; rw [h1]; simp, h2⟩
      all_goals exact hh
    | resetting =>
      simp only [Initing.step, Initing.next, hp]
      exact hh
    | starting =>
      simp only [Initing.step, Initing.next, hp]
      exact hh
    | done x =>
      simp only [Initing.step, Initing.next, hp]
      exact hh

theorem begin_inv (n : Node) (h : n.phase = .idle) : InitInv n false n.beginInit :=
  ⟨rfl, rfl, fun h => (nomatch h), rfl, h, fun _ => rfl, fun _ s hs => (nomatch hs), fun _ hp => absurd (h.symm.trans hp) (by simp), fun _ hm => (nomatch hm)⟩

theorem recover_inv (n : Node) (now : Int) (h : n.phase = .idle) : InitInv n true (n.beginRecover now) := by
  unfold Node.beginRecover
  rw [call_step _ _ _ h]
  refine ⟨rfl, rfl, fun _ => Or.inl rfl, rfl, ⟨_, rfl⟩, fun _ => rfl, by simp, fun _ hp => (nomatch hp), fun _ hm => ?_⟩
  simp [items] at hm

theorem run_inv' (n0 : Node) (r : Bool) (i : Initing) (es : List IEv) (h : InitInv n0 r i) : InitInv n0 r (i.run es) := by
  induction es generalizing i with
  | nil => exact h
  | cons e es ih => exact ih _ (step_inv n0 r i e h)

theorem plan_take (node : Byte) (w : List Item) : Done node false pc w → w <+: plan node := by
  intro h
  cases pc with
  | done r =>
    cases r with
    | fine => exact ⟨[], by rw [show w = plan node from h]; simp⟩
    | error =>
      obtain ⟨k, hk⟩ := h
      rw [show w = (plan node).take k from hk]
      exact List.take_prefix _ _
    | exception =>
      obtain ⟨k, hk⟩ := h
      rw [show w = (plan node).take k from hk]
      exact List.take_prefix _ _
  | listen => rw [show w = [] from h]; exact List.nil_prefix
  | sdo => rw [show w = [] from h]; exact List.nil_prefix
  | reset => rw [show w = [] from h]; exact List.nil_prefix
  | resetting => rw [show w = (plan node).take 1 from h]; exact List.take_prefix _ _
  | pdo => rw [show w = (plan node).take 2 from h]; exact List.take_prefix _ _
  | values => rw [show w = (plan node).take 3 from h]; exact List.take_prefix _ _
  | sdoAgain => rw [show w = (plan node).take 4 from h]; exact List.take_prefix _ _
  | start => rw [show w = (plan node).take 4 from h]; exact List.take_prefix _ _
  | starting => exact ⟨[], by rw [show w = plan node from h]; simp⟩

/-- the step with which the handler ends without complaint -/
theorem step_fine (n0 : Node) (r : Bool) (i : Initing) (e : IEv) (h : InitInv n0 r i) (hn : ∀ x, i.pc ≠ .done x)
    (hd : (i.step e).pc = .done .fine) :
    (i.step e).node.state = current n0.state (i.step e).log ∧
      ((i.step e).node.state = Operational ∨ (r = true ∧ ∃ now sdo to v, e = .expire now sdo to ∧ (i.node.hb.interval sdo).2 = some v ∧ v ≠ 0)) := by
  have hc : ∀ e' to, (e' = .wake ∨ (∃ now sdo, e' = .expire now sdo) ∨ ∃ ok, e' = .finish ok) → (i.cont e' to).pc = .done .fine →
      (i.cont e' to).node.state = current n0.state (i.cont e' to).log ∧
      ((i.cont e' to).node.state = Operational ∨
        (r = true ∧ ∃ now sdo v, e' = .expire now sdo ∧ (i.node.hb.interval sdo).2 = some v ∧ v ≠ 0)) := by
    intro e' to he hd
    obtain ⟨a1, a2, a3, a4, a5, a6, a7, a8, a9⟩ := h
    have a6' := a6 hn
    by_cases hp : i.pc = .resetting
    · rw [hp] at a5
      rcases resetting_cont i e' to hp a5 he with hc | ⟨hs, ⟨d, hd'⟩, hc⟩ | ⟨hb, hc⟩ | ⟨hb, hc⟩ | ⟨n', hc, hn1, hn2⟩ | ⟨hf, hb, hc⟩ | ⟨hf, hb, hc⟩
      all_goals rw [hc] at hd
      all_goals first | (simp only [hp, reduceCtorEq] at hd; done) | (cases to <;> simp at hd)
    · by_cases hq : i.pc = .starting
      · rw [hq] at a5
        rcases starting_cont i e' to hq a5 he with hc | ⟨hs, hc⟩ | ⟨hb, hc⟩ | ⟨hs, now, sdo, hb, v, h1, h2, h3, hc⟩ | ⟨n', hc, hn1, hn2, hn3, now, sdo, h1, h2⟩
        · rw [hc, hq] at hd; cases hd
        · rw [hc]
          exact ⟨a6', Or.inl hs⟩
        · rw [hc] at hd
          cases to <;> simp at hd
        · rw [hc] at hd ⊢
          refine ⟨a6', Or.inr ⟨?_, now, sdo, v, h1, by rw [h2], h3⟩⟩
          rw [← a2]
          cases hr : i.recovering with
          | true => rfl
          | false => simp [hr] at hd
        · rw [hc]
          refine ⟨?_, Or.inl hn3⟩
          show n'.state = current n0.state (i.log ++ [.assumed Operational])
          rw [hn3, current_append]
          rfl
      · have : i.cont e' to = i := by
          unfold Initing.cont
          cases h : i.pc <;> simp_all
        rw [this] at hd
        exact absurd hd (hn _)
  cases e with
  | frame f t =>
    have := (frame_node (s := n0.state) i f t).1
    exact absurd (this ▸ hd) (hn _)
  | next p now =>
    exfalso
    simp only [Initing.step] at hd
    cases hp : i.pc <;> rw [hp] at hd <;> simp only [Initing.next] at hd
    all_goals (try split at hd) <;> (try split at hd)
    all_goals first | (cases hd; done) | exact hn _ hd
  | wake =>
    obtain ⟨h1, h2 | ⟨_, _, _, _, h2, _⟩⟩ := hc .wake false (Or.inl rfl) hd
    · exact ⟨h1, Or.inl h2⟩
    · cases h2
  | expire now sdo to =>
    obtain ⟨h1, h2 | ⟨h2, now', sdo', v, h3, h4, h5⟩⟩ := hc (.expire now sdo) to (Or.inr (Or.inl ⟨_, _, rfl⟩)) hd
    · exact ⟨h1, Or.inl h2⟩
    · cases h3
      exact ⟨h1, Or.inr ⟨h2, now, sdo, to, v, rfl, h4, h5⟩⟩
  | finish ok to =>
    obtain ⟨h1, h2 | ⟨_, _, _, _, h2, _⟩⟩ := hc (.finish ok) to (Or.inr (Or.inr ⟨_, rfl⟩)) hd
    · exact ⟨h1, Or.inl h2⟩
    · cases h2

/-- the shut-down, in each place -/
structure CloseInv (n0 : Node) (c : Closing) : Prop where
  id : c.node.id = n0.id
  phase : c.node.phase = .idle
  sync : c.node.hasSync = n0.hasSync
  at0 : c.pc = .heartbeat → c.sent = [] ∧ c.hbOff = false ∧ c.node.listening = n0.listening
  at1 : c.pc = .stop → c.sent = [] ∧ c.node.listening = n0.listening
  at2 : c.pc = .unlisten → c.sent = [nmtFrame 2 n0.id] ∧ c.node.listening = n0.listening
  at3 : c.pc = .forget → c.sent = [nmtFrame 2 n0.id] ∧ c.node.listening = false
  fine : c.pc = .done .fine → c.sent = [nmtFrame 2 n0.id] ∧ c.node.listening = false ∧ c.node.state = Unknown
  failed : c.pc = .done .exception → c.sent = [] ∧ c.hbOff = false ∧ c.node.listening = n0.listening
  never : c.pc ≠ .done .error

theorem hbOff_rest (n : Node) (sdo : Option (BitVec 16)) (ok : Bool) :
    (n.step (.hbOff sdo ok)).1.id = n.id ∧ (n.step (.hbOff sdo ok)).1.phase = n.phase ∧ (n.step (.hbOff sdo ok)).1.hasSync = n.hasSync ∧
    (n.step (.hbOff sdo ok)).1.listening = n.listening ∧ (n.step (.hbOff sdo ok)).1.synced = n.synced := by
  simp only [Node.step]
  repeat' split
  all_goals simp

theorem frame_rest (n : Node) (f : Frame) (t : Int) : (n.step (.frame f t)).1.id = n.id ∧ (n.step (.frame f t)).1.phase = n.phase ∧
    (n.step (.frame f t)).1.hasSync = n.hasSync ∧ (n.step (.frame f t)).1.listening = n.listening ∧
    (n.listening = false → (n.step (.frame f t)).1 = n) := by
  simp only [Node.step]
  cases hl : n.listening with
  | false => simp [hl]
  | true =>
    obtain ⟨h1, h2, h3, h4⟩ := handleNMT_rest n f t
    simp [h1, h2, h3, h4, hl]

theorem close_step (n0 : Node) (c : Closing) (e : SEv) (h : CloseInv n0 c) : CloseInv n0 (c.step e) := by
  obtain ⟨h1, h2, h3, b0, b1, b2, b3, b4, b5, b6⟩ := h
  obtain ⟨nd, pc, snt, off⟩ := c
  dsimp only at *
  cases e with
  | frame f t =>
    obtain ⟨f1, f2, f3, f4, f5⟩ := frame_rest nd f t
    simp only [Closing.step]
    refine ⟨by rw [← h1]; exact f1, by rw [← h2]; exact f2, by rw [← h3]; exact f3, fun h => ?_, fun h => ?_, fun h => ?_, fun h => ?_, fun h => ?_, fun h => ?_, b6⟩
    · exact ⟨(b0 h).1, (b0 h).2.1, f4.trans (b0 h).2.2⟩
    · exact ⟨(b1 h).1, f4.trans (b1 h).2⟩
    · exact ⟨(b2 h).1, f4.trans (b2 h).2⟩
    · exact ⟨(b3 h).1, f4.trans (b3 h).2⟩
    · have hn := f5 (b4 h).2.1
      exact ⟨(b4 h).1, f4.trans (b4 h).2.1, by show (nd.step (.frame f t)).1.state = _; rw [hn]; exact (b4 h).2.2⟩
    · exact ⟨(b5 h).1, (b5 h).2.1, f4.trans (b5 h).2.2⟩
  | next sdo ok =>
    obtain ⟨g1, g2, g3, g4, g5⟩ := hbOff_rest nd sdo ok
    cases pc with
    | heartbeat =>
      obtain ⟨c1, c2, c3⟩ := b0 rfl
      simp only [Closing.step]
      cases hi : nd.hb.interval sdo with
      | mk hb o =>
        cases o with
        | none => exact ⟨h1, h2, h3, by simp, by simp, by simp, by simp, by simp, fun _ => ⟨c1, c2, c3⟩, by simp⟩
        | some v =>
          dsimp only
          split
          · split
            · exact ⟨g1.trans h1, g2.trans h2, g3.trans h3, by simp, fun _ => ⟨c1, g4.trans c3⟩, by simp, by simp, by simp, by simp, by simp⟩
            · exact ⟨g1.trans h1, g2.trans h2, g3.trans h3, by simp, by simp, by simp, by simp, by simp, fun _ => ⟨c1, c2, g4.trans c3⟩, by simp⟩
          · exact ⟨g1.trans h1, g2.trans h2, g3.trans h3, by simp, fun _ => ⟨c1, g4.trans c3⟩, by simp, by simp, by simp, by simp, by simp⟩
    | stop =>
      obtain ⟨c1, c2⟩ := b1 rfl
      have hs : nd.step .stop = ({ nd with synced := if nd.hasSync then false else nd.synced }, [.sent (nmtFrame 2 nd.id)]) := by
        simp [Node.step, h2]
      simp only [Closing.step, hs]
      refine ⟨h1, h2, h3, by simp, by simp, fun _ => ⟨?_, c2⟩, by simp, by simp, by simp, by simp⟩
      show snt ++ sentOf [.sent (nmtFrame 2 nd.id)] = _
      rw [c1, h1]
      rfl
    | unlisten =>
      obtain ⟨c1, c2⟩ := b2 rfl
      simp only [Closing.step, Node.step]
      exact ⟨h1, h2, h3, by simp, by simp, by simp, fun _ => ⟨c1, rfl⟩, by simp, by simp, by simp⟩
    | forget =>
      obtain ⟨c1, c2⟩ := b3 rfl
      obtain ⟨s1, s2, s3, s4, s5, s6⟩ := switchState_rest nd Unknown
      simp only [Closing.step, Node.step]
      exact ⟨s5.trans h1, s2.trans h2, s6.trans h3, by simp, by simp, by simp, by simp, fun _ => ⟨c1, s3.trans c2, switchState_state _ _⟩, by simp, by simp⟩
    | done r =>
      simp only [Closing.step]
      exact ⟨h1, h2, h3, b0, b1, b2, b3, b4, b5, b6⟩

theorem close_begin (n : Node) (h : n.phase = .idle) : CloseInv n n.beginShutdown :=
  ⟨rfl, h, rfl, fun _ => ⟨rfl, rfl, rfl⟩, by simp [Node.beginShutdown], by simp [Node.beginShutdown], by simp [Node.beginShutdown],
    by simp [Node.beginShutdown], by simp [Node.beginShutdown], by simp [Node.beginShutdown]⟩

theorem close_run (n0 : Node) (c : Closing) (es : List SEv) (h : CloseInv n0 c) : CloseInv n0 (c.run es) := by
  induction es generalizing c with
  | nil => exact h
  | cons e es ih => exact ih _ (close_step n0 c e h)

/-- membership of the SYNC producer during the shut-down -/
def Unsynced (c : Closing) : Prop :=
  c.pc = .unlisten ∨ c.pc = .forget ∨ c.pc = .done .fine → c.node.synced = false

theorem handleNMT_unsynced (n : Node) (f : Frame) (t : Int) (hf : f.data[0] ≠ 5) (h : n.synced = false) : (n.step (.frame f t)).1.synced = false := by
  simp only [Node.step]
  split
  · unfold Node.handleNMT
    cases hi : n.hb.interval none with
    | mk hb o =>
      cases o with
      | none => exact h
      | some v =>
        dsimp only
        rw [switchState_synced, if_neg (show ¬ f.data[0] = Operational from hf)]
        repeat' split
        all_goals first | rfl | exact h
  · exact h

theorem unsynced_step (n0 : Node) (hs : n0.hasSync = true) (c : Closing) (e : SEv) (h : CloseInv n0 c) (hu : Unsynced c)
    (he : ∀ f t, e = .frame f t → f.data[0] ≠ 5) : Unsynced (c.step e) := by
  obtain ⟨nd, pc, snt, off⟩ := c
  cases e with
  | frame f t =>
    intro hp
    exact handleNMT_unsynced nd f t (he f t rfl) (hu hp)
  | next sdo ok =>
    cases pc with
    | heartbeat =>
      simp only [Closing.step]
      cases hi : nd.hb.interval sdo with
      | mk hb o =>
        cases o with
        | none => simp [Unsynced]
        | some v =>
          dsimp only
          split
          · split <;> simp [Unsynced]
          · simp [Unsynced]
    | stop =>
      intro _
      have h2 := h.phase
      have h3 := h.sync
      dsimp only at h2 h3
      simp [Closing.step, Node.step, h2, h3, hs]
    | unlisten =>
      intro _
      exact hu (Or.inl rfl)
    | forget =>
      intro _
      show (nd.switchState Unknown).1.synced = false
      rw [switchState_synced, if_neg (by decide), if_neg (by decide)]
      exact hu (Or.inr (Or.inl rfl))
    | done r => exact hu

theorem unsynced_run (n0 : Node) (hs : n0.hasSync = true) (c : Closing) (es : List SEv) (h : CloseInv n0 c) (hu : Unsynced c)
    (he : NoOperational es) : Unsynced (c.run es) := by
  induction es generalizing c with
  | nil => exact hu
  | cons e es ih =>
    exact ih _ (close_step n0 c e h) (unsynced_step n0 hs c e h hu (fun f t hf => he f t (by simp [hf]))) (fun f t hf => he f t (by simp [hf]))

/-- the heartbeat during the shut-down, for a node that need not ask its device for the interval -/
def HbInv (n0 : Node) (c : Closing) : Prop :=
  (c.pc = .heartbeat → c.node.hb = n0.hb) ∧
  ((c.pc ≠ .heartbeat ∧ c.pc ≠ .done .exception) → c.hbOff = true ∨ n0.hb.present = false ∨ n0.hb.buf = 0)

theorem hb_step (n0 : Node) (hr : n0.hb.present = false ∨ n0.hb.valid = true) (c : Closing) (e : SEv) (h : HbInv n0 c) : HbInv n0 (c.step e) := by
  obtain ⟨nd, pc, snt, off⟩ := c
  obtain ⟨h1, h2⟩ := h
  dsimp only at h1 h2
  cases e with
  | frame f t =>
    refine ⟨fun hp => ?_, h2⟩
    have h1 := h1 hp
    show (nd.step (.frame f t)).1.hb = _
    simp only [Node.step]
    split
    · rw [handleNMT_ready _ (by rw [h1]; exact hr), (switchState_rest _ _).1]
      exact h1
    · exact h1
  | next sdo ok =>
    cases pc with
    | heartbeat =>
      have h1 := h1 rfl
      have hi := interval_ready nd.hb (by rw [h1]; exact hr) sdo
      cases hp : nd.hb.present with
      | false =>
        refine ⟨?_, fun _ => Or.inr (Or.inl (h1 ▸ hp))⟩
        simp [Closing.step, hi, hp]
      | true =>
        by_cases hv : nd.hb.buf = 0
        · refine ⟨?_, fun _ => Or.inr (Or.inr (h1 ▸ hv))⟩
          simp [Closing.step, hi, hp, show nd.hb.buf = 0#16 from hv]
        · have hv' : ¬ nd.hb.buf = 0#16 := hv
          cases ok <;> simp [HbInv, Closing.step, hi, hp, hv']
    | stop => exact ⟨by simp [Closing.step], fun _ => h2 (by simp)⟩
    | unlisten => exact ⟨by simp [Closing.step], fun _ => h2 (by simp)⟩
    | forget => exact ⟨by simp [Closing.step], fun _ => h2 (by simp)⟩
    | done r => exact ⟨h1, h2⟩

theorem hb_run (n0 : Node) (hr : n0.hb.present = false ∨ n0.hb.valid = true) (c : Closing) (es : List SEv) (h : HbInv n0 c) : HbInv n0 (c.run es) := by
  induction es generalizing c with
  | nil => exact h
  | cons e es ih => exact ih _ (hb_step n0 hr c e h)

theorem frames_phase (i : Initing) (fs : List (Frame × Int)) :
    (i.run (fs.map fun p => .frame p.1 p.2)).pc = i.pc ∧ (i.run (fs.map fun p => .frame p.1 p.2)).node.phase = i.node.phase := by
  induction fs generalizing i with
  | nil => exact ⟨rfl, rfl⟩
  | cons f fs ih =>
    obtain ⟨h1, _, _, h4, _⟩ := frame_node (s := 0) i f.1 f.2
    obtain ⟨h5, h6⟩ := ih (i.frame f.1 f.2)
    exact ⟨h5.trans h1, h6.trans h4⟩

end Verif.Nmt
