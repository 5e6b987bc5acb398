import Verif.Spec.MotorChain
import Verif.Props.Setup
import Verif.Props.Layer

/-! # C94: setting up a chain of motors -/

set_option linter.unusedSimpArgs false

namespace Verif.Props
open Verif Verif.Merge Verif.Setup Verif.MCh Verif.Spec Verif.Spec.Setup Verif.Spec.MotorChain

private theorem textParam_ok (w : World) (m : Fields) (key dflt s : String) : textParam w m key dflt = .ok s ↔ TextIs w m key dflt s := by
  unfold textParam TextIs
  cases hm : m.get? key with
  | none => simp [eq_comm]
  | some v =>
    cases v with
    | struct f => simp
    | leaf n =>
      cases hl : w.leaf n <;> simp [hl]

private theorem filter_ok (o : Outside) (m : Fields) (joint filter : String) (u : Unit) : prepareFilter o m joint filter = .ok u ↔ FilterOk o m joint filter := by
  unfold prepareFilter FilterOk
  cases hm : m.get? filter with
  | none => simp
  | some v =>
    cases hf : o.filters joint filter v with
    | none => simp [hf]
    | some b => cases b <;> simp [hf]

private theorem filters_ok (o : Outside) (m : Fields) (joint : String) (u : Unit) : prepareFilters o m joint = .ok u ↔
    ∀ f ∈ ["position_filters", "velocity_filters", "effort_filters"], FilterOk o m joint f := by
  unfold prepareFilters
  simp only [bind_ok, filter_ok, List.mem_cons, List.not_mem_nil, or_false, forall_eq_or_imp, forall_eq]
  constructor
  · rintro ⟨_, h1, _, h2, h3⟩
    exact ⟨h1, h2, h3⟩
  · rintro ⟨h1, h2, h3⟩
    exact ⟨(), h1, (), h2, h3⟩

private theorem exprs_ok (w : World) (o : Outside) (m : Fields) (e : Exprs) : exprs w o m = .ok e ↔
    (m.get? "pos_unit_factor" = none ∧ m.get? "vel_unit_factor" = none ∧ m.get? "eff_unit_factor" = none) ∧
    (TextIs w m "pos_to_device" "rint(rad2deg(pos)*1000)" e.posTo ∧ TextIs w m "pos_from_device" "deg2rad(obj6064)/1000" e.posFrom ∧
      TextIs w m "vel_to_device" "rint(rad2deg(vel)*1000)" e.velTo ∧ TextIs w m "vel_from_device" "deg2rad(obj606C)/1000" e.velFrom ∧
      TextIs w m "eff_to_device" "rint(eff)" e.effTo ∧ TextIs w m "eff_from_device" "0" e.effFrom) ∧
    ∀ x ∈ [e.posTo, e.posFrom, e.velTo, e.velFrom, e.effTo, e.effFrom], o.parses x = true := by
  unfold exprs
  by_cases hf : ((m.get? "pos_unit_factor").isSome || (m.get? "vel_unit_factor").isSome || (m.get? "eff_unit_factor").isSome) = true
  · rw [if_pos hf]
    constructor
    · intro h; cases h
    · rintro ⟨⟨h1, h2, h3⟩, _⟩
      simp [h1, h2, h3] at hf
  · rw [if_neg hf]
    simp only [Bool.or_eq_true, not_or, Bool.not_eq_true, Option.isSome_eq_false_iff, Option.isNone_iff_eq_none] at hf
    simp only [bind_ok, textParam_ok]
    obtain ⟨e1, e2, e3, e4, e5, e6⟩ := e
    constructor
    · rintro ⟨a1, h1, a2, h2, a3, h3, a4, h4, a5, h5, a6, h6, h⟩
      split at h
      · rename_i hp
        cases h
        simp only [Bool.and_eq_true] at hp
        obtain ⟨⟨⟨⟨⟨p1, p2⟩, p3⟩, p4⟩, p5⟩, p6⟩ := hp
        refine ⟨⟨hf.1.1, hf.1.2, hf.2⟩, ⟨h1, h2, h3, h4, h5, h6⟩, ?_⟩
        simp [p1, p2, p3, p4, p5, p6]
      · cases h
    · rintro ⟨_, ⟨h1, h2, h3, h4, h5, h6⟩, hp⟩
      refine ⟨_, h1, _, h2, _, h3, _, h4, _, h5, _, h6, ?_⟩
      rw [if_pos]
      simp only [List.mem_cons, List.not_mem_nil, or_false, forall_eq_or_imp, forall_eq] at hp
      simp [hp]

/-- what a motor adds to the chain -/
private def plus (c : Motors) (s : MotorSetup) : Motors := Motors.addHandle { c with motors := c.motors ++ [s] } s

private theorem textIs_withName (w : World) (m : Fields) (v : XVal) (key d s : String) (h : key ≠ "name") :
    TextIs w (withName m v) key d s ↔ TextIs w m key d s := by
  unfold TextIs
  rw [withName_get m v key h]

private theorem nodeAdded_ok (w : World) (o : Outside) (m : Fields) (n : NodeSetup) (hn : stringOf w m "name" = some n.name) (c c' : Motors) :
    nodeAdded w o m n.id n.dict c = .ok c' ↔ ∃ s, MotorOf w o m n s ∧ c' = plus c s := by
  unfold nodeAdded
  simp only [hn, bind_ok, textParam_ok]
  constructor
  · rintro ⟨j, hj, h⟩
    split at h
    · cases h
    · rename_i hu
      simp only [bind_ok, textParam_ok] at h
      obtain ⟨a, ha, h⟩ := h
      cases hal : o.alloc a (j ++ "_motor") n.id n.dict (m.get? "motor_layer") with
      | throws => simp [hal] at h
      | null => simp [hal] at h
      | motor =>
        simp only [hal, bind_ok, exprs_ok, filters_ok, Res.ok.injEq] at h
        obtain ⟨e, he, _, hf, rfl⟩ := h
        refine ⟨{ name := j ++ "_motor", joint := j, allocator := a, settings := m.get? "motor_layer", exprs := e, id := n.id, dict := n.dict },
          ⟨hj, by simpa using hu, rfl, ha, rfl, rfl, rfl, hal, he.1.1, he.1.2.1, he.1.2.2, he.2.1, he.2.2, hf⟩, rfl⟩
  · rintro ⟨s, ⟨h1, h2, h3, h4, h5, h6, h7, h8, h9, h10, h11, h12, h13, h14⟩, rfl⟩
    refine ⟨s.joint, h1, ?_⟩
    rw [if_neg (by simp [h2])]
    simp only [bind_ok, textParam_ok]
    refine ⟨s.allocator, h4, ?_⟩
    rw [h3, h5] at h8
    simp only [h8, bind_ok, exprs_ok, filters_ok, Res.ok.injEq]
    refine ⟨s.exprs, ⟨⟨h9, h10, h11⟩, h12, h13⟩, (), h14, ?_⟩
    obtain ⟨a, b, c, d, e, f, g⟩ := s
    dsimp only at h3 h5 h6 h7
    subst h3 h5 h6 h7
    rfl

private theorem motorOf_withName (w : World) (o : Outside) (m : Fields) (v : XVal) (n : NodeSetup) (s : MotorSetup) :
    MotorOf w o (withName m v) n s ↔ MotorOf w o m n s := by
  unfold MotorOf FilterOk
  have g : ∀ k, k ≠ "name" → (withName m v).get? k = m.get? k := fun k h => withName_get m v k h
  simp only [textIs_withName w m v "joint" _ _ (by decide), textIs_withName w m v "motor_allocator" _ _ (by decide),
    textIs_withName w m v "pos_to_device" _ _ (by decide), textIs_withName w m v "pos_from_device" _ _ (by decide),
    textIs_withName w m v "vel_to_device" _ _ (by decide), textIs_withName w m v "vel_from_device" _ _ (by decide),
    textIs_withName w m v "eff_to_device" _ _ (by decide), textIs_withName w m v "eff_from_device" _ _ (by decide),
    g "motor_layer" (by decide), g "pos_unit_factor" (by decide), g "vel_unit_factor" (by decide), g "eff_unit_factor" (by decide),
    List.mem_cons, List.not_mem_nil, or_false, forall_eq_or_imp, forall_eq, g "position_filters" (by decide), g "velocity_filters" (by decide),
    g "effort_filters" (by decide)]

/-- the node of the motor chain is that of the plain chain -/
private theorem node_split (w : World) (o : Outside) (params : XVal) (name : Nat) (defaults : XVal) (c c' : Motors) (n : NodeSetup) :
    MCh.setupNode w o params name defaults c = .ok (n, c') ↔
      Setup.setupNode w params name defaults = .ok n ∧ ∃ m0, merge params defaults = some (.struct m0) ∧
        nodeAdded w o (withName m0 (.leaf name)) n.id n.dict c = .ok c' := by
  unfold MCh.setupNode Setup.setupNode
  cases hi : idOf w params with
  | none => simp
  | some i =>
    cases hm : merge params defaults with
    | none => simp
    | some v =>
      cases v with
      | leaf x => simp
      | struct m0 =>
        simp only [bind_ok, Option.some.injEq, XVal.struct.injEq, exists_eq_left']
        cases he : stringOf w (withName m0 (.leaf name)) "eds_file" with
        | none => simp
        | some eds =>
          dsimp only
          constructor
          · rintro ⟨ov, hov, h⟩
            cases hl : w.load (inPackage w (withName m0 (.leaf name)) eds) ov with
            | throws => simp [hl] at h
            | null => simp [hl] at h
            | dict d =>
              simp only [hl, bind_ok] at h
              obtain ⟨c1, hc, l0, h0, l1, h1, l2, h2, h⟩ := h
              cases hn : stringOf w (withName m0 (.leaf name)) "name" with
              | none => simp [hn] at h
              | some nn =>
                simp only [hn, bind_ok, Res.ok.injEq, Prod.mk.injEq] at h
                obtain ⟨ps, hps, rfl, rfl⟩ := h
                refine ⟨⟨ov, hov, ?_⟩, hc⟩
                simp only [hl, bind_ok]
                exact ⟨l0, h0, l1, h1, l2, h2, ps, hps, rfl⟩
          · rintro ⟨⟨ov, hov, h⟩, hc⟩
            refine ⟨ov, hov, ?_⟩
            cases hl : w.load (inPackage w (withName m0 (.leaf name)) eds) ov with
            | throws => simp [hl] at h
            | null => simp [hl] at h
            | dict d =>
              simp only [hl, bind_ok] at h ⊢
              obtain ⟨l0, h0, l1, h1, l2, h2, h⟩ := h
              cases hn : stringOf w (withName m0 (.leaf name)) "name" with
              | none => simp [hn] at h
              | some nn =>
                simp only [hn, bind_ok, Res.ok.injEq] at h
                obtain ⟨ps, hps, rfl⟩ := h
                exact ⟨c', hc, l0, h0, l1, h1, l2, h2, (bind_ok _ _ _).2 ⟨ps, hps, rfl⟩⟩

private theorem node_both (w : World) (o : Outside) (params : XVal) (name : Nat) (defaults : XVal) (c c' : Motors) (n : NodeSetup) :
    MCh.setupNode w o params name defaults c = .ok (n, c') ↔ ∃ s, Both w o defaults (name, params) (n, s) ∧ c' = plus c s := by
  rw [node_split, C88_node]
  unfold Both Merged
  constructor
  · rintro ⟨hf, m0, hm, hn⟩
    obtain ⟨m1, hm1, _, hnm, _⟩ := id hf
    have : m1 = m0 := by
      have := hm1.symm.trans hm
      simpa using this
    subst this
    rw [nodeAdded_ok w o _ n ((name_stringOf w m1 name n.name).2 hnm)] at hn
    obtain ⟨s, hs, e⟩ := hn
    exact ⟨s, ⟨hf, m1, hm, (motorOf_withName w o m1 _ n s).1 hs⟩, e⟩
  · rintro ⟨s, ⟨hf, m0, hm, hs⟩, rfl⟩
    obtain ⟨m1, hm1, _, hnm, _⟩ := id hf
    have : m1 = m0 := by
      have := hm1.symm.trans hm
      simpa using this
    subst this
    refine ⟨hf, m1, hm, ?_⟩
    rw [nodeAdded_ok w o _ n ((name_stringOf w m1 name n.name).2 hnm)]
    exact ⟨s, (motorOf_withName w o m1 _ n s).2 hs, rfl⟩

/-- **C94** A node is accepted exactly if it is acceptable for a chain (C88) and there is a motor that follows its parameters; it gets that motor. -/
theorem C94_node (w : World) (o : Outside) (params : XVal) (name : Nat) (defaults : XVal) (n : NodeSetup) (c c' : Motors) :
    MCh.setupNode w o params name defaults c = .ok (n, c') ↔
      ∃ s, Follows w defaults (name, params) n ∧ (∃ m, Merged params defaults m ∧ MotorOf w o m n s) ∧ c'.motors = c.motors ++ [s] ∧
        c'.group = c.group ++ [s] ∧ c'.handles = (if s.joint ∈ c.handles.map (·.1) then c.handles else c.handles ++ [(s.joint, s)]) := by
  rw [node_both]
  have e : ∀ s, c' = plus c s ↔ c'.motors = c.motors ++ [s] ∧ c'.group = c.group ++ [s] ∧
      c'.handles = (if s.joint ∈ c.handles.map (·.1) then c.handles else c.handles ++ [(s.joint, s)]) := by
    intro s
    have hq : (c.handles.find? fun p => decide (p.1 = s.joint)).isSome = true ↔ s.joint ∈ c.handles.map (·.1) := by
      simp [List.find?_isSome]
    obtain ⟨a, b, h⟩ := c'
    simp only [plus, Motors.addHandle, Motors.mk.injEq]
    by_cases hs : s.joint ∈ c.handles.map (·.1)
    · rw [if_pos hs, if_pos (hq.2 hs)]
    · rw [if_neg hs, if_neg (fun x => hs (hq.1 x))]
  constructor
  · rintro ⟨s, ⟨h1, h2⟩, h3⟩
    exact ⟨s, h1, h2, (e s).1 h3⟩
  · rintro ⟨s, h1, h2, h3⟩
    exact ⟨s, ⟨h1, h2⟩, (e s).2 h3⟩

/-- the robot has the joints "arm", "leg" and "hip"; there is one allocator; expressions of at most 40 characters are accepted -/
def exampleOutside : Outside where
  joints := fun j => j = "arm" || j = "leg" || j = "hip"
  alloc := fun a _ _ _ _ => if a = "canopen::Motor402::Allocator" then .motor else .throws
  parses := fun e => e.length ≤ 40
  filters := fun _ _ _ => some true

example : ∃ n c s, MCh.setupNode exampleWorld exampleOutside (exampleParams 1) 0 exampleDefaults ⟨[], [], []⟩ = .ok (n, c) ∧ c.motors = [s] ∧
    s.name = "arm_motor" ∧ s.joint = "arm" ∧ s.id = 5#8 ∧ s.exprs.velFrom = "deg2rad(obj606C)/1000" := ⟨_, _, _, rfl, rfl, rfl, rfl, rfl, rfl⟩

private theorem all_ok (w : World) (o : Outside) (defaults : XVal) (l : List (Res Nat × XVal)) (n0 : Setup.Nodes) (c0 : Motors) (r : Setup.Nodes × Motors) :
    MCh.setupAll w o defaults l n0 c0 = .ok r ↔ ∃ as bs, Pointwise (fun (p : Res Nat × XVal) (a : Nat × XVal) => p = (.ok a.1, a.2)) l as ∧
      Pointwise (Both w o defaults) as bs ∧ r.1 = (bs.map (·.1)).foldl Setup.Nodes.add n0 ∧ r.2 = (bs.map (·.2)).foldl plus c0 := by
  induction l generalizing n0 c0 with
  | nil =>
    simp only [MCh.setupAll, Res.ok.injEq]
    constructor
    · rintro rfl
      exact ⟨[], [], trivial, trivial, rfl, rfl⟩
    · rintro ⟨as, bs, h1, h2, h3, h4⟩
      cases as with
      | cons => exact h1.elim
      | nil =>
        cases bs with
        | cons => exact h2.elim
        | nil => exact (Prod.ext h3 h4).symm
  | cons p l ih =>
    obtain ⟨rn, v⟩ := p
    simp only [MCh.setupAll, bind_ok]
    constructor
    · rintro ⟨k, rfl, ⟨n, c⟩, h, hr⟩
      obtain ⟨s, hs, rfl⟩ := (node_both ..).1 h
      obtain ⟨as, bs, h1, h2, h3, h4⟩ := (ih _ _).1 hr
      exact ⟨(k, v) :: as, (n, s) :: bs, ⟨rfl, h1⟩, ⟨hs, h2⟩, h3, h4⟩
    · rintro ⟨as, bs, h1, h2, h3, h4⟩
      cases as with
      | nil => exact h1.elim
      | cons a as =>
        cases bs with
        | nil => exact h2.elim
        | cons b bs =>
          obtain ⟨e, h1⟩ := h1
          cases e
          exact ⟨a.1, rfl, (b.1, plus c0 b.2), (node_both ..).2 ⟨b.2, h2.1, rfl⟩, (ih _ _).2 ⟨as, bs, h1, h2.2, h3, h4⟩⟩

private theorem plus_lists (ss : List MotorSetup) (c : Motors) :
    (ss.foldl plus c).motors = c.motors ++ ss ∧ (ss.foldl plus c).group = c.group ++ ss := by
  induction ss generalizing c with
  | nil => simp
  | cons s ss ih =>
    obtain ⟨h1, h2⟩ := ih (plus c s)
    rw [List.foldl_cons, h1, h2]
    simp [plus, Motors.addHandle]

private theorem plus_find (ss : List MotorSetup) (c : Motors) (j : String) :
    (ss.foldl plus c).find j = (c.find j).or (ss.find? fun s => s.joint = j) := by
  induction ss generalizing c with
  | nil => simp
  | cons s ss ih =>
    rw [List.foldl_cons, ih]
    have : (plus c s).find j = (c.find j).or (if s.joint = j then some s else none) := by
      unfold plus Motors.addHandle Motors.find
      dsimp only
      by_cases hs : (c.handles.find? fun p => decide (p.1 = s.joint)).isSome = true
      · rw [if_pos hs]
        by_cases hj : s.joint = j
        · subst hj
          rw [if_pos rfl]
          cases hf : c.handles.find? fun p => decide (p.1 = s.joint) with
          | none => rw [hf] at hs; cases hs
          | some q => rfl
        · rw [if_neg hj, Option.or_none]
      · rw [if_neg hs, List.find?_append]
        by_cases hj : s.joint = j
        · subst hj
          cases hf : c.handles.find? fun p => decide (p.1 = s.joint) with
          | none => simp
          | some q => rw [hf] at hs; exact absurd rfl hs
        · cases hf : c.handles.find? fun p => decide (p.1 = j) with
          | none => simp [hj]
          | some q => simp
    rw [this, List.find?_cons]
    by_cases hj : s.joint = j
    · simp [hj, Option.or_assoc]
    · simp [hj]

/-- **C94** All nodes: the set-up succeeds exactly if the nodes are given as an array of named elements or as a struct and each of them is acceptable
together with a motor; then the chain has one node, one motor and one member of the robot layer for each, in this order, and a joint leads to the
first motor of this joint. -/
theorem C94_nodes (w : World) (o : Outside) (p : NodesParam) (defaults : XVal) :
    (∀ c, MCh.setupNodes w o p defaults = .ok c → ∃ as bs, Asked w p as ∧ Pointwise (Both w o defaults) as bs ∧ c.1.nodes = bs.map (·.1) ∧
      c.2.motors = bs.map (·.2) ∧ c.2.group = bs.map (·.2) ∧ ∀ j, c.2.find j = (bs.map (·.2)).find? fun s => s.joint = j) ∧
    (∀ as bs, Asked w p as → Pointwise (Both w o defaults) as bs →
      ∃ c, MCh.setupNodes w o p defaults = .ok c ∧ c.1.nodes = bs.map (·.1) ∧ c.2.motors = bs.map (·.2)) := by
  have main : ∀ l, ((∃ a, p = .array a ∧ l = a.map fun v => (arrayName w v, v)) ∨ ∃ a, p = .struct a ∧ l = a.map fun q => (.ok q.1, q.2)) →
      MCh.setupNodes w o p defaults = MCh.setupAll w o defaults l ⟨[], []⟩ ⟨[], [], []⟩ := by
    rintro l (⟨a, rfl, rfl⟩ | ⟨a, rfl, rfl⟩) <;> rfl
  have shape : (∃ l, (∃ a, p = .array a ∧ l = a.map fun v => (arrayName w v, v)) ∨ ∃ a, p = .struct a ∧ l = a.map fun q => ((.ok q.1 : Res Nat), q.2)) ∨
      MCh.setupNodes w o p defaults = .ub ∧ ∀ as, ¬ Asked w p as := by
    cases p with
    | absent => exact Or.inr ⟨rfl, fun _ h => h⟩
    | other => exact Or.inr ⟨rfl, fun _ h => h⟩
    | array a => exact Or.inl ⟨_, Or.inl ⟨a, rfl, rfl⟩⟩
    | struct a => exact Or.inl ⟨_, Or.inr ⟨a, rfl, rfl⟩⟩
  rcases shape with ⟨l, hl⟩ | ⟨hu, hn⟩
  · rw [main l hl]
    refine ⟨?_, ?_⟩
    · intro c hc
      obtain ⟨as, bs, h1, h2, h3, h4⟩ := (all_ok w o defaults l _ _ c).1 hc
      refine ⟨as, bs, (asked_iff w p as l hl).1 h1, h2, ?_, ?_, ?_, fun j => ?_⟩
      · rw [h3, added_nodes]; rfl
      · rw [h4, (plus_lists _ _).1]; rfl
      · rw [h4, (plus_lists _ _).2]; rfl
      · rw [h4, plus_find]; rfl
    · intro as bs h1 h2
      refine ⟨((bs.map (·.1)).foldl Setup.Nodes.add ⟨[], []⟩, (bs.map (·.2)).foldl plus ⟨[], [], []⟩),
        (all_ok w o defaults l _ _ _).2 ⟨as, bs, (asked_iff w p as l hl).2 h1, h2, rfl, rfl⟩, ?_, ?_⟩
      · rw [added_nodes]; rfl
      · rw [(plus_lists _ _).1]; rfl
  · refine ⟨?_, fun as _ h => absurd h (hn as)⟩
    intro c hc; rw [hu] at hc; cases hc

example : ∃ c, MCh.setupNodes exampleWorld exampleOutside twoNodes exampleDefaults = .ok c ∧ c.2.motors.map (·.name) = ["arm_motor", "leg_motor"] ∧
    (c.2.find "leg").map (·.id) = some 1#8 := ⟨_, rfl, rfl, rfl⟩

/-- **C94** Motors of different joints can all be commanded: the joint of each leads to it.  Missing: motors that share a joint, see
`C94_joint_false`. -/
theorem C94_joint_partial (w : World) (o : Outside) (p : NodesParam) (defaults : XVal) (c : Setup.Nodes × Motors)
    (h : MCh.setupNodes w o p defaults = .ok c) (hd : c.2.motors.Pairwise fun a b => a.joint ≠ b.joint) (s : MotorSetup) (hs : s ∈ c.2.motors) :
    c.2.find s.joint = some s := by
  obtain ⟨as, bs, _, _, _, h4, _, h6⟩ := (C94_nodes w o p defaults).1 c h
  rw [h6, ← h4]
  generalize c.2.motors = l at hd hs
  induction l with
  | nil => cases hs
  | cons a l ih =>
    rw [List.pairwise_cons] at hd
    rcases List.mem_cons.1 hs with rfl | hm
    · simp
    · rw [List.find?_cons]
      simp only [hd.1 s hm, decide_false]
      exact ih hd.2 hm

example : ∃ c, MCh.setupNodes exampleWorld exampleOutside twoNodes exampleDefaults = .ok c ∧ (c.2.motors.map (·.joint)) = ["arm", "leg"] := ⟨_, rfl, rfl⟩

/-- **C94 fails** for motors that share a joint: with a joint among the common parameters, both motors are set up and later enabled, but the joint
commands only the first; nothing is reported. -/
theorem C94_joint_false : ∃ c, MCh.setupNodes exampleWorld exampleOutside twoNodes (.struct (.cons "joint" (.leaf 0) (.cons "eds_file" (.leaf 2) .nil))) = .ok c ∧
    c.2.motors.map (fun s => (s.joint, s.id)) = [("arm", 5#8), ("arm", 1#8)] ∧ (c.2.find "arm").map (·.id) = some 5#8 ∧
    ∀ j, j ≠ "arm" → c.2.find j = none := by
  refine ⟨_, rfl, rfl, rfl, fun j hj => ?_⟩
  show Option.map _ (List.find? (fun p : String × MotorSetup => decide (p.1 = j)) [("arm", _)]) = none
  simp [Ne.symm hj]

/-- **C94 fails** for obsolete factors and for expressions that are no strings: instead of a refusal, an exception leaves the set-up. -/
theorem C94_exprs_false :
    MCh.setupNode exampleWorld exampleOutside (.struct (.cons "id" (.leaf 1) (.cons "pos_unit_factor" (.leaf 1) .nil))) 0 exampleDefaults ⟨[], [], []⟩ = .escapes ∧
    MCh.setupNode exampleWorld exampleOutside (.struct (.cons "id" (.leaf 1) (.cons "pos_to_device" (.leaf 1) .nil))) 0 exampleDefaults ⟨[], [], []⟩ = .escapes :=
  ⟨rfl, rfl⟩

/-- **C94** The order of the layers: bus, SYNC (exactly if an interval is given), nodes, motors, joints, controllers, and last the emergency handlers.
The fixed control period is the interval of the cycles, unless the real-time period is asked for. -/
theorem C94_order (w : World) (o : Outside) (g : Sync.Props → Made) (junk : Vector Byte 8) (bus : Bool) (rt : Option Bool) (c : Config) (ch : MCh.MotorChain)
    (h : MCh.setup w o g junk bus rt c = .ok ch) :
    bus = true ∧ ch.members = (if ch.sync.isSome then [.can, .sync, .nodes, .motors, .robot, .controllers, .emcy]
      else [.can, .nodes, .motors, .robot, .controllers, .emcy]) ∧
    setupSync g c.interval c.update c.overflow = .ok ⟨ch.updateMs, ch.sync⟩ ∧ setupHeartbeat junk c.msg c.rate = .ok ch.heartbeat ∧
    MCh.setupNodes w o c.nodes c.defaults = .ok (ch.nodes, ch.motors) ∧
    (rt = some true → ch.period = 0) ∧ (rt ≠ some true → ch.period = ch.updateMs) ∧ ch.updateMs ≠ 0 := by
  unfold MCh.setup at h
  cases bus with
  | false => simp at h
  | true =>
    simp only [Bool.not_true, Bool.false_eq_true, if_false, bind_ok, Res.ok.injEq] at h
    obtain ⟨s, hs, hb, hhb, n, hn, rfl⟩ := h
    refine ⟨rfl, ?_, hs, hhb, hn, ?_, ?_, ?_⟩
    · dsimp only
      cases s.sync.isSome <;> rfl
    · rintro rfl; rfl
    · intro hr
      dsimp only
      cases rt with
      | none => rfl
      | some b => cases b with
        | false => rfl
        | true => exact absurd rfl hr
    · unfold setupSync at hs
      dsimp only at hs ⊢
      generalize c.interval.getD 0 = i at hs
      generalize c.overflow.getD 0 = ov at hs
      generalize c.update.getD 0 = u at hs
      by_cases h1 : i < 0
      · rw [if_pos h1] at hs; cases hs
      · rw [if_neg h1] at hs
        by_cases h2 : (if i = 0 then u else i) = 0
        · rw [if_pos h2] at hs; cases hs
        · rw [if_neg h2] at hs
          by_cases h3 : i = 0
          · rw [if_pos h3] at hs
            cases hs
            exact h2
          · rw [if_neg h3] at hs
            split at hs
            · cases hs
            · split at hs
              · cases hs
              · cases hs
              · cases hs; exact h3

example : ∃ ch, MCh.setup exampleWorld exampleOutside (simpleMaster noPayload) noPayload true none
    { interval := some 10, update := none, overflow := none, msg := none, rate := none, nodes := twoNodes, defaults := exampleDefaults } = .ok ch ∧
    ch.members.length = 7 ∧ ch.period = 10 := ⟨_, rfl, rfl, rfl⟩

/-! ## the cycle -/

open Verif.Lay in
private theorem reads {σ : Type} (ls : List (Nat × Handlers σ × List Method)) (e : Env σ) :
    ∃ ls' : List (Nat × Handlers σ × List Method), ls'.map (fun l => (l.1, l.2.1)) = ls.map (fun l => (l.1, l.2.1)) ∧
      (readList (ls.map fun l => Tree.leaf l.1 .ready l.2.1 l.2.2) e).1 = ls'.map (fun l => Tree.leaf l.1 .ready l.2.1 l.2.2) ∧
      (readList (ls.map fun l => Tree.leaf l.1 .ready l.2.1 l.2.2) e).2.log = e.log ++ ls.map (fun l => (l.1, Method.read)) := by
  induction ls generalizing e with
  | nil => exact ⟨[], rfl, rfl, by simp [readList]⟩
  | cons l ls ih =>
    obtain ⟨ls', h1, h2, h3⟩ := ih ((Tree.leaf l.1 .ready l.2.1 l.2.2).read e).2
    refine ⟨(l.1, l.2.1, l.2.2 ++ [.read]) :: ls', by simp [h1], ?_, ?_⟩
    · simp only [List.map_cons, readList, h2]
      rfl
    · simp only [List.map_cons, readList, h3]
      have : ((Tree.leaf l.1 .ready l.2.1 l.2.2).read e).2.log = e.log ++ [(l.1, Method.read)] := rfl
      rw [this, List.append_assoc]
      rfl

open Verif.Lay in
private theorem writes {σ : Type} (ls : List (Nat × Handlers σ × List Method)) (e : Env σ) :
    (writeRev (ls.map fun l => Tree.leaf l.1 .ready l.2.1 l.2.2) e).2.log = e.log ++ (ls.map (fun l => (l.1, Method.write))).reverse := by
  induction ls generalizing e with
  | nil => simp [writeRev]
  | cons l ls ih =>
    simp only [List.map_cons, writeRev]
    have : ∀ e : Env σ, ((Tree.leaf l.1 .ready l.2.1 l.2.2).write e).2.log = e.log ++ [(l.1, Method.write)] := fun e => rfl
    rw [this, ih, List.reverse_cons, List.append_assoc]

open Verif.Lay in
/-- **C94** What a cycle does: if the layers are ready and none reports an error, reading goes from the bus up to the controllers and writing back down to
the bus; so the controllers see what was received before this cycle, and what they command is sent in the same cycle. -/
theorem C94_cycle {σ : Type} (hs : MCh.Member → Handlers σ) (num : MCh.Member → Nat) (ms : List MCh.Member) (tr : MCh.Member → List Method) (e e' : Env σ)
    (t : Tree σ) (ht : t = .group true .ready (ms.map fun m => .leaf (num m) .ready (hs m) (tr m)))
    (hr : (t.read e).2.status.boundedWarn = true) (he : e' = (t.read e).2) (hw : ((t.read e).1.write e').2.status.boundedWarn = true) :
    ((t.read e).1.write e').2.log = e.log ++ ms.map (fun m => (num m, Method.read)) ++ ms.reverse.map (fun m => (num m, Method.write)) := by
  subst ht he
  obtain ⟨ls', h1, h2, h3⟩ := reads (ms.map fun m => (num m, hs m, tr m)) e
  have hl : (ms.map fun m => (num m, hs m, tr m)).map (fun l => Tree.leaf l.1 .ready l.2.1 l.2.2) = ms.map fun m => Tree.leaf (num m) .ready (hs m) (tr m) := by
    rw [List.map_map]; rfl
  rw [hl] at h2 h3
  generalize ms.map (fun m => Tree.leaf (num m) .ready (hs m) (tr m)) = ts at *
  have tail : ∀ (rev : Bool) ms' (e' : Env σ), (failTail rev true .ready ms' e').2.status.boundedWarn = true →
      failTail rev true .ready ms' e' = (.group true .ready ms', e') := by
    intro rev ms' e' h
    have hm := failTail_mono rev true .ready ms' e'
    rw [failTail, if_neg]
    simp only [Bool.not_eq_true', Bool.not_eq_false, Status.boundedWarn, decide_eq_true_eq] at h ⊢
    exact Nat.le_trans hm h
  have hread : (Tree.group true .ready ts).read e = failTail false true .ready (readList ts e).1 (readList ts e).2 := by
    rw [Tree.read, if_pos (by decide)]
  rw [hread] at hr hw ⊢
  rw [tail _ _ _ hr] at hw ⊢
  have hwrite : ∀ us (e' : Env σ), (Tree.group true .ready us).write e' = failTail true true .ready (writeRev us e').1 (writeRev us e').2 := by
    intro us e'
    rw [Tree.write, if_pos (by decide)]
    rfl
  rw [hwrite] at hw ⊢
  rw [tail _ _ _ hw]
  dsimp only
  rw [h2, writes, h3]
  have h4 : ls'.map (fun l => (l.1, Method.write)) = ms.map fun m => (num m, Method.write) := by
    have := congrArg (List.map fun p : Nat × Handlers σ => (p.1, Method.write)) h1
    simpa [List.map_map, Function.comp_def] using this
  rw [h4, List.map_map, List.map_reverse]
  rfl

open Verif.Lay in
/-- a cycle of seven layers that report nothing -/
example : let num : MCh.Member → Nat := fun m => [MCh.Member.can, .sync, .nodes, .motors, .robot, .controllers, .emcy].idxOf m
    let hs : MCh.Member → Handlers Unit := fun _ => ⟨fun _ _ w _ => (w, [], none)⟩
    let t : Tree Unit := .group true .ready ([MCh.Member.can, .nodes, .motors, .robot, .controllers, .emcy].map fun m => .leaf (num m) .ready (hs m) [])
    let e : Env Unit := { world := (), status := .initial, log := [] }
    (t.read e).2.status.boundedWarn = true ∧ ((t.read e).1.write (t.read e).2).2.status.boundedWarn = true ∧
    ((t.read e).1.write (t.read e).2).2.log = [(0, .read), (2, .read), (3, .read), (4, .read), (5, .read), (6, .read),
      (6, .write), (5, .write), (4, .write), (3, .write), (2, .write), (0, .write)] := by decide

/-! ## the control period -/

private theorem run_cm (c : Clock) (ts : List Int) (h : c.cm = true) :
    (c.run (ts.map .write)).2 = if c.fixed = 0 then elapsed c.last ts else ts.map fun _ => c.fixed := by
  induction ts generalizing c with
  | nil => cases hf : decide (c.fixed = 0) <;> simp [Clock.run, elapsed]
  | cons t ts ih =>
    simp only [List.map_cons, Clock.run]
    have e : c.step (.write t) = ({ c with last := t }, [if c.fixed = 0 then t - c.last else c.fixed]) := by simp [Clock.step, h]
    rw [e, ih { c with last := t } h]
    by_cases hf : c.fixed = 0 <;> simp [hf, elapsed]

/-- **C94** With a fixed period, the controllers are always updated with it, whatever the times of the cycles are. -/
theorem C94_period_fixed (c : Clock) (hf : c.fixed ≠ 0) (es : List CEv) : ∀ p ∈ (c.run es).2, p = c.fixed := by
  induction es generalizing c with
  | nil => simp [Clock.run]
  | cons e es ih =>
    have h1 : (c.step e).1.fixed = c.fixed := by cases e <;> simp only [Clock.step] <;> (try split) <;> rfl
    have h2 : ∀ p ∈ (c.step e).2, p = c.fixed := by
      cases e <;> simp only [Clock.step] <;> (try split) <;> simp [hf]
    intro p hp
    rcases List.mem_append.1 hp with h | h
    · exact h2 p h
    · rw [← h1]
      exact ih _ (by rw [h1]; exact hf) p h

example : (Clock.run { fixed := 10, cm := false, last := 0 } [.init 3, .write 11, .write 35]).2 = [10, 10] := rfl

/-- **C94** With the real-time period, after an initialisation at `now` the updates made at the times `ts` get the times that passed since the one
before, the first since the initialisation. -/
theorem C94_period_realtime (c : Clock) (hf : c.fixed = 0) (hc : c.cm = false) (now : Int) (ts : List Int) :
    (c.run (.init now :: ts.map .write)).2 = elapsed now ts ∧ (elapsed now ts).sum = ts.getLastD now - now := by
  constructor
  · have e : c.step (.init now) = ({ c with cm := true, last := now }, []) := by simp [Clock.step, hc]
    simp only [Clock.run, e, List.nil_append]
    rw [run_cm _ _ rfl, if_pos hf]
  · induction ts generalizing now with
    | nil => simp [elapsed]
    | cons t ts ih =>
      rw [elapsed, List.sum_cons, ih t, List.getLastD_cons]
      omega

example : (Clock.run { fixed := 0, cm := false, last := 0 } [.init 3, .write 11, .write 35]).2 = [8, 24] := rfl

end Verif.Props
