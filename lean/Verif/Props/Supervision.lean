import Verif.Lemmas.Supervision
import Verif.Props.MotorStack
import Verif.Props.Driver

/-!
# C118: what is watched in a chain, and that it stops the motors
-/

namespace Verif.Props
open Verif Verif.Lay Verif.Drv Verif.Spec Verif.Spec.Sup Verif.Spec.MStk Verif.Sup Verif.MStk

private theorem warn_iff {σ : Type} (e : Env σ) : ¬ AtMostWarn e.status ↔ 1 < sv e := by
  unfold AtMostWarn sv
  cases e.status.sev <;> simp [Sev.toNat]

/-- C118.  A fatal error frame, a failed read or a failed write on the socket, an emergency message whose error register has a bit other than the one of the device
profile (bit 5), and an error control message with another state than operational are known to the program from then on, whatever else arrives, is sent or how much
time passes, until the same node sends another message of this kind; a failed bus stays failed. -/
theorem C118_raised (b : Bus) (f : Fault) (x : In) (es : List In) (hx : RaisedBy b f x) (hes : ∀ e ∈ es, ¬ MayEnd b f e) : Has ((b.step x).run es) f := by
  refine run_keeps _ f es ?_ (fun e he => by rw [mayEnd_step]; exact hes e he)
  cases f with
  | bus =>
    cases x with
    | read k =>
      obtain ⟨h1, c, h2, h3⟩ := hx
      exact (C15_fatal_error_stops b.driver k c h1 h2 h3).1
    | readError e => exact (C14_read_error b.driver e).1
    | send f ec =>
      obtain ⟨h1, h2⟩ := hx
      obtain ⟨r, d', a1, a2, -, a4⟩ := C14_send b.driver f ec h1
      simp only [Has, Bus.step, a1]
      by_cases hr : b.driver.state.driver = .ready
      · exact (a4 hr h2).2.2.2
      · rw [(a2 hr).2]; exact hr
    | time d => exact hx.elim
  | emergency i =>
    cases x with
    | read k =>
      obtain ⟨h1, h2, j, h3, h4⟩ := hx
      simp only [Has]
      rw [step_read_emcy b k i h1]
      show decide ((_ &&& _) ≠ _) = true
      rw [decide_eq_true_iff, from_data _ k 2 (by omega) h2]
      exact byte_mask _ j h3 h4
    | readError e => exact hx.elim
    | send f ec => exact hx.elim
    | time d => exact hx.elim
  | down i =>
    cases x with
    | read k =>
      obtain ⟨h1, ⟨v, h2⟩, h3, h4, h5⟩ := hx
      simp only [Has]
      rw [step_read_node b k i h1 h3, (nmt_state _ _ _ v h2).1, from_data _ k 0 (by omega) h4]
      exact h5
    | readError e => exact hx.elim
    | send f ec => exact hx.elim
    | time d => exact hx.elim
  | silent i => cases x <;> exact hx.elim

private theorem run_now (b : Bus) (es : List In) : (b.run es).now = b.now + elapsed es := by
  induction es generalizing b with
  | nil => show b.now = b.now + (0 : Nat); omega
  | cons e es ih =>
    show ((b.step e).run es).now = _
    rw [ih, (step_nodes b e 0).2.2.2]
    cases e <;> simp only [elapsed] <;> omega

private theorem run_node (b : Bus) (i : Nat) (es : List In) (h : ∀ k, In.read k ∈ es → ¬ Carries k (errorControl (b.nodes i).id)) : (b.run es).nodes i = b.nodes i := by
  induction es generalizing b with
  | nil => rfl
  | cons e es ih =>
    have h1 : (b.step e).nodes i = b.nodes i := by
      rcases (step_nodes b e i).2.1 with h1 | ⟨k, rfl, h2, -⟩
      · exact h1
      · exact absurd h2 (h k List.mem_cons_self)
    show ((b.step e).run es).nodes i = _
    rw [ih (b.step e) (fun k hk => by rw [h1]; exact h k (List.mem_cons_of_mem _ hk)), h1]

/-- C118.  A node whose heartbeat interval is `v` ms and that was heard once is known to be silent exactly from the moment on at which more than three intervals have
passed without another message from it, whatever else happens. -/
theorem C118_silence (b : Bus) (i : Nat) (k : KFrame) (v : Nat) (es : List In) (hl : (b.nodes i).listening = true) (hv : Interval (b.nodes i) v) (hv0 : v ≠ 0)
    (hk : Carries k (errorControl (b.nodes i).id)) (hes : ∀ k', In.read k' ∈ es → ¬ Carries k' (errorControl (b.nodes i).id)) :
    Has ((b.step (.read k)).run es) (.silent i) ↔ 3 * v < elapsed es := by
  have h1 := step_read_node b k i hl hk
  obtain ⟨-, g2, g3⟩ := nmt_state (b.nodes i) (fromKernel b.driver.input k) b.now v hv
  have h2 := run_node (b.step (.read k)) i es (fun k' hk' => by rw [(step_ids b _ i).1]; exact hes k' hk')
  simp only [Has]
  rw [h2, h1, run_now, (step_nodes b (.read k) i).2.2.2, g3 hv0]
  have hi : Interval ((b.nodes i).handleNMT (fromKernel b.driver.input k) b.now).1 v := by unfold Interval; rw [g2]; exact hv
  constructor
  · rintro ⟨v', -, -, h⟩
    simp only [elapsed] at h
    omega
  · intro h
    refine ⟨v, hi, hv0, ?_⟩
    simp only [elapsed]
    omega

/-- C118.  If one of these faults is there when a read cycle of a running chain begins, the chain has the layer that watches for it, and nothing ends the fault meanwhile,
then the cycle ends with an error: all layers are halted and every motor is told to stop. -/
theorem C118_stops (f : Fault) (stack : Bool) (ms : List (Tree (World Bus))) (ids : List Nat) (hc : ChainOf (.group stack .ready ms) ids)
    (hu : Uniform .ready (.group stack .ready ms)) (hk : EveryLeaf (Keeps f) (.group stack .ready ms)) (hw : SomeLeaf (Watches f) (.group stack .ready ms))
    (e : Env (World Bus)) (hf : Has e.world.rest f) :
    let r := (Tree.group stack .ready ms).read e
    ¬ AtMostWarn r.2.status ∧ Uniform .error r.1 ∧ ∀ i ∈ ids, WasRead (core e.world i) (core r.2.world i) ∧ Stopped (core e.world i) (core r.2.world i) := by
  intro r
  have h := (warn_iff r.2).2 (read_detects f (Watches f) (alarm_read f) _ hk hw hu e hf)
  obtain ⟨h1, -, h3⟩ := C111_stopped stack ms ids hc hu e h
  exact ⟨h, h1, h3⟩

/-- C118, both together.  Something goes wrong with the bus or a node, and anything but its end happens until the next read cycle: it stops every motor, and the write
cycle after it gives the quick stop command to every motor that is enabled. -/
theorem C118_supervised (f : Fault) (stack : Bool) (ms : List (Tree (World Bus))) (ids : List Nat) (hc : ChainOf (.group stack .ready ms) ids)
    (hu : Uniform .ready (.group stack .ready ms)) (hk : EveryLeaf (Keeps f) (.group stack .ready ms)) (hw : SomeLeaf (Watches f) (.group stack .ready ms))
    (b : Bus) (x : In) (es : List In) (hx : RaisedBy b f x) (hes : ∀ e ∈ es, ¬ MayEnd b f e)
    (e : Env (World Bus)) (he : e.world.rest = (b.step x).run es) (s : Status) :
    let r := (Tree.group stack .ready ms).read e
    let r' := r.1.write { r.2 with status := s }
    (∀ i ∈ ids, Stopped (core e.world i) (core r.2.world i)) ∧
    ∀ i ∈ ids, (core r.2.world i).hs = .enabled → (core e.world i).accepts = true →
      ∃ wd, (core r'.2.world i).words = wd :: (core e.world i).words ∧ IsQuickStop wd := by
  intro r r'
  obtain ⟨h1, -, h3⟩ := C118_stops f stack ms ids hc hu hk hw e (by rw [he]; exact C118_raised b f x es hx hes)
  exact ⟨fun i hi => (h3 i hi).2, C111_quick_stop_sent stack ms ids hc hu e s h1⟩

private theorem sends_nodes (b : Bus) (l : List (Frame × Int)) : (b.run (l.map fun p => .send p.1 p.2)).nodes = b.nodes := by
  induction l generalizing b with
  | nil => rfl
  | cons p l ih =>
    show ((b.step (.send p.1 p.2)).run _).nodes = _
    rw [ih]
    simp only [Bus.step]
    split <;> rfl

/-- C118.  A failed bus and a node that is not operational end a write cycle with an error as well, with the same consequences (`C111_write_stopped`). -/
theorem C118_write_stops (f : Fault) (hf : f = .bus ∨ ∃ i, f = .down i) (stack : Bool) (ms : List (Tree (World Bus))) (ids : List Nat)
    (hc : ChainOf (.group stack .ready ms) ids) (hu : Uniform .ready (.group stack .ready ms)) (hk : EveryLeaf (Keeps f) (.group stack .ready ms))
    (hw : SomeLeaf (Watches f) (.group stack .ready ms)) (e : Env (World Bus)) (h : Has e.world.rest f) :
    let r := (Tree.group stack .ready ms).write e
    ¬ AtMostWarn r.2.status ∧ Uniform .error r.1 ∧ ∀ i ∈ ids, (core r.2.world i).hs = .enabled → (core r.2.world i).target = .quickStop := by
  intro r
  have ha : Alarm f .write (Watches f) := by
    intro id h e hw hk he
    have h1 := hk .write .ready e.world e.status (.inr (.inl rfl)) he
    rcases hf with rfl | ⟨i, rfl⟩
    · obtain ⟨pre, o, rfl⟩ := hw
      exact can_alarm pre o id e .write (.inr rfl) h1
    · obtain ⟨pre, sdo, pdo, out, o, rfl⟩ := hw
      have hst : ((e.world.rest.run (pre e.world)).nodes i).state ≠ 5#8 := by
        simp only [Has, nodeHandlers] at h1
        split at h1
        · exact h1
        · exact h1
        · rw [sends_nodes] at h1; exact h1
        · rw [sends_nodes] at h1; exact h1
      refine error_call _ _ _ _ _ "not operational".toList ?_
      have hr : ((e.world.rest.run (pre e.world)).nodes i).handleWrite .ready (out { e.world with rest := e.world.rest.run (pre e.world) }).2 = .notOperational := by
        unfold Nmt.Node.handleWrite
        rw [if_pos (by decide), if_pos (show _ ≠ Nmt.Operational from hst)]
      simp only [nodeHandlers, hr]
      exact List.mem_singleton.2 rfl
  have hb := (warn_iff r.2).2 (write_detects f (Watches f) ha _ hk hw hu e h)
  obtain ⟨h1, h2⟩ := C111_write_stopped stack ms ids hc hu e hb
  refine ⟨hb, h1, fun i hi hen => ?_⟩
  obtain ⟨m, -, -, -, h3⟩ := h2 i hi
  exact (h3.1 hen).1

/-- C118.  The layers raise no other alarm: without these faults the CAN layer and the emergency handler report nothing in a read cycle, and the node only what its
process data are reported for. -/
theorem C118_no_alarm (pre : World Bus → List In) (sdo : World Bus → Option (BitVec 16)) (pdo : World Bus → PdoIn) (out : World Bus → List (Frame × Int) × Bool)
    (o : Handlers (World Bus)) (i : Nat) (w : World Bus) (s : Status) (st : LayerState) (b : Bus) (hb : w.rest.run (pre w) = b) :
    (¬ Has b .bus → ((canHandlers pre o).run .read st w s).2 = ([], none) ∧ ((canHandlers pre o).run .write st w s).2 = ([], none)) ∧
    (¬ Has b (.emergency i) → ((emcyHandlers pre o i).run .read st w s).2 = ([], none)) ∧
    (¬ Has b (.down i) → ¬ Has b (.silent i) → (∃ v, Interval (b.nodes i) v) → st = .ready →
      ((nodeHandlers pre sdo pdo out o i).run .read st w s).2 = ((pdo { w with rest := b }).reports, none)) := by
  subst hb
  refine ⟨fun h => ?_, fun h => ?_, fun h1 h2 ⟨v, hv⟩ hst => ?_⟩
  · have hr : CanL.cycleReports (w.rest.run (pre w)).driver.state st = [] := by
      unfold CanL.cycleReports
      exact if_neg (fun hx => h hx.2)
    constructor
    · show (CanL.cycleReports _ st, none) = _
      rw [hr]
    · show (CanL.cycleReports _ st, none) = _
      rw [hr]
  · show ((if ((w.rest.run (pre w)).emcys i).handleRead st then _ else _), none) = _
    have : ((w.rest.run (pre w)).emcys i).handleRead st = false := by
      unfold Emcy.Handler.handleRead
      simp only [Has, Bool.not_eq_true] at h
      rw [h, Bool.and_false]
    rw [this]; rfl
  · subst hst
    generalize hb : w.rest.run (pre w) = b at *
    obtain ⟨x, hx, hxv⟩ := interval_known _ v hv (sdo { w with rest := b })
    have hc : (b.nodes i).checkHeartbeat b.now (sdo { w with rest := b }) = some true := by
      unfold Nmt.Node.checkHeartbeat
      rw [hx]
      dsimp only
      split
      · rfl
      · rename_i hne
        congr 1
        rw [decide_eq_true_iff]
        apply Classical.byContradiction
        intro hlt
        refine h2 ⟨v, hv, ?_, by omega⟩
        intro hz
        apply hne
        apply BitVec.eq_of_toNat_eq
        rw [hxv, hz]; rfl
    have hr : (b.nodes i).handleRead .ready b.now (sdo { w with rest := b }) = .pdo := by
      unfold Nmt.Node.handleRead
      rw [if_pos (by decide), hc]
      dsimp only
      exact if_neg (fun hx => h1 hx)
    simp only [nodeHandlers, hb, hr]

/-- C118.  With a failed bus nothing leaves the computer any more: the quick stop commands are given but reach no drive, which must stop by itself. -/
theorem C118_bus_quiet (b : Bus) (es : List In) (h : Has b .bus) : (b.run es).driver.wire = b.driver.wire := by
  induction es generalizing b with
  | nil => rfl
  | cons e es ih =>
    obtain ⟨h1, h2⟩ := bus_keeps b e h
    show ((b.step e).run es).driver.wire = _
    rw [ih _ h1, h2]

/-- C118.  A node without heartbeat (interval 0) that is operational is never known to be silent, however long nothing is heard. -/
theorem C118_unsupervised (b : Bus) (i : Nat) (es : List In) (hv : Interval (b.nodes i) 0) (hes : ∀ k, In.read k ∈ es → ¬ Carries k (errorControl (b.nodes i).id)) :
    ¬ Has (b.run es) (.silent i) := by
  simp only [Has]
  rw [run_node b i es hes]
  rintro ⟨v, hv', h0, -⟩
  unfold Interval at hv hv'
  rcases hv with ⟨a1, -, a3⟩ | ⟨a1, -⟩ <;> rcases hv' with ⟨b1, -, b3⟩ | ⟨b1, b2⟩
  · rw [a3] at b3; exact h0 b3.symm
  · exact h0 b2
  · rw [a1] at b1; cases b1
  · exact h0 b2

/-! a chain of a CAN layer, a node with its emergency handler, and two motors -/

private def idle118 : Handlers (World Bus) := ⟨fun _ _ w _ => (w, [], none)⟩

private def plant : List (Tree (World Bus)) :=
  [.leaf 0 .ready (canHandlers (fun _ => []) idle118) [],
   .leaf 10 .ready (nodeHandlers (fun _ => []) (fun _ => none) (fun w => ⟨w.status, w.display, []⟩) (fun _ => ([], true)) idle118 7) [],
   .leaf 11 .ready (emcyHandlers (fun _ => []) idle118 7) [],
   .group false .ready [.leaf 1 .ready (motorHandlers idle118 1) [], .leaf 2 .ready (motorHandlers idle118 2) []]]

private theorem plant_chain : ChainOf (.group true .ready plant) [1, 2] ∧ Uniform .ready (.group true .ready plant) ∧
    (∀ f, EveryLeaf (Keeps f) (.group true .ready plant)) ∧ (∀ f, (match f with | .bus => True | .emergency i => i = 7 | .down i => i = 7 | .silent i => i = 7) →
      SomeLeaf (Watches f) (.group true .ready plant)) := by
  refine ⟨⟨by decide, [(1, .ready), (2, .ready)], ?_, rfl⟩, ?_, ?_, ?_⟩
  · refine ⟨[], _, rfl, .inr ⟨?_, rfl⟩, [], _, rfl, .inr ⟨?_, rfl⟩, [], _, rfl, .inr ⟨?_, rfl⟩, [(1, .ready), (2, .ready)], [], rfl, ?_, rfl⟩
    · intro m st w s i; cases m <;> rfl
    · intro m st w s i
      cases m <;> try rfl
      · simp only [nodeHandlers]; split <;> rfl
      · simp only [nodeHandlers]; split <;> rfl
    · intro m st w s i; cases m <;> rfl
    · exact ⟨[(1, .ready)], [(2, .ready)], rfl, .inl ⟨_, rfl, rfl⟩, [(2, .ready)], [], rfl, .inl ⟨_, rfl, rfl⟩, rfl⟩
  · simp [plant, Uniform, UniformAll]
  · intro f
    exact ⟨can_keeps f _ _ (fun _ _ h => nomatch h), node_keeps f _ _ _ _ _ _ (fun _ _ h => nomatch h), emcy_keeps f _ _ _ (fun _ _ h => nomatch h),
      ⟨motor_keeps f _ _, motor_keeps f _ _, trivial⟩, trivial⟩
  · intro f hf
    cases f with
    | bus => exact .inl ⟨_, _, rfl⟩
    | emergency i => obtain rfl := hf; exact .inr (.inr (.inl ⟨_, _, rfl⟩))
    | down i => obtain rfl := hf; exact .inr (.inl ⟨_, _, _, _, _, rfl⟩)
    | silent i => obtain rfl := hf; exact .inr (.inl ⟨_, _, _, _, _, rfl⟩)

private def motor118 : M402.Motor :=
  { cw := 0x0F, sfr := false, hs := .enabled, sw := 0x27, target := .enabled, modes := fun _ => none, drives := none, selected := none, modeId := 0,
    phase := .idle }

/-- a healthy bus: node 7 with a heartbeat of 100 ms was heard at time 1000 -/
private def bus118 : Bus :=
  { driver := { Driver.initial (Vector.replicate 8 0) with state := { State.initial with driver := .ready }, fatalMask := 0x1C1#32 },
    nodes := fun _ => { Nmt.Node.fresh 7 false ⟨true, none, none, 100, true⟩ with state := 5, hbTimeout := 1300 },
    emcys := fun _ => ⟨false, false⟩, cobs := fun _ => 0x87, now := 1000 }

private def env118 (b : Bus) : Env (World Bus) :=
  { world := { motors := fun _ => motor118, status := fun _ => some 0x27, display := fun _ => some 0, accepts := fun _ => true, words := fun _ => [], rest := b },
    status := .initial, log := [] }

private def kframe (id : BitVec 32) (x : Byte) : KFrame := { canId := id, dlc := 8, data := Vector.replicate 8 x }

/-- the hypotheses of `C118_raised` and `C118_supervised` are met by bus-off, by an emergency message of node 7, and by a message that it is stopped, with a heartbeat of
another node and time in between -/
example : RaisedBy bus118 .bus (.read (kframe 0x20000040 0)) ∧ RaisedBy bus118 (.emergency 7) (.read (kframe 0x87 1)) ∧ RaisedBy bus118 (.down 7) (.read (kframe 0x707 4)) ∧
    (∀ f, ∀ e ∈ [In.read (kframe 0x708 5), .time 50], ¬ MayEnd bus118 f e) := by
  refine ⟨⟨by decide +kernel, .busoff, by decide +kernel, by decide +kernel⟩, ⟨by unfold Carries; decide +kernel, by decide +kernel, 0, by decide, by decide +kernel⟩,
    ⟨rfl, ⟨100, .inl ⟨rfl, rfl, rfl⟩⟩, by unfold Carries; decide +kernel, by decide +kernel, by decide +kernel⟩, ?_⟩
  intro f e he
  simp only [List.mem_cons, List.not_mem_nil, or_false] at he
  rcases he with rfl | rfl <;> cases f <;> simp only [MayEnd, not_false_eq_true]
  · unfold Carries; dsimp only [bus118]; decide +kernel
  · unfold Carries; dsimp only [bus118]; decide +kernel
  · unfold Carries; dsimp only [bus118]; decide +kernel

/-- and the chain: without a fault its read cycle ends well, with an emergency message it stops both motors -/
example : AtMostWarn ((Tree.group true .ready plant).read (env118 bus118)).2.status ∧
    (core ((Tree.group true .ready plant).read (env118 (bus118.step (.read (kframe 0x87 1))))).2.world 2).target = .quickStop :=
  ⟨by unfold AtMostWarn; decide +kernel, by decide +kernel⟩

example : ∃ (f : Fault) (ids : List Nat), ChainOf (.group true .ready plant) ids ∧ Uniform .ready (.group true .ready plant) ∧ EveryLeaf (Keeps f) (.group true .ready plant) ∧
    SomeLeaf (Watches f) (.group true .ready plant) ∧ Has (env118 (bus118.step (.read (kframe 0x707 4)))).world.rest f ∧ f = .down 7 :=
  ⟨.down 7, [1, 2], plant_chain.1, plant_chain.2.1, plant_chain.2.2.1 _, plant_chain.2.2.2 _ rfl, by simp only [Has]; decide +kernel, rfl⟩

/-- `C118_silence`: after 301 ms, not after 300 -/
example : (∃ v, Interval (bus118.nodes 7) v ∧ v ≠ 0) ∧ Carries (kframe 0x707 5) (errorControl (bus118.nodes 7).id) ∧ elapsed [.time 200, .read (kframe 0x708 5), .time 101] = 301 :=
  ⟨⟨100, .inl ⟨rfl, rfl, rfl⟩, by decide⟩, by unfold Carries; decide +kernel, rfl⟩

/-- `C118_bus_quiet` and `C118_unsupervised` -/
example : Has (bus118.step (.readError 5)) .bus ∧ Interval (Nmt.Node.fresh 7 false ⟨false, none, none, 0, false⟩) 0 := ⟨by simp only [Has]; decide +kernel, .inr ⟨rfl, rfl⟩⟩

end Verif.Props
