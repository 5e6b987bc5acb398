import Verif.Lemmas.Robot

/-! C57, C58, C68–C70: controller switching of the robot layer. -/

set_option linter.unusedVariables false

namespace Verif.Props
open Verif.Rob Verif.Spec.Rob Verif.Lay

/-! A robot with two joints whose motors support profiled position (1) and profiled velocity (3). -/

/-- supported modes of the example -/
def exModes (m : Mode) : Bool := m == 1 || m == 3

/-- example robot -/
def exRobot : Robot :=
  ((Robot.mk (fun _ => none) (fun _ => none) 0).add "a" (Handle.construct 0 .ready exModes).registerAll).add "b"
    (Handle.construct 0 .ready exModes).registerAll

theorem exRobot_built : Built exRobot := Built.add (Built.add Built.empty rfl) rfl

/-- a controller for both joints -/
def exBoth : Controller := ⟨"both", [("hardware_interface::PositionJointInterface", ["a", "b"])]⟩
/-- a velocity controller for one joint -/
def exVel : Controller := ⟨"vel", [("hardware_interface::VelocityJointInterface", ["a"])]⟩
/-- a position controller for one joint -/
def exPos : Controller := ⟨"pos", [("hardware_interface::PositionJointInterface", ["a"])]⟩

/-- parameters of the examples -/
def exParams (n : String) : Params := if n = "vel" then ⟨some 3, none, none⟩ else ⟨some 1, none, none⟩

/-- motors that always enter the requested mode -/
def exGood : Nat → Answer := fun _ => .entered
/-- the fourth request fails (the two requests for no mode are already counted) -/
def exBad : Nat → Answer := fun n => if n = 3 then .failed 0 else .entered

/-! ### C57 -/

/-- C57: a switch request is accepted exactly if every controller to stop has been started before and every controller
to start is admissible: all its joints exist, support the required mode, can take it now and through the claimed
interface, and controllers with several interfaces list their modes. -/
theorem C57_accepts (params : String → Params) (ans : Nat → Answer) (order : List String → List String)
    (r : Robot) (start stop : List Controller) : (r.prepareSwitch params ans order start stop).2.1 = true ↔
    (∀ c ∈ stop, (r.switchMap c.name).isSome) ∧ ∀ c ∈ start, Admissible r (params c.name) c :=
  prepareSwitch_accepts params ans order r start stop

example : (exRobot.prepareSwitch exParams exGood id [exBoth] []).2.1 = true := by decide
example : (exRobot.prepareSwitch exParams exGood id [⟨"x", [("hardware_interface::PositionJointInterface", ["a", "z"])]⟩] []).2.1 = false := by decide
example : (exRobot.prepareSwitch exParams exGood id [⟨"vel", [("hardware_interface::PositionJointInterface", ["a"])]⟩] []).2.1 = false := by decide
example : (exRobot.prepareSwitch exParams exGood id [exBoth] [exVel]).2.1 = false := by decide

/-- C57, recorded joints: after an accepted request the record of a controller that is started for the first time covers
exactly the claimed joints in order, each with the required mode. (Partial: see `C57_stale_record` for restarts.) -/
theorem C57_recorded_partial (params : String → Params) (ans : Nat → Answer) (order : List String → List String)
    (r : Robot) (start stop : List Controller) (hacc : (r.prepareSwitch params ans order start stop).2.1 = true)
    (hnames : (start.map (·.name)).Nodup) (c : Controller) (hc : c ∈ start) (hfirst : r.switchMap c.name = none) :
    ∃ sw, (r.prepareSwitch params ans order start stop).1.switchMap c.name = some sw ∧
      sw.map (·.joint) = c.claims.flatMap (·.2) ∧ ∀ d ∈ sw, Requires (params c.name) d.joint d.mode := by
  have hadm := ((prepareSwitch_accepts _ _ _ _ _ _).1 hacc).2 c hc
  obtain ⟨ht, he⟩ := prepareSwitch_run params ans order r start stop hacc
  obtain ⟨-, -, -, hrec⟩ := admitAll_map params start r ht
  refine ⟨dataFor (params c.name) c.flat, ?_, ?_, ?_⟩
  · rw [he]
    dsimp only
    rw [(stopAll_ext ans _ _).1, (startAll_spec ans start _ _ _).1.1]
    exact hrec hnames c hc hfirst
  · unfold dataFor Controller.flat
    rw [List.map_map, List.map_flatMap]
    congr 1
    funext cl
    rw [List.map_map]
    exact List.map_id _
  · intro d hd
    unfold dataFor at hd
    obtain ⟨⟨i, j⟩, hij, rfl⟩ := List.mem_map.1 hd
    obtain ⟨m, hm, _⟩ := hadm.serve i j ((mem_flat _ _ _).1 hij)
    dsimp only
    rw [(getMode_iff _ _ _).2 hm]
    exact hm

example : (exRobot.prepareSwitch exParams exGood id [exBoth] []).1.switchMap "both" = some [⟨"a", 1, true⟩, ⟨"b", 1, true⟩] := by decide

/-- C57: a controller that claims a joint through two interfaces is never accepted. -/
theorem C57_one_interface (params : String → Params) (ans : Nat → Answer) (order : List String → List String)
    (r : Robot) (hb : Built r) (start stop : List Controller) (hacc : (r.prepareSwitch params ans order start stop).2.1 = true)
    (c : Controller) (hc : c ∈ start) (i i' j : String) (h : Claims c i j) (h' : Claims c i' j) : i = i' := by
  have hadm := ((prepareSwitch_accepts _ _ _ _ _ _).1 hacc).2 c hc
  obtain ⟨m, hm, hs⟩ := hadm.serve i j h
  obtain ⟨m', hm', hs'⟩ := hadm.serve i' j h'
  have e := requires_unique hm hm'
  subst e
  obtain ⟨x, hx, hsup, hcmd, _⟩ := hs.joint
  obtain ⟨hreg, _, h0⟩ := (built_inv hb).1 j x hx
  cases hk : x.commands.lookup m with
  | none => rw [hk] at hcmd; simp at hcmd
  | some k =>
    obtain ⟨hr1, hr2⟩ := hreg m k hk
    cases k with
    | none => rw [hr2 rfl, h0] at hsup; simp at hsup
    | some k => rw [hs.iface k hr1, hs'.iface k hr1]

example : (exRobot.prepareSwitch (fun _ => ⟨some 1, some [("a", 1)], none⟩) exGood id [⟨"x",
    [("hardware_interface::PositionJointInterface", ["a"]), ("hardware_interface::VelocityJointInterface", ["b"])]⟩] []).2.1 = false := by decide
example : (exRobot.prepareSwitch (fun _ => ⟨none, some [("a", 1), ("b", 3)], none⟩) exGood id [⟨"x",
    [("hardware_interface::PositionJointInterface", ["a"]), ("hardware_interface::VelocityJointInterface", ["b"])]⟩] []).2.1 = true := by decide

/-- C57: no record of a controller ever lists a joint with two modes. -/
theorem C57_one_mode (r : Robot) (hb : Built r) (n : String) (sw : List SwitchData) (hn : r.switchMap n = some sw)
    (d e : SwitchData) (hd : d ∈ sw) (he : e ∈ sw) (hj : d.joint = e.joint) : d.mode = e.mode :=
  (built_inv hb).2.2 n sw hn d hd e he hj

example : Built (exRobot.prepareSwitch exParams exGood id [exBoth] []).1 := Built.prepare exRobot_built

/-- C57 does not hold across controllers: two controllers that need the same joint in different modes are both accepted;
the joint ends in the mode of the last one. -/
theorem C57_two_controllers : ∃ r params start,
    Built r ∧ (r.prepareSwitch params exGood id start []).2.1 = true ∧ (r.prepareSwitch params exGood id start []).2.2 = [] ∧
    (∃ c ∈ start, ∃ c' ∈ start, ∃ i i' j m m', Claims c i j ∧ Claims c' i' j ∧ Requires (params c.name) j m ∧
      Requires (params c'.name) j m' ∧ m ≠ m') := by
  refine ⟨exRobot, exParams, [exPos, exVel], exRobot_built, by decide, by decide, exPos, by simp, exVel, by simp, _, _, "a", 1, 3,
    ⟨["a"], List.mem_singleton.2 rfl, by simp⟩, ⟨["a"], List.mem_singleton.2 rfl, by simp⟩,
    (getMode_iff _ _ _).1 rfl, (getMode_iff _ _ _).1 rfl, by decide⟩

/-- C57 does not hold for restarts: the record of the first start is kept, so a controller whose required mode was changed
in between is accepted but its joint is switched into the old mode. -/
theorem C57_stale_record : ∃ r params start,
    Built r ∧ (r.prepareSwitch params exGood id start []).2.1 = true ∧
    (∃ c ∈ start, ∃ i, Claims c i "a" ∧ Requires (params c.name) "a" 3 ∧ (r.prepareSwitch params exGood id start []).2.2 = [] ∧
      (((r.prepareSwitch params exGood id start []).1.handles "a").map (·.mode)) = some 1) := by
  refine ⟨(exRobot.prepareSwitch exParams exGood id [exPos] []).1, fun _ => ⟨some 3, none, none⟩,
    [⟨"pos", [("hardware_interface::VelocityJointInterface", ["a"])]⟩], Built.prepare exRobot_built, by decide, _, List.mem_singleton.2 rfl, _,
    ⟨["a"], List.mem_singleton.2 rfl, by simp⟩, (getMode_iff _ _ _).1 rfl, by decide, by decide⟩

/-- C57: a refused request can leave a record behind: the controller counts as started although it never was. -/
theorem C57_refused_recorded : ∃ r params start c,
    Built r ∧ (r.prepareSwitch params exGood id start []).2.1 = false ∧ r.switchMap c.name = none ∧
    ((r.prepareSwitch params exGood id start []).1.prepareSwitch params exGood id [] [c]).2.1 = true := by
  exact ⟨exRobot, exParams, [exPos, ⟨"x", [("hardware_interface::PositionJointInterface", ["z"])]⟩], exPos, exRobot_built,
    by decide, by decide, by decide⟩

/-! ### C58 -/

/-- C58: if an accepted start request could not switch one joint of a controller, then all joints recorded for that
controller end in no mode and no command is sent to them; whichever joint failed, and in whatever order the joints are
stopped. (The other controllers of the request do not share joints with it.) -/
theorem C58_prepare (params : String → Params) (ans : Nat → Answer) (order : List String → List String)
    (r : Robot) (hb : Built r) (start stop : List Controller) (hord : ∀ l, (order l).Perm l)
    (hacc : (r.prepareSwitch params ans order start stop).2.1 = true) (hnames : (start.map (·.name)).Nodup)
    (c : Controller) (hc : c ∈ start)
    (hap : ∀ c' ∈ start, c'.name ≠ c.name → Apart (((r.prepareSwitch params ans order start stop).1.switchMap c'.name).getD [])
      (((r.prepareSwitch params ans order start stop).1.switchMap c.name).getD []))
    (hfail : c.name ∈ (r.prepareSwitch params ans order start stop).2.2)
    (sw : List SwitchData) (hsw : (r.prepareSwitch params ans order start stop).1.switchMap c.name = some sw) :
    ∀ d ∈ sw, Stopped (r.prepareSwitch params ans order start stop).1 d.joint := by
  intro d hd
  have := (turn params ans order r start stop hacc hnames hord c hc hb hap).1 hfail d
  unfold recOf at this
  rw [hsw] at this
  exact this hd

example : (exRobot.prepareSwitch exParams exBad id [exBoth] []).2 = (true, ["both"]) ∧
    ((exRobot.prepareSwitch exParams exBad id [exBoth] []).1.handles "a").map (·.mode) = some 0 := by decide

/-- C58, second phase: if forwarding fails for a joint of a controller, the joint that failed is put into no mode.
(Partial: the other joints are not, see `C58_doSwitch_others_keep_running`.) -/
theorem C58_doSwitch_partial (ans : Nat → Answer) (r : Robot) (hb : Built r) (c : Controller) (sw : List SwitchData)
    (hsw : r.switchMap c.name = some sw) (hfail : (r.doSwitch ans [] [c]).2 = [c.name]) :
    ∃ d ∈ sw, Stopped (r.doSwitch ans [] [c]).1 d.joint := by
  obtain ⟨h1, h2, -⟩ := built_inv hb
  unfold Robot.doSwitch at hfail ⊢
  rw [hsw] at hfail ⊢
  dsimp only at hfail ⊢
  have hnz : ∃ n, sw.length = n + 1 := by
    cases sw with
    | nil => simp [forwardLoop, Robot.doSwitch] at hfail
    | cons x l => exact ⟨l.length, rfl⟩
  obtain ⟨n, hn⟩ := hnz
  rw [hn] at hfail ⊢
  have hf := forwardLoop_false ans n sw r h1 (h2 c.name sw hsw)
  generalize forwardLoop ans (n + 1) r sw = o at hf hfail ⊢
  obtain ⟨r', b⟩ := o
  cases b with
  | true => simp [Robot.doSwitch] at hfail
  | false =>
    obtain ⟨he, d, hd, hi⟩ := hf rfl
    exact ⟨d, hd, inMode_zero (he.sane h1) hi⟩

example : (exRobot.prepareSwitch exParams exBad id [exBoth] []).1.switchMap "both" = some [⟨"a", 1, true⟩, ⟨"b", 1, true⟩] ∧
    ((exRobot.prepareSwitch exParams exBad id [exBoth] []).1.doSwitch exGood [] [exBoth]).2 = ["both"] := by decide

/-- no request of controllers makes a motor ready -/
private def Out (j : String) (r : Robot) : Prop := ∀ h, r.handles j = some h → h.state ≠ .ready

private theorem out_set {j i : String} {r : Robot} {h : Handle} (hr : Out j r) (hh : i = j → h.state ≠ .ready) : Out j (r.setHandle i h) := by
  intro h' e
  unfold Robot.setHandle at e
  dsimp only at e
  split at e
  · rename_i hj
    cases e
    exact hh hj.symm
  · exact hr h' e

private theorem handle_out {h : Handle} (hs : h.state ≠ .ready) (m : Mode) (a : Answer) : (h.switchMode m a).1.state ≠ .ready := by
  have hsel : ∀ (g : Handle), g.state ≠ .ready → (g.select m).1.state ≠ .ready := by
    intro g hg
    unfold Handle.select
    split <;> exact hg
  have hhalt : haltState h.state ≠ .ready := by
    unfold haltState
    split
    · decide
    · exact hs
  unfold Handle.switchMode
  split
  · exact hsel _ hs
  · split
    · exact hsel _ hs
    · exact hhalt

private theorem switch_out {j : String} {ans : Nat → Answer} {r : Robot} (hr : Out j r) (i : String) (m : Mode) : Out j (r.switchMode ans i m).1 := by
  unfold Robot.switchMode
  cases hi : r.handles i with
  | none => exact hr
  | some h =>
    have := out_set (i := i) (h := (h.switchMode m (ans r.asked)).1) hr (fun e => handle_out (hr h (e ▸ hi)) m _)
    exact fun h' e => this h' e

private theorem stopAll_out {j : String} {ans : Nat → Answer} : ∀ (js : List String) (r : Robot), Out j r → Out j (stopAll ans r js)
  | [], _, h => h
  | i :: js, _, h => stopAll_out js _ (switch_out h i 0)

private theorem limits_out {j : String} {r : Robot} (hr : Out j r) (i : String) (b : Bool) : Out j (r.enableLimits i b) := by
  unfold Robot.enableLimits
  cases hi : r.handles i with
  | none => exact hr
  | some h => exact out_set hr (fun e => hr h (e ▸ hi))

private theorem startLoop_out {j : String} {ans : Nat → Answer} {all : List String} :
    ∀ (ds : List SwitchData) (r : Robot) (stop : List String), Out j r → Out j (startLoop ans all r stop ds).1
  | [], _, _, h => h
  | d :: ds, r, stop, h => by
    have h' := switch_out (ans := ans) h d.joint d.mode
    unfold startLoop
    rcases hx : r.switchMode ans d.joint d.mode with ⟨r', b⟩
    rw [hx] at h'
    cases b with
    | false => exact h'
    | true => exact startLoop_out ds _ _ (limits_out h' _ _)

private theorem startAll_out {j : String} {ans : Nat → Answer} :
    ∀ (cs : List Controller) (r : Robot) (stop failed : List String), Out j r → Out j (startAll ans r stop failed cs).1
  | [], _, _, _, h => h
  | c :: cs, r, stop, failed, h => by
    unfold startAll
    have h' : Out j (startOne ans r stop ((r.switchMap c.name).getD [])).1 := startLoop_out _ _ _ (stopAll_out _ _ h)
    rcases hx : startOne ans r stop ((r.switchMap c.name).getD []) with ⟨r', stop', ok⟩
    rw [hx] at h'
    exact startAll_out cs _ _ _ h'

private theorem admit_handles {params : String → Params} : ∀ (cs : List Controller) (r : Robot), (admitAll params r cs).1.handles = r.handles
  | [], _ => rfl
  | c :: cs, r => by
    unfold admitAll
    cases admit r (params c.name) c with
    | none => rfl
    | some sw => exact admit_handles cs _

private theorem prepare_out {j : String} {params : String → Params} {ans : Nat → Answer} {order : List String → List String} {r : Robot} (hr : Out j r)
    (start stop : List Controller) : Out j (r.prepareSwitch params ans order start stop).1 := by
  unfold Robot.prepareSwitch
  split
  · exact hr
  · have h1 : Out j (admitAll params r start).1 := by
      intro h e
      rw [admit_handles] at e
      exact hr h e
    rcases hx : admitAll params r start with ⟨r1, b⟩
    rw [hx] at h1
    cases b with
    | false => exact h1
    | true =>
      dsimp only
      have h2 := startAll_out (ans := ans) start r1 (stopJoints r1 stop) [] h1
      rcases hy : startAll ans r1 (stopJoints r1 stop) [] start with ⟨r2, ts, f⟩
      rw [hy] at h2
      exact stopAll_out _ _ h2

private theorem stopSame_out {j i : String} {ans : Nat → Answer} : ∀ (n : Nat) (r : Robot), Out j r → Out j (stopSame ans r i n)
  | 0, _, h => h
  | n + 1, _, h => stopSame_out n _ (switch_out h i 0)

private theorem forwardLoop_out {j : String} {ans : Nat → Answer} {n : Nat} : ∀ (ds : List SwitchData) (r : Robot), Out j r → Out j (forwardLoop ans n r ds).1
  | [], _, h => h
  | d :: ds, r, hr => by
    unfold forwardLoop
    cases hi : r.handles d.joint with
    | none => exact hr
    | some h =>
      dsimp only
      unfold Handle.forwardForMode
      by_cases hm : h.mode = d.mode
      · rw [if_pos hm]
        exact forwardLoop_out ds _ (out_set hr (fun e => hr h (e ▸ hi)))
      · rw [if_neg hm]
        exact stopSame_out _ _ hr

private theorem doSwitch_out {j : String} {ans : Nat → Answer} : ∀ (cs : List Controller) (r : Robot) (failed : List String), Out j r →
    Out j (r.doSwitch ans failed cs).1
  | [], _, _, h => h
  | c :: cs, r, failed, h => by
    unfold Robot.doSwitch
    cases hs : r.switchMap c.name with
    | none => exact doSwitch_out cs _ _ h
    | some sw =>
      dsimp only
      have h' := forwardLoop_out (ans := ans) (n := sw.length) sw r h
      rcases hx : forwardLoop ans sw.length r sw with ⟨r', b⟩
      rw [hx] at h'
      cases b with
      | true => exact doSwitch_out cs _ _ h'
      | false => exact doSwitch_out cs _ _ h'

/-- C58, a motor that did not enter a mode: it is halted, and from then on, whatever is requested, no controller that needs its joint in another mode than the
present one is admitted, until the motor itself has changed its state (recovery). -/
theorem C58_locked_out (ans : Nat → Answer) (r r' : Robot) (j : String) (m left : Mode) (h : Handle) (hh : r.handles j = some h) (hm : h.mode ≠ m) (h0 : m ≠ 0)
    (hf : ans r.asked = .failed left) (hl : Later (r.switchMode ans j m).1 r') (params : String → Params) (ans' : Nat → Answer) (order : List String → List String)
    (start stop : List Controller) (c : Controller) (hc : c ∈ start) (i : String) (hcl : Claims c i j) (m' : Mode) (hq : Requires (params c.name) j m')
    (hne : ∀ h', r'.handles j = some h' → h'.mode ≠ m') : (r'.prepareSwitch params ans' order start stop).2.1 = false := by
  have hout : Out j (r.switchMode ans j m).1 := by
    unfold Robot.switchMode
    rw [hh]
    dsimp only
    unfold Handle.switchMode
    rw [if_neg hm, if_neg h0, hf]
    intro h' e
    simp only [Robot.setHandle, if_true, Option.some.injEq] at e
    rw [← e]
    show haltState h.state ≠ .ready
    unfold haltState
    cases h.state <;> decide
  have hout' : Out j r' := by
    clear hne
    induction hl with
    | refl => exact hout
    | prepare _ ih => exact prepare_out ih _ _
    | switch _ ih => exact doSwitch_out _ _ _ ih
  cases hb : (r'.prepareSwitch params ans' order start stop).2.1 with
  | false => rfl
  | true =>
    obtain ⟨m'', hq', hs⟩ := (((prepareSwitch_accepts _ _ _ _ _ _).1 hb).2 c hc).serve i j hcl
    have : m'' = m' := by
      have a := (getMode_iff _ _ _).2 hq
      have b := (getMode_iff _ _ _).2 hq'
      rw [a] at b
      exact (Option.some.inj b).symm
    subst this
    obtain ⟨h', e1, -, -, e2 | e2⟩ := hs.joint
    · exact absurd e2 (hne h' e1)
    · exact absurd e2 (hout' h' e1)

/-- the motor of joint b fails; a velocity controller for joint b is refused afterwards, but one for joint a is not -/
example : (exRobot.handles "b").map (·.mode) = some 0 ∧
    (let r' := (exRobot.switchMode (fun _ => .failed 0) "b" 1).1
     (r'.handles "b").map (·.mode) = some 0 ∧
     (r'.prepareSwitch exParams exGood id [⟨"vel", [("hardware_interface::VelocityJointInterface", ["b"])]⟩] []).2.1 = false ∧
     (r'.prepareSwitch exParams exGood id [exVel] []).2.1 = true) := by decide

/-- C58 fails in the second phase: the joint of another handle loses its mode between the two phases, the controller is
reported as failed, but its first joint stays in its mode and its commands go on to the motor. -/
theorem C58_doSwitch_others_keep_running : ∃ r c sw, Built r ∧ r.switchMap c.name = some sw ∧
    (r.doSwitch exGood [] [c]).2 = [c.name] ∧
    ∃ d ∈ sw, ((r.doSwitch exGood [] [c]).1.handles d.joint).map (fun h => (h.mode, h.sends .ready)) = some (1, some .pos) := by
  let r1 := (exRobot.prepareSwitch exParams exGood id [exBoth] []).1
  have hb1 : Built r1 := Built.prepare exRobot_built
  cases hx : r1.handles "b" with
  | none => exact absurd hx (by decide)
  | some h =>
    have hb2 : Built (r1.setHandle "b" { h with mode := 0, state := .error }) := Built.motor hb1 hx
    refine ⟨r1.setHandle "b" { h with mode := 0, state := .error }, exBoth, [⟨"a", 1, true⟩, ⟨"b", 1, true⟩], hb2, ?_, ?_, ⟨"a", 1, true⟩, by simp, ?_⟩
    · rfl
    · rfl
    · rfl

/-! ### C68 -/

/-- C68: after an accepted request every joint of a controller that was started is in its recorded mode, connected to the
command this mode takes — even if it also belonged to a controller to stop. -/
theorem C68_started (params : String → Params) (ans : Nat → Answer) (order : List String → List String)
    (r : Robot) (hb : Built r) (start stop : List Controller) (hord : ∀ l, (order l).Perm l)
    (hacc : (r.prepareSwitch params ans order start stop).2.1 = true) (hnames : (start.map (·.name)).Nodup)
    (c : Controller) (hc : c ∈ start)
    (hap : ∀ c' ∈ start, c'.name ≠ c.name → Apart (((r.prepareSwitch params ans order start stop).1.switchMap c'.name).getD [])
      (((r.prepareSwitch params ans order start stop).1.switchMap c.name).getD []))
    (hok : c.name ∉ (r.prepareSwitch params ans order start stop).2.2)
    (sw : List SwitchData) (hsw : (r.prepareSwitch params ans order start stop).1.switchMap c.name = some sw) :
    ∀ d ∈ sw, InMode (r.prepareSwitch params ans order start stop).1 d.joint d.mode := by
  intro d hd
  have := (turn params ans order r start stop hacc hnames hord c hc hb hap).2 hok d
  unfold recOf at this
  rw [hsw] at this
  exact this hd

example : ((((exRobot.prepareSwitch exParams exGood id [exBoth] []).1.prepareSwitch exParams exGood id [exVel] [exBoth]).1.handles "a").map
    (fun h => (h.mode, h.jh)), (((exRobot.prepareSwitch exParams exGood id [exBoth] []).1.prepareSwitch exParams exGood id [exVel] [exBoth]).1.handles "b").map
    (fun h => (h.mode, h.jh))) = (some (3, some .vel), some (0, none)) := by decide

/-- C68: after an accepted request every joint of a stopped controller that no started controller uses is in no mode. -/
theorem C68_stopped (params : String → Params) (ans : Nat → Answer) (order : List String → List String)
    (r : Robot) (hb : Built r) (start stop : List Controller) (hord : ∀ l, (order l).Perm l)
    (hacc : (r.prepareSwitch params ans order start stop).2.1 = true)
    (c : Controller) (hc : c ∈ stop) (sw : List SwitchData) (hsw : r.switchMap c.name = some sw) (d : SwitchData) (hd : d ∈ sw)
    (hfree : ∀ c' ∈ start, ∀ e ∈ ((r.prepareSwitch params ans order start stop).1.switchMap c'.name).getD [], e.joint ≠ d.joint) :
    Stopped (r.prepareSwitch params ans order start stop).1 d.joint := by
  obtain ⟨ht, he⟩ := prepareSwitch_run params ans order r start stop hacc
  have hknown := admitAll_known params start r (built_inv hb).2.1
  have hsane : Sane (admitAll params r start).1 := by
    intro j x hx
    rw [(admitAll_handles params _ r).1] at hx
    exact (built_inv hb).1 j x hx
  have hsw1 := (admitAll_map params start r ht).1 c.name sw hsw
  generalize (admitAll params r start).1 = r1 at *
  dsimp only at he
  rw [he] at hfree ⊢
  dsimp only at hfree ⊢
  obtain ⟨q1, q2, q3, -, -⟩ := startAll_spec ans start r1 (stopJoints r1 stop) []
  generalize startAll ans r1 (stopJoints r1 stop) [] start = o at *
  rw [(stopAll_ext ans _ _).1, q1.1] at hfree
  have hin : d.joint ∈ stopJoints r1 stop := by
    rw [stopJoints_mem]
    exact ⟨c, hc, d, by unfold recOf; rw [hsw1]; exact hd, rfl⟩
  have hin' := (q3 d.joint hfree).2.2 hin
  have hs3 := q1.sane hsane
  apply inMode_zero ((stopAll_ext ans _ _).sane hs3)
  apply stopAll_stopped ans _ _ hs3 _ ((hord _).mem_iff.2 hin')
  rw [q1.isSome]
  exact hknown c.name sw hsw1 d hd

example : exBoth ∈ [exBoth] ∧ (exRobot.prepareSwitch exParams exGood id [exBoth] []).1.switchMap "both" = some [⟨"a", 1, true⟩, ⟨"b", 1, true⟩] ∧
    (((exRobot.prepareSwitch exParams exGood id [exBoth] []).1.prepareSwitch exParams exGood id [] [exBoth]).1.handles "b").map (·.mode) = some 0 := by decide

/-- C68: joints of no controller of the request are not touched. -/
theorem C68_others (params : String → Params) (ans : Nat → Answer) (order : List String → List String)
    (r : Robot) (start stop : List Controller) (hord : ∀ l, (order l).Perm l) (j : String)
    (hfree : ∀ c ∈ start ++ stop, ∀ d ∈ ((r.prepareSwitch params ans order start stop).1.switchMap c.name).getD [], d.joint ≠ j) :
    (r.prepareSwitch params ans order start stop).1.handles j = r.handles j := by
  cases hacc : (r.prepareSwitch params ans order start stop).2.1 with
  | false => rw [(prepareSwitch_refused params ans order r start stop hacc).1]
  | true =>
    obtain ⟨ht, he⟩ := prepareSwitch_run params ans order r start stop hacc
    have hh := (admitAll_handles params start r).1
    generalize (admitAll params r start).1 = r1 at *
    dsimp only at he
    rw [he] at hfree ⊢
    dsimp only at hfree ⊢
    obtain ⟨q1, q2, q3, -, -⟩ := startAll_spec ans start r1 (stopJoints r1 stop) []
    generalize startAll ans r1 (stopJoints r1 stop) [] start = o at *
    rw [(stopAll_ext ans _ _).1, q1.1] at hfree
    obtain ⟨a, b⟩ := q3 j (fun c hc => hfree c (by simp [hc]))
    rw [stopAll_other, a, hh]
    intro hx
    have := b.1 ((hord _).mem_iff.1 hx)
    rw [stopJoints_mem] at this
    obtain ⟨c, hc, d, hd, e⟩ := this
    exact hfree c (by simp [hc]) d hd e

example : ∀ d ∈ ((exRobot.prepareSwitch exParams exGood id [exVel] []).1.switchMap "vel").getD [], d.joint ≠ "b" := by decide

/-- C68: a refused request changes no joint, and no controller is asked to stop. -/
theorem C68_refused (params : String → Params) (ans : Nat → Answer) (order : List String → List String)
    (r : Robot) (start stop : List Controller) (ha : (r.prepareSwitch params ans order start stop).2.1 = false) :
    (r.prepareSwitch params ans order start stop).1.handles = r.handles ∧ (r.prepareSwitch params ans order start stop).2.2 = [] :=
  prepareSwitch_refused params ans order r start stop ha

example : (exRobot.prepareSwitch exParams exGood id [exBoth] [exVel]).2.1 = false := by decide

/-! ### C69 -/

/-- C69: if all controllers of an accepted request could be started, and no motor changes its mode before the second
phase, then the second phase fails for none of them and afterwards every joint sends exactly the kind of command its mode
takes. -/
theorem C69_forwarded (params : String → Params) (ans ans' : Nat → Answer) (order : List String → List String)
    (r : Robot) (hb : Built r) (start stop : List Controller) (hord : ∀ l, (order l).Perm l)
    (hacc : (r.prepareSwitch params ans order start stop).2.1 = true) (hnames : (start.map (·.name)).Nodup)
    (hap : ∀ c ∈ start, ∀ c' ∈ start, c'.name ≠ c.name →
      Apart (((r.prepareSwitch params ans order start stop).1.switchMap c'.name).getD [])
      (((r.prepareSwitch params ans order start stop).1.switchMap c.name).getD []))
    (hok : (r.prepareSwitch params ans order start stop).2.2 = []) :
    ((r.prepareSwitch params ans order start stop).1.doSwitch ans' [] start).2 = [] ∧
    ∀ c ∈ start, ∃ sw, (r.prepareSwitch params ans order start stop).1.switchMap c.name = some sw ∧ ∀ d ∈ sw,
      ∃ h, ((r.prepareSwitch params ans order start stop).1.doSwitch ans' [] start).1.handles d.joint = some h ∧
        h.mode = d.mode ∧ h.sends .ready = takes d.mode := by
  have hb' : Built (r.prepareSwitch params ans order start stop).1 := Built.prepare hb
  have hin : ∀ c ∈ start, ∃ sw, (r.prepareSwitch params ans order start stop).1.switchMap c.name = some sw ∧
      ∀ d ∈ sw, InMode (r.prepareSwitch params ans order start stop).1 d.joint d.mode := by
    intro c hc
    obtain ⟨ht, he⟩ := prepareSwitch_run params ans order r start stop hacc
    have hsome := (admitAll_map params start r ht).2.2.1 c hc
    have hm : (r.prepareSwitch params ans order start stop).1.switchMap = (admitAll params r start).1.switchMap := by
      rw [he]
      dsimp only
      rw [(stopAll_ext ans _ _).1, (startAll_spec ans start _ _ _).1.1]
    rw [← hm] at hsome
    obtain ⟨sw, hsw⟩ := Option.isSome_iff_exists.1 hsome
    refine ⟨sw, hsw, ?_⟩
    intro d hd
    have := (turn params ans order r start stop hacc hnames hord c hc hb (hap c hc)).2 (by rw [hok]; simp) d
    unfold recOf at this
    rw [hsw] at this
    exact this hd
  generalize (r.prepareSwitch params ans order start stop).1 = r' at *
  have h0 : (r'.doSwitch ans' [] start).2 = [] := by
    apply doSwitch_ok
    intro c hc
    obtain ⟨sw, hsw, hd⟩ := hin c hc
    exact ⟨sw, hsw, fun d hd2 => by obtain ⟨x, hx, hm, _⟩ := hd d hd2; exact ⟨x, hx, hm⟩⟩
  refine ⟨h0, ?_⟩
  obtain ⟨hf, hall⟩ := doSwitch_none_failed ans' start r' [] h0
  have hsane := hf.ext.sane (built_inv hb').1
  intro c hc
  obtain ⟨sw, hsw, hd⟩ := hin c hc
  refine ⟨sw, hsw, ?_⟩
  intro d hd2
  obtain ⟨sw', hsw', hfw⟩ := hall c hc
  rw [hsw] at hsw'
  have e := Option.some.inj hsw'
  subst e
  obtain ⟨x, hx, hm, hfwd⟩ := hfw d hd2
  obtain ⟨y, hy, hm', hl⟩ := hf.inMode (hd d hd2)
  rw [hx] at hy
  have e := Option.some.inj hy
  subst e
  refine ⟨x, hx, hm, ?_⟩
  rw [((hsane _ x hx).1 _ _ hl).1]
  simp [Handle.sends, hfwd]

example : (((exRobot.prepareSwitch exParams exGood id [exBoth] []).1.doSwitch exGood [] [exBoth]).1.handles "b").map
    (fun h => (h.mode, h.sends .ready)) = some (1, some .pos) := by decide

/-! ### C70 -/

/-- C70: in every interleaving of mode switches, forwarding, writes and modes dropped by the motor, a handle layer passes
a command to the motor only if the motor is in a mode that takes this kind of command, or in no mode, or homing. -/
theorem C70_kind (m : Mode) (s : LayerState) (f : Mode → Bool) (es : List HEv) (st : LayerState) (k : Kind)
    (h : (hstep (hrun ⟨Handle.construct m s f, none⟩ es) (.write st)).2 = some k) :
    st = .ready ∧ (takes (hrun ⟨Handle.construct m s f, none⟩ es).h.mode = some k ∨
      (hrun ⟨Handle.construct m s f, none⟩ es).h.mode = 0 ∨ (hrun ⟨Handle.construct m s f, none⟩ es).h.mode = 6) := by
  have hi : HInv ⟨Handle.construct m s f, none⟩ :=
    ⟨(construct_regular m s f).1, (construct_regular m s f).2, fun h => by simp at h, fun k hk => by simp [Handle.construct] at hk⟩
  obtain ⟨-, -, -, h4⟩ := hinv_run es _ hi
  unfold hstep Handle.sends at h
  dsimp only at h
  by_cases hs : st = .ready
  · rw [if_pos hs] at h
    refine ⟨hs, ?_⟩
    split at h
    · exact h4 k h
    · simp at h
  · rw [if_neg hs] at h
    simp at h

example : (hstep (hrun ⟨Handle.construct 0 .ready exModes, none⟩ [.register, .begin 3, .finish .entered, .forward 3]) (.write .ready)).2
    = some .vel := by decide

/-- C70: while a mode switch is running, no command is passed to the motor. -/
theorem C70_silent_while_switching (m : Mode) (s : LayerState) (f : Mode → Bool) (es : List HEv) (st : LayerState)
    (h : (hrun ⟨Handle.construct m s f, none⟩ es).pending.isSome) :
    (hstep (hrun ⟨Handle.construct m s f, none⟩ es) (.write st)).2 = none := by
  have hi : HInv ⟨Handle.construct m s f, none⟩ :=
    ⟨(construct_regular m s f).1, (construct_regular m s f).2, fun h => by simp at h, fun k hk => by simp [Handle.construct] at hk⟩
  obtain ⟨-, -, h3, -⟩ := hinv_run es _ hi
  exact sends_none_of_jh (h3 h) st

example : (hrun ⟨Handle.construct 0 .ready exModes, none⟩ [.register, .begin 3]).pending = some 3 := by decide

end Verif.Props
