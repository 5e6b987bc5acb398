import Verif.Spec.MotorHandlers
import Verif.Lemmas.Motor

set_option linter.unusedSimpArgs false

namespace Verif.Hand
open Verif Verif.M402 Verif.Spec.M402 Verif.Spec.Hand

/-! ## what the modes keep -/

theorem isSome_put (k : Nat) (h : Mode) (modes : Nat → Option Mode) (hk : (modes k).isSome = true) (i : Nat) :
    (putMode k h modes i).isSome = (modes i).isSome := by
  unfold putMode
  split
  · rename_i e
    rw [e, hk]
    rfl
  · rfl

theorem isSome_start (k : Nat) (modes : Nat → Option Mode) (i : Nat) : (startMode k modes i).isSome = (modes i).isSome := by
  unfold startMode
  split <;> simp

theorem isSome_execute (b : Bool) (modes : Nat → Option Mode) (i : Nat) : (setExecute b modes i).isSome = (modes i).isSome := by
  unfold setExecute
  split
  · split
    · rename_i h
      rw [h]
      rfl
    · rfl
  · rfl

/-- the same modes and drives are known -/
def Same (a b : Motor) : Prop := a.drives = b.drives ∧ ∀ i, (a.modes i).isSome = (b.modes i).isSome

theorem Same.refl (a : Motor) : Same a a := ⟨rfl, fun _ => rfl⟩

theorem Same.alloc {a b : Motor} (h : Same a b) (k : Nat) : a.canAlloc k = b.canAlloc k := by
  unfold Motor.canAlloc Motor.deviceSupports
  rw [h.1, h.2 k]

theorem active_isSome {m : Motor} {k : Nat} {h : Mode} (ha : m.active k = some h) : (m.modes k).isSome = true := by
  unfold Motor.active at ha
  split at ha
  · rw [ha]; rfl
  · cases ha

theorem same_read (m : Motor) (sw : BitVec 16) (disp : BitVec 8) : Same (m.readState sw disp) m := by
  refine ⟨rfl, fun i => ?_⟩
  unfold Motor.readState
  dsimp only
  cases ha : m.active (BitVec.signExtend 16 disp).toNat with
  | some h => exact isSome_put _ _ _ (active_isSome ha) i
  | none => rfl

theorem same_write (m : Motor) : Same m.handleWrite.1 m := by
  refine ⟨rfl, fun i => ?_⟩
  unfold Motor.handleWrite
  dsimp only
  split
  · unfold Motor.writeMode
    split
    · rename_i h ha
      exact isSome_put _ _ _ (active_isSome ha) i
    · rfl
  · rfl

theorem same_setTarget (m : Motor) (v : Dbl) : Same (m.setTarget v).1 m := by
  refine ⟨?_, fun i => ?_⟩
  · unfold Motor.setTarget
    repeat' split
    all_goals rfl
  · unfold Motor.setTarget
    split
    · split
      · rfl
      · split
        · rfl
        · rename_i h
          exact isSome_put _ _ _ (by rw [h]; rfl) i
    · rfl

/-! ## the invariant of a handler -/

/-- what is known while the mode `k` is entered -/
def ModeOk (c : Call) (sn : S402 → Prop) (k : Nat) (h : Bool) : Prop :=
  if h then k = 6 ∧ (∃ sw d, c = .init sw d) ∧ sn .enabled else c = .mode k

/-- what is known while `switchState` is executed -/
def JobOk (c : Call) (sn : S402 → Prop) (msn : Nat → Prop) (switching : S402) (m : Motor) (j : Job) (g : S402) : Prop :=
  match j with
  | .init => (∃ sw d, c = .init sw d) ∧ g = .enabled
  | .recover => c = .recover ∧ g = .enabled
  | .shutdown => c = .shutdown ∧ g = .disabled
  | .switching k h => g = switching ∧ ModeOk c sn k h
  | .enabling k okay h => g = .enabled ∧ ModeOk c sn k h ∧ (okay = true → msn k ∧ m.selected = some k)

/-- what is known when a handler has returned -/
def Done (c : Call) (sn : S402 → Prop) (msn : Nat → Prop) (hom alr : Prop) (nh : Bool) (m : Motor) (msgs : List Msg) (ok : Bool) : Prop :=
  match c with
  | .init _ _ => msgs = [] → sn .enabled ∧ ((hom ∧ msn 6 ∧ m.selected = none) ∨ m.canAlloc 6 = some false)
  | .recover => msgs = [] → sn .enabled
  | .shutdown => nh = true → msgs = [] → sn .disabled
  | .mode k => ok = true → k ≠ 0 → k ≠ 6 ∧ msn k ∧ m.selected = some k ∧ (alr ∨ sn .enabled)

/-- the invariant -/
def Inv (c : Call) (sn : S402 → Prop) (msn : Nat → Prop) (hom alr : Prop) (nh : Bool) (s : Sys) : Prop :=
  (∀ k, c = .mode k → s.pc ≠ .finished false → k ≠ 6) ∧
  match s.pc with
  | .idle => False
  | .threw => True
  | .enter j g => JobOk c sn msn s.switching s.m j g
  | .assign j g _ st => JobOk c sn msn s.switching s.m j g ∧ sn st
  | .test j g _ st => JobOk c sn msn s.switching s.m j g ∧ sn st ∧ (nh = true → s.m.target = g)
  | .cmd j g _ st => JobOk c sn msn s.switching s.m j g ∧ sn st ∧ (nh = true → s.m.target = g)
  | .wait j g _ st => JobOk c sn msn s.switching s.m j g ∧ sn st ∧ (nh = true → s.m.target = g)
  | .setMode k h => ModeOk c sn k h
  | .waitMode k h _ => ModeOk c sn k h
  | .homing => (∃ sw d, c = .init sw d) ∧ sn .enabled ∧ msn 6
  | .finished ok => Done c sn msn hom alr nh s.m s.msgs ok

theorem JobOk.mono {c : Call} {sn sn' : S402 → Prop} {msn msn' : Nat → Prop} {sw : S402} {m m' : Motor} {j : Job} {g : S402}
    (h : JobOk c sn msn sw m j g) (h1 : ∀ x, sn x → sn' x) (h2 : ∀ x, msn x → msn' x) (h3 : m'.selected = m.selected) : JobOk c sn' msn' sw m' j g := by
  cases j <;> simp only [JobOk, ModeOk] at h ⊢
  case switching k hh => cases hh <;> simp_all
  case enabling k o hh =>
    obtain ⟨a, b, d⟩ := h
    refine ⟨a, ?_, fun ho => ⟨h2 _ (d ho).1, h3.trans (d ho).2⟩⟩
    cases hh <;> simp_all
  all_goals exact h

theorem Inv.mono {c : Call} {sn sn' : S402 → Prop} {msn msn' : Nat → Prop} {hom hom' alr : Prop} {nh : Bool} {s : Sys} {m' : Motor}
    (h : Inv c sn msn hom alr nh s) (h1 : ∀ x, sn x → sn' x) (h2 : ∀ x, msn x → msn' x) (h3 : m'.selected = s.m.selected) (h4 : hom → hom')
    (h5 : Same m' s.m) (h6 : nh = true → m'.target = s.m.target) : Inv c sn' msn' hom' alr nh { s with m := m' } := by
  obtain ⟨h0, h⟩ := h
  refine ⟨h0, ?_⟩
  cases hp : s.pc <;> rw [hp] at h <;> dsimp only at h ⊢ <;> try exact h
  case enter j g => exact h.mono h1 h2 h3
  case assign j g d st => exact ⟨h.1.mono h1 h2 h3, h1 _ h.2⟩
  case test j g d st => exact ⟨h.1.mono h1 h2 h3, h1 _ h.2.1, fun hn => (h6 hn).trans (h.2.2 hn)⟩
  case cmd j g d st => exact ⟨h.1.mono h1 h2 h3, h1 _ h.2.1, fun hn => (h6 hn).trans (h.2.2 hn)⟩
  case wait j g d st => exact ⟨h.1.mono h1 h2 h3, h1 _ h.2.1, fun hn => (h6 hn).trans (h.2.2 hn)⟩
  case setMode k hh => cases hh <;> simp_all [ModeOk]
  case waitMode k hh d => cases hh <;> simp_all [ModeOk]
  case homing => exact ⟨h.1, h1 _ h.2.1, h2 _ h.2.2⟩
  case finished ok =>
    cases c with
    | init a b =>
      intro hm
      obtain ⟨a1, a2⟩ := h hm
      refine ⟨h1 _ a1, ?_⟩
      rcases a2 with ⟨b1, b2, b3⟩ | b
      · exact Or.inl ⟨h4 b1, h2 _ b2, h3.trans b3⟩
      · exact Or.inr ((h5.alloc 6).trans b)
    | recover => exact fun hm => h1 _ (h hm)
    | shutdown => exact fun hn hm => h1 _ (h hn hm)
    | mode k =>
      intro hok hk
      obtain ⟨a1, a2, a3, a4⟩ := h hok hk
      exact ⟨a1, h2 _ a2, h3.trans a3, a4.imp id (h1 _)⟩

section
variable {c : Call} {sn : S402 → Prop} {msn : Nat → Prop} {hom alr : Prop} {nh : Bool}

theorem modeRet_inv (s : Sys) (k : Nat) (h ok : Bool) (hm : ModeOk c sn k h) (h6 : ∀ k, c = .mode k → k ≠ 6) (hok : ok = true → msn k ∧ (h = false → s.m.selected = some k ∧ (alr ∨ sn .enabled))) :
    Inv c sn msn hom alr nh (s.modeRet h ok) := by
  unfold Sys.modeRet ModeOk at *
  cases h with
  | true =>
    obtain ⟨hk, ⟨sw, d, hc⟩, he⟩ := hm
    subst hk
    cases ok with
    | true => exact ⟨by simp [hc], ⟨sw, d, hc⟩, he, (hok rfl).1⟩
    | false => exact ⟨by simp [hc], by rw [hc]; intro hx; simp at hx⟩
  | false =>
    simp only [Bool.false_eq_true, if_false] at hm
    subst hm
    refine ⟨fun k' hk' hf => h6 k' hk', ?_⟩
    intro ho hk
    obtain ⟨a, b⟩ := hok ho
    exact ⟨h6 k rfl, a, b rfl⟩

theorem switchMode_inv (s : Sys) (k : Nat) (h : Bool) (hm : ModeOk c sn k h) (h6 : ∀ k, c = .mode k → k ≠ 6)
    (hms : msn s.m.modeId) (halr : s.m.modeId = k → s.m.selected = some k → h = false → alr) :
    Inv c sn msn hom alr nh (s.switchMode k h) := by
  unfold Sys.switchMode
  split
  · exact ⟨fun k hk _ => h6 k hk, trivial⟩
  · exact modeRet_inv _ k h false hm h6 (by simp)
  · split
    · rename_i hk
      exact modeRet_inv _ k h true hm h6 (fun _ => ⟨hk.1 ▸ hms, fun hh => ⟨hk.2, Or.inl (halr hk.1 hk.2 hh)⟩⟩)
    · refine ⟨fun k hk _ => h6 k hk, rfl, hm⟩

theorem ret_inv (s : Sys) (j : Job) (g : S402) (ok : Bool) (hj : JobOk c sn msn s.switching s.m j g) (h6 : ∀ k, c = .mode k → k ≠ 6)
    (hms : msn s.m.modeId) (hok : ok = true → sn g) (hno : ok = false → nh = true → s.msgs ≠ []) : Inv c sn msn hom alr nh (s.ret j ok) := by
  cases j with
  | init =>
    obtain ⟨⟨sw, d, hc⟩, hg⟩ := hj
    subst hg
    unfold Sys.ret
    cases ok with
    | false => exact ⟨by simp [hc], by rw [hc]; intro hx; simp at hx⟩
    | true =>
      have he := hok rfl
      simp only [if_true]
      unfold Sys.toHoming
      split
      · exact ⟨by simp [hc], trivial⟩
      · rename_i ha
        refine ⟨by simp [hc], ?_⟩
        rw [hc]
        exact fun _ => ⟨he, Or.inr ha⟩
      · split
        · exact switchMode_inv s 6 true ⟨rfl, ⟨sw, d, hc⟩, he⟩ h6 hms (by simp)
        · refine ⟨by simp [hc], ?_⟩
          rw [hc]
          intro hx
          simp at hx
  | recover =>
    obtain ⟨hc, hg⟩ := hj
    subst hg
    unfold Sys.ret
    cases ok with
    | false => exact ⟨by simp [hc], by rw [hc]; intro hx; simp at hx⟩
    | true =>
      refine ⟨by simp [hc], ?_⟩
      rw [hc]
      exact fun _ => hok rfl
  | shutdown =>
    obtain ⟨hc, hg⟩ := hj
    subst hg
    refine ⟨by simp [hc], ?_⟩
    rw [hc]
    intro hn hm
    cases ok with
    | true => exact hok rfl
    | false => exact absurd hm (hno rfl hn)
  | switching k h =>
    obtain ⟨hg, hm⟩ := hj
    unfold Sys.ret
    cases ok with
    | true => exact ⟨fun k hk _ => h6 k hk, hm⟩
    | false => exact modeRet_inv s k h false hm h6 (by simp)
  | enabling k o h =>
    obtain ⟨hg, hm, ho⟩ := hj
    subst hg
    unfold Sys.ret
    refine modeRet_inv s k h _ hm h6 ?_
    intro hh
    simp only [Bool.and_eq_true] at hh
    exact ⟨(ho hh.2).1, fun _ => ⟨(ho hh.2).2, Or.inr (hok hh.1)⟩⟩

theorem JobOk.cw {m : Motor} {sw : S402} {j : Job} {g : S402} (h : JobOk c sn msn sw m j g) (m' : Motor) (h3 : m'.selected = m.selected) :
    JobOk c sn msn sw m' j g := h.mono (fun _ => id) (fun _ => id) h3

theorem tick_inv (s : Sys) (now : Int) (hi : Inv c sn msn hom alr nh s) (hms : msn s.m.modeId) (hhs : sn s.m.hs) :
    Inv c sn msn hom alr nh (s.tick now) := by
  obtain ⟨h0, h⟩ := hi
  unfold Sys.tick
  cases hp : s.pc <;> rw [hp] at h h0 <;> dsimp only at h ⊢
  case threw => rw [show Inv c sn msn hom alr nh s ↔ _ from Iff.rfl]; unfold Inv; rw [hp]; exact ⟨h0, h⟩
  case finished ok => unfold Inv; rw [hp]; exact ⟨h0, h⟩
  case homing => unfold Inv; rw [hp]; exact ⟨h0, h⟩
  all_goals have h6 : ∀ k, c = .mode k → k ≠ 6 := fun k hk => h0 k hk (by simp)
  case enter j g => exact ⟨fun k hk _ => h6 k hk, h, hhs⟩
  case assign j g d st => exact ⟨fun k hk _ => h6 k hk, h.1.cw _ rfl, h.2, fun _ => rfl⟩
  case test j g d st =>
    split
    · rename_i ht
      refine ret_inv s j g _ h.1 h6 hms ?_ ?_
      · intro hg
        have hg : st = g := by simpa using hg
        exact hg ▸ h.2.1
      · intro hg hn
        have hg : st ≠ g := by simpa using hg
        exact absurd (ht.trans (h.2.2 hn)) hg
    · exact ⟨fun k hk _ => h6 k hk, h⟩
  case cmd j g d st =>
    unfold Sys.command
    dsimp only
    split
    · split
      · exact ⟨fun k hk _ => h6 k hk, h.1.cw _ rfl, h.2⟩
      · exact ⟨fun k hk _ => h6 k hk, h.1.cw _ rfl, h.2⟩
    · exact ret_inv _ j g false h.1 h6 hms (by simp) (by simp)
  case wait j g d st =>
    split
    · exact ⟨fun k hk _ => h6 k hk, h.1, hhs, h.2.2⟩
    · split
      · exact ret_inv _ j g false h.1 h6 hms (by simp) (by simp)
      · unfold Inv; rw [hp]; exact ⟨h0, h⟩
  case setMode k hh => exact ⟨fun k hk _ => h6 k hk, h⟩
  case waitMode k hh d =>
    split
    · rename_i hk
      exact ⟨fun k hk _ => h6 k hk, rfl, h, fun _ => ⟨hk ▸ hms, rfl⟩⟩
    · split
      · exact ⟨fun k hk _ => h6 k hk, rfl, h, by simp⟩
      · unfold Inv; rw [hp]; exact ⟨h0, h⟩

end

/-- one event -/
theorem step_inv {c : Call} {sn sn' : S402 → Prop} {msn msn' : Nat → Prop} {hom hom' alr : Prop} {nh : Bool} (s : Sys) (e : HEv)
    (hi : Inv c sn msn hom alr nh s) (hcall : ∀ c, e ≠ .call c) (hn : nh = true → e ≠ .haltAct) (hms : msn s.m.modeId) (hhs : sn s.m.hs)
    (h1 : ∀ x, sn x → sn' x) (h2 : ∀ x, msn x → msn' x) (h4 : hom → hom') (hh : e = .homed true → s.pc = .homing → hom') :
    Inv c sn' msn' hom' alr nh (s.step e) := by
  have same : Inv c sn' msn' hom' alr nh s := hi.mono h1 h2 rfl h4 (Same.refl _) (fun _ => rfl)
  cases e with
  | read sw disp => exact hi.mono h1 h2 rfl h4 (same_read _ _ _) (fun _ => rfl)
  | write => exact hi.mono h1 h2 rfl h4 (same_write _) (fun _ => rfl)
  | setTarget v =>
    refine hi.mono h1 h2 ?_ h4 (same_setTarget _ _) ?_
    · unfold Motor.setTarget
      repeat' split
      all_goals rfl
    · unfold Motor.setTarget
      intro _
      repeat' split
      all_goals rfl
  | call c => exact absurd rfl (hcall c)
  | tick now => exact tick_inv s now same (h2 _ hms) (h1 _ hhs)
  | execute b =>
    simp only [Sys.step]
    split
    · exact hi.mono h1 h2 rfl h4 ⟨rfl, isSome_execute _ _⟩ (fun _ => rfl)
    · exact same
  | homed ok =>
    simp only [Sys.step]
    split
    · rename_i hp
      obtain ⟨h0, h⟩ := hi
      rw [hp] at h h0
      obtain ⟨⟨sw, d, hc⟩, he, h6⟩ := h
      cases ok with
      | true =>
        refine ⟨by simp [hc], ?_⟩
        rw [hc]
        exact fun _ => ⟨h1 _ he, Or.inl ⟨hh rfl hp, h2 _ h6, rfl⟩⟩
      | false =>
        refine ⟨by simp [hc], ?_⟩
        rw [hc]
        intro hx
        simp at hx
    · exact same
  | exception =>
    have h0 := hi.1
    simp only [Sys.step]
    split
    · rename_i hp; exact ⟨fun k hk _ => h0 k hk (by rw [hp]; simp), trivial⟩
    · rename_i hp; exact ⟨fun k hk _ => h0 k hk (by rw [hp]; simp), trivial⟩
    · rename_i hp; exact ⟨fun k hk _ => h0 k hk (by rw [hp]; simp), trivial⟩
    · exact same
  | haltLook => exact same
  | haltAct =>
    have hn : nh = false := by
      cases nh with
      | false => rfl
      | true => exact absurd rfl (hn rfl)
    simp only [Sys.step]
    split
    · rename_i st hst
      unfold Sys.haltAct
      split
      · exact same
      · split
        · exact hi.mono h1 h2 rfl h4 ⟨rfl, fun _ => rfl⟩ (by simp [hn])
        · exact hi.mono h1 h2 rfl h4 ⟨rfl, fun _ => rfl⟩ (by simp [hn])
    · exact same

theorem visited_head (s : Sys) (es : List HEv) : s ∈ visited s es := by cases es <;> simp [visited]

theorem visited_snoc (s : Sys) (es : List HEv) (e : HEv) : visited s (es ++ [e]) = visited s es ++ [(s.run es).step e] := by
  induction es generalizing s with
  | nil => simp [visited, Sys.run]
  | cons a es ih => simp [visited, Sys.run, ih, List.foldl_cons]

theorem visited_last (s : Sys) (es : List HEv) : s.run es ∈ visited s es := by
  induction es generalizing s with
  | nil => simp [visited, Sys.run]
  | cons a es ih => simp only [visited, Sys.run, List.foldl_cons]; exact List.mem_cons_of_mem _ (ih _)

theorem run_snoc (s : Sys) (es : List HEv) (e : HEv) : s.run (es ++ [e]) = (s.run es).step e := by simp [Sys.run]

/-- a whole schedule -/
theorem run_inv (c : Call) (alr : Prop) (nh : Bool) (s : Sys)
    (hi : Inv c (fun x => s.m.hs = x) (fun k => s.m.modeId = k) False alr nh s) (es : List HEv) (hc : NoCall es) (hn : nh = true → NoHalt es) :
    Inv c (Reported s es) (Displayed s es) (Homed s es) alr nh (s.run es) := by
  suffices h : ∀ (es pre : List HEv), NoCall es → (nh = true → NoHalt es) →
      Inv c (Reported s pre) (Displayed s pre) (Homed s pre) alr nh (s.run pre) →
      Inv c (Reported s (pre ++ es)) (Displayed s (pre ++ es)) (Homed s (pre ++ es)) alr nh (s.run (pre ++ es)) by
    refine h es [] hc hn ?_
    exact hi.mono (s := s) (m' := s.m) (fun x hx => ⟨s, by simp [visited], hx⟩) (fun x hx => ⟨s, by simp [visited], hx⟩) rfl (by simp) (Same.refl _) (fun _ => rfl)
  intro es
  induction es with
  | nil => intro pre _ _ h; simpa using h
  | cons e es ih =>
    intro pre hc hn h
    have hh : pre ++ e :: es = (pre ++ [e]) ++ es := by simp
    rw [hh]
    refine ih (pre ++ [e]) (fun c hm => hc c (List.mem_cons_of_mem _ hm)) (fun h hm => hn h (List.mem_cons_of_mem _ hm)) ?_
    rw [run_snoc]
    refine step_inv (s.run pre) e h ?_ ?_ ⟨_, visited_last s pre, rfl⟩ ⟨_, visited_last s pre, rfl⟩ ?_ ?_ ?_ ?_
    · intro c he
      exact hc c (by simp [he])
    · intro h he
      exact hn h (by simp [he])
    · rintro x ⟨w, hw, hx⟩
      exact ⟨w, by rw [visited_snoc]; exact List.mem_append_left _ hw, hx⟩
    · rintro x ⟨w, hw, hx⟩
      exact ⟨w, by rw [visited_snoc]; exact List.mem_append_left _ hw, hx⟩
    · rintro ⟨pre, suf, he, hp⟩
      exact ⟨pre, suf ++ [e], by rw [he]; simp, hp⟩
    · intro he hp
      exact ⟨pre, [], by rw [he], hp⟩

/-- a handler begins -/
theorem begin_inv (c : Call) (nh : Bool) (s : Sys) (hk : c ≠ .mode 0) :
    Inv c (fun x => (s.begin c).m.hs = x) (fun k => (s.begin c).m.modeId = k) False (∃ k, c = .mode k ∧ s.m.modeId = k ∧ s.m.selected = some k) nh (s.begin c) := by
  cases c with
  | init sw disp =>
    unfold Sys.begin
    dsimp only
    split
    · exact ⟨by simp, trivial⟩
    · exact ⟨by simp, ⟨sw, disp, rfl⟩, rfl⟩
  | recover => exact ⟨by simp, rfl, rfl⟩
  | shutdown => exact ⟨by simp, rfl, rfl⟩
  | mode k =>
    by_cases h6 : k = 6
    · subst h6
      refine ⟨by simp [Sys.begin], ?_⟩
      intro h
      cases h
    · have h0 : k ≠ 0 := fun h => hk (by rw [h])
      have hb : s.begin (.mode k) = Sys.switchMode { s with msgs := [] } k false := by
        simp [Sys.begin, h6, h0]
      rw [hb]
      have hmid : (Sys.switchMode { s with msgs := [] } k false).m.modeId = s.m.modeId := by
        unfold Sys.switchMode Sys.modeRet
        repeat' split
        all_goals rfl
      refine switchMode_inv _ k false rfl (by intro k' h; cases h; exact h6) hmid ?_
      intro h1 h2 _
      exact ⟨k, rfl, h1, h2⟩

/-! ## halt -/

/-- the control word demands a quick stop -/
def Stops (cw : BitVec 16) : Prop := cw.getLsbD 1 = true ∧ cw.getLsbD 2 = false ∧ cw.getLsbD 7 = false

theorem stops_quick (cw : BitVec 16) : Stops (opQuickStop.apply cw) := by
  refine ⟨?_, ?_, ?_⟩ <;> rw [apply_bit _ _ _ (by omega)] <;> simp [opQuickStop]

theorem stops_write (m : Motor) (h : Stops m.cw) : Stops m.handleWrite.1.cw := by
  obtain ⟨h1, h2, h7⟩ := h
  refine ⟨?_, ?_, ?_⟩ <;> rw [handleWrite_cw _ _ (by omega) (by omega)] <;> assumption

theorem stops_word (m : Motor) (h : Stops m.cw) : Verif.Spec.M402.command m.handleWrite.2.1 = .quickStop ∧ m.handleWrite.2.1.getLsbD 7 = false := by
  obtain ⟨h1, h2, h7⟩ := h
  constructor
  · unfold Verif.Spec.M402.command
    rw [handleWrite_word_bit m 1 (by omega) (by omega) (by omega), handleWrite_word_bit m 2 (by omega) (by omega) (by omega), h1, h2]
    simp
  · rw [handleWrite_word_bit7, h7]
    simp

/-- the motor stays halted; a handler under way for `j` does not succeed -/
def HInv (j : Option Job) (s : Sys) : Prop :=
  s.m.target = .quickStop ∧ Stops s.m.cw ∧
  match s.pc with
  | .idle | .threw => True
  | .homing => j = none
  | .finished ok => ∀ i, j = some i → i ≠ .shutdown → ok = false
  | .test i g _ _ | .cmd i g _ _ | .wait i g _ _ => j = some i ∧ g ≠ .quickStop
  | _ => False

theorem ret_halt (s : Sys) (j : Job) (h1 : s.m.target = .quickStop) (h2 : Stops s.m.cw) : HInv (some j) (s.ret j false) := by
  cases j with
  | init => exact ⟨h1, h2, fun _ _ _ => rfl⟩
  | recover => exact ⟨h1, h2, fun _ _ _ => rfl⟩
  | shutdown => exact ⟨h1, h2, fun i hi hne => by cases hi; exact absurd rfl hne⟩
  | switching k h => cases h <;> exact ⟨h1, h2, fun _ _ _ => rfl⟩
  | enabling k o h => cases h <;> exact ⟨h1, h2, fun _ _ _ => rfl⟩

theorem step_halt (j : Option Job) (s : Sys) (e : HEv) (hi : HInv j s) (hc : ∀ c, e ≠ .call c) (hh : e ≠ .haltAct) : HInv j (s.step e) := by
  obtain ⟨h1, h2, h3⟩ := hi
  cases e with
  | read sw disp => exact ⟨h1, h2, h3⟩
  | write => exact ⟨h1, stops_write _ h2, h3⟩
  | setTarget v =>
    have e1 : (s.m.setTarget v).1.target = s.m.target := by
      unfold Motor.setTarget
      repeat' split
      all_goals rfl
    have e2 : (s.m.setTarget v).1.cw = s.m.cw := by
      unfold Motor.setTarget
      repeat' split
      all_goals rfl
    exact ⟨e1.trans h1, by show Stops (s.m.setTarget v).1.cw; rw [e2]; exact h2, h3⟩
  | call c => exact absurd rfl (hc c)
  | tick now =>
    show HInv j (s.tick now)
    unfold Sys.tick
    cases hp : s.pc <;> rw [hp] at h3 <;> dsimp only at h3 ⊢
    case idle => exact ⟨h1, h2, by rw [hp]; exact h3⟩
    case threw => exact ⟨h1, h2, by rw [hp]; exact h3⟩
    case finished ok => exact ⟨h1, h2, by rw [hp]; exact h3⟩
    case homing => exact ⟨h1, h2, by rw [hp]; exact h3⟩
    case test i g d st =>
      obtain ⟨hj, hg⟩ := h3
      subst hj
      split
      · rename_i ht
        have : decide (st = g) = false := by
          rw [decide_eq_false_iff_not]
          intro hx
          exact hg (hx.symm.trans (ht.trans h1))
        rw [this]
        exact ret_halt s i h1 h2
      · exact ⟨h1, h2, rfl, hg⟩
    case cmd i g d st =>
      obtain ⟨hj, hg⟩ := h3
      subst hj
      unfold Sys.command
      rw [h1]
      have hs : Stops (setTransition s.m.cw st .quickStop true).1 := by
        cases st <;> simp [setTransition, transition, stops_quick, h2]
      dsimp only
      split
      · split
        · exact ⟨h1, hs, rfl, hg⟩
        · exact ⟨h1, hs, rfl, hg⟩
      · exact ret_halt _ i h1 h2
    case wait i g d st =>
      obtain ⟨hj, hg⟩ := h3
      subst hj
      split
      · exact ⟨h1, h2, rfl, hg⟩
      · split
        · exact ret_halt _ i h1 h2
        · exact ⟨h1, h2, by rw [hp]; exact ⟨rfl, hg⟩⟩
  | execute b =>
    simp only [Sys.step]
    split
    · exact ⟨h1, h2, h3⟩
    · exact ⟨h1, h2, h3⟩
  | homed ok =>
    simp only [Sys.step]
    split
    · rename_i hp
      rw [hp] at h3
      cases ok <;> exact ⟨h1, h2, by rw [show j = none from h3]; intro i hi; cases hi⟩
    · exact ⟨h1, h2, h3⟩
  | exception =>
    simp only [Sys.step]
    split
    · exact ⟨h1, h2, trivial⟩
    · exact ⟨h1, h2, trivial⟩
    · exact ⟨h1, h2, trivial⟩
    · exact ⟨h1, h2, h3⟩
  | haltLook => exact ⟨h1, h2, h3⟩
  | haltAct => exact absurd rfl hh

theorem run_halt (j : Option Job) (es : List HEv) : ∀ s, HInv j s → NoCall es → NoHalt es → HInv j (s.run es) := by
  induction es with
  | nil => intro s h _ _; exact h
  | cons e es ih =>
    intro s h hc hh
    refine ih _ (step_halt j s e h ?_ ?_) (fun c hm => hc c (List.mem_cons_of_mem _ hm)) (fun hm => hh (List.mem_cons_of_mem _ hm))
    · intro c he
      exact hc c (by simp [he])
    · intro he
      exact hh (by simp [he])

/-! ## the time limit -/

theorem next_ne (cw : BitVec 16) (a b : S402) (h : a ≠ b) (hk : (setTransition cw a b true).2.1 = true) :
    a ≠ (setTransition cw a b true).2.2.getD .unknown := by
  cases a <;> cases b <;> first | exact absurd rfl h | (simp [setTransition, transition, nextForEnabling] at hk; done) | simp [setTransition, transition, nextForEnabling]

theorem job_ret (s : Sys) (j : Job) (ok : Bool) : job (s.ret j ok).pc ≠ some j := by
  cases j with
  | init =>
    unfold Sys.ret Sys.toHoming Sys.switchMode Sys.modeRet
    dsimp only
    repeat' split
    all_goals simp [job]
  | recover => cases ok <;> simp [Sys.ret, job]
  | shutdown => simp [Sys.ret, job]
  | switching k h => cases ok <;> cases h <;> simp [Sys.ret, Sys.modeRet, job]
  | enabling k o h => cases ok <;> cases h <;> cases o <;> simp [Sys.ret, Sys.modeRet, job]

/-- the thread leaves the call of `switchState` within `n` steps -/
def Leaves (n : Nat) (s : Sys) (j : Job) (now : Int) : Prop := ∃ i, i ≤ n ∧ job (s.run (List.replicate i (.tick now))).pc ≠ some j

theorem leaves_now (n : Nat) (s : Sys) (j : Job) (now : Int) (h : job s.pc ≠ some j) : Leaves n s j now := ⟨0, by omega, h⟩

theorem leaves_tick (n : Nat) (s : Sys) (j : Job) (now : Int) (h : Leaves n (s.tick now) j now) : Leaves (n + 1) s j now := by
  obtain ⟨i, hi, h⟩ := h
  exact ⟨i + 1, by omega, by rw [List.replicate_succ]; exact h⟩

theorem leaves_mono {n k : Nat} {s : Sys} {j : Job} {now : Int} (h : Leaves n s j now) (hk : n ≤ k) : Leaves k s j now := by
  obtain ⟨i, hi, h⟩ := h
  exact ⟨i, by omega, h⟩

theorem leaves_wait_same (s : Sys) (j : Job) (g : S402) (d now : Int) (hd : d ≤ now) (hp : s.pc = .wait j g d s.m.hs) : Leaves 1 s j now := by
  apply leaves_tick
  apply leaves_now
  unfold Sys.tick
  rw [hp]
  simp only [ne_eq, not_true_eq_false, if_false, hd, if_true]
  exact job_ret _ _ _

theorem leaves_test_same (s : Sys) (j : Job) (g : S402) (d now : Int) (hd : d ≤ now) (hp : s.pc = .test j g d s.m.hs) : Leaves 3 s j now := by
  apply leaves_tick
  unfold Sys.tick
  rw [hp]
  dsimp only
  split
  · exact leaves_now _ _ _ _ (job_ret _ _ _)
  · rename_i hne
    apply leaves_tick
    unfold Sys.tick
    dsimp only
    unfold Sys.command
    dsimp only
    split
    · split
      · exact leaves_wait_same _ j g d now hd rfl
      · rename_i hx
        exact absurd (next_ne _ _ _ hne (by assumption)) hx
    · exact leaves_now _ _ _ _ (job_ret _ _ _)

theorem leaves_wait (s : Sys) (j : Job) (g st : S402) (d now : Int) (hd : d ≤ now) (hp : s.pc = .wait j g d st) : Leaves 4 s j now := by
  by_cases h : s.m.hs = st
  · exact leaves_mono (leaves_wait_same s j g d now hd (by rw [hp, h])) (by omega)
  · apply leaves_tick
    unfold Sys.tick
    rw [hp]
    simp only [ne_eq, h, not_false_eq_true, if_true]
    exact leaves_test_same _ j g d now hd rfl

theorem leaves_cmd_ne (s : Sys) (j : Job) (g st : S402) (d now : Int) (hd : d ≤ now) (hp : s.pc = .cmd j g d st) (hne : st ≠ s.m.target) : Leaves 5 s j now := by
  apply leaves_tick
  unfold Sys.tick
  rw [hp]
  dsimp only
  unfold Sys.command
  dsimp only
  split
  · split
    · exact leaves_wait _ j g st d now hd rfl
    · rename_i hx
      exact absurd (next_ne _ _ _ hne (by assumption)) hx
  · exact leaves_now _ _ _ _ (job_ret _ _ _)

theorem leaves_test (s : Sys) (j : Job) (g st : S402) (d now : Int) (hd : d ≤ now) (hp : s.pc = .test j g d st) : Leaves 6 s j now := by
  apply leaves_tick
  unfold Sys.tick
  rw [hp]
  dsimp only
  split
  · exact leaves_now _ _ _ _ (job_ret _ _ _)
  · rename_i hne
    exact leaves_cmd_ne _ j g st d now hd rfl hne

theorem leaves_cmd (s : Sys) (j : Job) (g st : S402) (d now : Int) (hd : d ≤ now) (hp : s.pc = .cmd j g d st) : Leaves 7 s j now := by
  apply leaves_tick
  unfold Sys.tick
  rw [hp]
  dsimp only
  unfold Sys.command
  dsimp only
  split
  · split
    · exact leaves_mono (leaves_wait _ j g st d now hd rfl) (by omega)
    · exact leaves_test _ j g st d now hd rfl
  · exact leaves_now _ _ _ _ (job_ret _ _ _)

theorem leaves_all (s : Sys) (j : Job) (d now : Int) (hd : d ≤ now) (hj : job s.pc = some j) (hl : limitOf s.pc = some d) : Leaves 7 s j now := by
  cases hp : s.pc <;> rw [hp] at hj hl <;> simp only [job, limitOf, Option.some.injEq, reduceCtorEq] at hj hl
  case assign j' g d' st =>
    subst hj hl
    apply leaves_tick
    unfold Sys.tick
    rw [hp]
    exact leaves_test _ j' g st d' now hd rfl
  case test j' g d' st => subst hj hl; exact leaves_mono (leaves_test s j' g st d' now hd hp) (by omega)
  case cmd j' g d' st => subst hj hl; exact leaves_cmd s j' g st d' now hd hp
  case wait j' g d' st => subst hj hl; exact leaves_mono (leaves_wait s j' g st d' now hd hp) (by omega)

end Verif.Hand
