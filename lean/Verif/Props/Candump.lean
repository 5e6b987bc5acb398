import Verif.Lemmas.Candump

/-! # C103: what candump prints -/

namespace Verif.Props
open Verif Verif.Drv Verif.Cdump Verif.Spec Verif.Spec.Cdump

private def someFrame : Frame := { id := 0x123#29, isError := false, isRtr := false, isExtended := false, data := #v[1, 0xab, 0, 0, 0, 0, 0, 0], dlc := 2 }
private def someState : State := { driver := .ready, errorCode := 0, internalError := 0x40 }

private theorem someSane : ∀ e ∈ [Ev.frame someFrame, .state someState], Sane e := by
  intro e he
  simp only [List.mem_cons, List.not_mem_nil, or_false] at he
  rcases he with rfl | rfl
  · show someFrame.dlc.toNat ≤ 8; decide
  · trivial

/-- C103: listeners that are called one at a time print one line for each frame and each state, in order, that tells kind, identifier and bytes of the frame or the parts
of the state. -/
theorem C103_output_partial (es : List Ev) (h : ∀ e ∈ es, Sane e) (t : Text) : ∃ u, printAll es ⟨t, false⟩ = .ok ⟨t ++ u, false⟩ ∧ Says u (es.map seen) := printAll_says es h t

example : ∃ u, printAll [.frame someFrame, .state someState] ⟨[], false⟩ = .ok ⟨u, false⟩ ∧
    Says u [.frame .standard 0x123 (some [1, 0xab]), .state .ready 64 0] := C103_output_partial _ someSane []

/-- C103: the text determines what was seen. -/
theorem C103_readable (t : Text) (v w : List Seen) (h : Says t v) (h' : Says t w) : v = w := says_unique h h'

example : Says "s 123\t2 1 ab\n".toList [.frame .standard 0x123 (some [1, 0xab])] := by
  have := Says.cons (Line.frame (k := .standard) (a := "123".toList) (id := 0x123) (p := "2".toList ++ " 1 ab".toList) ⟨by decide, by unfold IsHex; decide, by decide⟩
    (.data (bs := [1, 0xab]) ⟨by decide, fun c hc => by have : c = '2' := by simpa using hc
                                                        subst this; exact ⟨2, by decide, by decide⟩, by decide⟩
      (.cons (a := "1".toList) ⟨by decide, by unfold IsHex; decide, by decide⟩ (.cons (a := "ab".toList) ⟨by decide, by unfold IsHex; decide, by decide⟩ .nil)))) .nil
  exact this

/-- C103: two runs that print the same have seen the same frames and states. -/
theorem C103_same_partial (es fs : List Ev) (he : ∀ e ∈ es, Sane e) (hf : ∀ e ∈ fs, Sane e) (h : printAll es ⟨[], false⟩ = printAll fs ⟨[], false⟩) : es.map seen = fs.map seen := by
  obtain ⟨u, hu, su⟩ := printAll_says es he []
  obtain ⟨v, hv, sv⟩ := printAll_says fs hf []
  rw [hu, hv] at h
  injection h with h
  injection h with h
  have : u = v := by simpa using h
  subst this
  exact says_unique su sv

example : printAll [.frame someFrame] ⟨[], false⟩ = printAll [.frame { someFrame with data := #v[1, 0xab, 7, 0, 0, 0, 0, 0] }] ⟨[], false⟩ := by rfl

/-- the events that the listeners are called for in a run -/
private def called (e : Env) : List Ev :=
  e.initStates.map .state ++ (if e.initOk then e.events ++ (if e.returns then e.downStates.map .state else []) else [.state e.state])

/-- C103: with a device (and a plugin that can be loaded) the program prints the states of the initialisation and then, if that failed, the state and ends with 1, otherwise
everything it sees until the driver ends, then ends with 0. -/
theorem C103_run_partial (e : Env) (ha : e.args.length = 1 ∨ e.args.length = 3 ∧ e.loads = true) (hs : ∀ x ∈ e.events, Sane x) :
    ∃ u, main e = .ok (u, if e.initOk then (if e.returns then some 0 else none) else some 1) ∧
      Says u ((e.initStates.map Ev.state ++ (if e.initOk then e.events ++ (if e.returns then e.downStates.map Ev.state else []) else [Ev.state e.state])).map seen) := by
  have hst : ∀ (l : List State), ∀ x ∈ l.map Ev.state, Sane x := by
    intro l x hx
    obtain ⟨s, _, rfl⟩ := List.mem_map.mp hx
    trivial
  have hsane : ∀ x ∈ called e, Sane x := by
    intro x hx
    unfold called at hx
    rcases List.mem_append.mp hx with hx | hx
    · exact hst _ x hx
    · split at hx
      · rcases List.mem_append.mp hx with hx | hx
        · exact hs x hx
        · split at hx
          · exact hst _ x hx
          · cases hx
      · have : x = .state e.state := by simpa using hx
        rw [this]; trivial
  obtain ⟨u, hu, su⟩ := printAll_says (called e) hsane []
  refine ⟨u, ?_, su⟩
  unfold main
  rw [if_neg (by omega), if_neg (by rintro ⟨h1, h2⟩; rcases ha with ha | ha <;> simp_all)]
  unfold called at hu
  cases hi : e.initOk <;> cases hr : e.returns <;> simp_all

example : ∃ u, main ⟨["can0".toList], true, true, [⟨.opened, 0, 0⟩], ⟨.opened, 0, 0⟩, [.state ⟨.ready, 0, 0⟩, .frame someFrame], false, []⟩ = .ok (u, none) ∧
    Says u [.state .opened 0 0, .state .ready 0 0, .frame .standard 0x123 (some [1, 0xab])] :=
  C103_run_partial _ (Or.inl rfl) (by
    intro x hx
    simp only [List.mem_cons, List.not_mem_nil, or_false] at hx
    rcases hx with rfl | rfl
    · trivial
    · show someFrame.dlc.toNat ≤ 8; decide)

/-- C103: with other arguments, or a plugin that cannot be loaded, it ends with 1 and no driver is used. -/
theorem C103_usage (e : Env) (ha : ¬ (e.args.length = 1 ∨ e.args.length = 3 ∧ e.loads = true)) : ∃ u, main e = .ok (u, some 1) := by
  unfold main
  by_cases h : e.args.length ≠ 1 ∧ e.args.length ≠ 3
  · rw [if_pos h]; exact ⟨_, rfl⟩
  · rw [if_neg h, if_pos]
    · exact ⟨_, rfl⟩
    · have h1 : e.args.length ≠ 1 := fun h1 => ha (Or.inl h1)
      have h3 : e.args.length = 3 := by omega
      refine ⟨h3, ?_⟩
      cases hl : e.loads
      · rfl
      · exact absurd (Or.inr ⟨h3, hl⟩) ha

example : main ⟨["can0".toList, "x".toList], true, true, [], ⟨.closed, 0, 0⟩, [], false, []⟩ = .ok ("usage\n".toList, some 1) := rfl

/-- C103 fails when the two listeners run at the same time: a state change that is printed while a frame is being printed shows its numbers in base 16 (here the error
64, bus off, as 40), in the middle of the line of the frame. -/
theorem C103_interleave_false : ∃ f s ops sched, Sane (.frame f) ∧ printFrame f = .ok ops ∧ s.internalError.toNat = 64 ∧
    (Stream.run ⟨[], false⟩ (merge sched ops (printState s))).out = "s STATE: driver_state=2 internal_error=40('bus off;') asio: system:0\n123\t2 1 ab\n".toList := by
  refine ⟨someFrame, someState, _, [true, true, false, false, false, false, false, false, false, false, false, false], by show someFrame.dlc.toNat ≤ 8; decide, rfl, rfl, ?_⟩
  simp [merge, printState, Stream.run, Stream.exec, showNum, someState, driverNum, someFrame, Txt.ostreamHex, Txt.dec2hex, translateError, translateTable, ErrClass.bit]
  rfl

/-- C103 needs frames of at most 8 bytes: printing another one is undefined. -/
theorem C103_long_false : ∃ f, printFrame f = .ub := ⟨{ someFrame with dlc := 9 }, rfl⟩

end Verif.Props
