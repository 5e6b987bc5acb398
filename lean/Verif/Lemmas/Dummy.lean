import Verif.Spec.Dummy

set_option linter.unusedSimpArgs false
namespace Verif.Dummy
open Verif Verif.Disp Verif.Spec

theorem foldl_enqueue (f : Frame) (L : List Nat) (w : World) (nd : L.Nodup) (j : Nat) :
    (L.foldl (fun w j => w.enqueue f j) w).bus = w.bus ∧
    ((L.foldl (fun w j => w.enqueue f j) w).ifs j).queue = (w.ifs j).queue ++ (if j ∈ L then [f] else []) ∧
    ((L.foldl (fun w j => w.enqueue f j) w).ifs j).loopback = (w.ifs j).loopback ∧
    ((L.foldl (fun w j => w.enqueue f j) w).ifs j).delivered = (w.ifs j).delivered := by
  induction L generalizing w with
  | nil => simp
  | cons x xs ih =>
    rw [List.nodup_cons] at nd
    obtain ⟨a, b, c, d⟩ := ih (w.enqueue f x) nd.2
    rw [List.foldl_cons]
    refine ⟨by rw [a]; rfl, ?_, ?_, ?_⟩
    · rw [b]
      by_cases h : j = x
      · subst h
        simp [World.enqueue, nd.1]
      · simp [World.enqueue, h]
    · rw [c]; by_cases h : j = x <;> simp [World.enqueue, h]
    · rw [d]; by_cases h : j = x <;> simp [World.enqueue, h]

/-- the concrete world agrees with the connection table -/
def Inv (w : World) (c : Conns) : Prop :=
  w.bus.listeners.Nodup ∧ (∀ i, i ∈ w.bus.listeners ↔ (c i).isSome) ∧ (∀ i l, c i = some l → (w.ifs i).loopback = l)

theorem send_spec (w : World) (c : Conns) (h : Inv w c) (i : Nat) (f : Frame) (hc : (c i).isSome) :
    ∃ w', w.send i f = .ok w' ∧ Inv w' c ∧ ∀ j,
      (w'.ifs j).delivered = (w.ifs j).delivered ∧
      (w'.ifs j).queue = (w.ifs j).queue ++
        (if (i ≠ j ∧ (c j).isSome) ∨ (i = j ∧ c j = some true) then [f] else []) := by
  obtain ⟨h1, h2, h3⟩ := h
  have hi : i ∈ w.bus.listeners := (h2 i).2 hc
  obtain ⟨l, hl⟩ := Option.isSome_iff_exists.1 hc
  have hlb := h3 i l hl
  unfold World.send
  rw [if_pos hi]
  simp only
  refine ⟨_, rfl, ?_⟩
  generalize hw1 : (if (w.ifs i).loopback = true then w.enqueue f i else w) = w1
  have hb : w1.bus = w.bus := by rw [← hw1]; split <;> rfl
  have hnd : (w1.bus.dispatchNolock (some i)).Nodup := by
    rw [hb]; exact List.Nodup.sublist List.filter_sublist h1
  have hmem : ∀ j, j ∈ w1.bus.dispatchNolock (some i) ↔ (c j).isSome ∧ i ≠ j := by
    intro j
    rw [hb, Base.dispatchNolock, List.mem_filter, h2 j]
    simp
  have key := foldl_enqueue f (w1.bus.dispatchNolock (some i)) w1 hnd
  have hw1q : ∀ j, (w1.ifs j).queue = (w.ifs j).queue ++ (if i = j ∧ c j = some true then [f] else []) ∧
      (w1.ifs j).loopback = (w.ifs j).loopback ∧ (w1.ifs j).delivered = (w.ifs j).delivered := by
    intro j
    rw [← hw1, hlb]
    by_cases e : i = j
    · subst e
      cases l
      · simp [hl]
      · simp [hl, World.enqueue]
    · have e' : ¬ j = i := fun h => e h.symm
      cases l <;> simp [World.enqueue, e, e']
  refine ⟨⟨?_, ?_, ?_⟩, ?_⟩
  · rw [(key 0).1, hb]; exact h1
  · intro j; rw [(key 0).1, hb]; exact h2 j
  · intro j l' hj
    rw [(key j).2.2.1, (hw1q j).2.1]
    exact h3 j l' hj
  · intro j
    refine ⟨by rw [(key j).2.2.2, (hw1q j).2.2], ?_⟩
    rw [(key j).2.1, (hw1q j).1]
    by_cases e : i = j
    · subst e
      have : ¬ (i ∈ w1.bus.dispatchNolock (some i)) := by rw [hmem]; simp
      simp [this]
    · have hm := hmem j
      by_cases hcj : (c j).isSome = true
      · have : j ∈ w1.bus.dispatchNolock (some i) := hm.2 ⟨hcj, e⟩
        simp [this, e, hcj]
      · have : ¬ j ∈ w1.bus.dispatchNolock (some i) := fun h => hcj (hm.1 h).1
        simp [this, e, hcj]

theorem connect_inv (w : World) (c : Conns) (h : Inv w c) (i : Nat) (l : Bool) :
    Inv (w.connect i l) (connStep c (.connect i l)) := by
  obtain ⟨h1, h2, h3⟩ := h
  refine ⟨?_, ?_, ?_⟩
  · simp only [World.connect, Base.createListener, Base.remove]
    rw [List.nodup_append]
    refine ⟨List.Nodup.sublist List.filter_sublist h1, by simp, ?_⟩
    intro a ha b hb
    simp at ha hb
    omega
  · intro j
    simp only [World.connect, Base.createListener, Base.remove, connStep, List.mem_append, List.mem_filter, h2]
    by_cases e : j = i <;> simp [e]
  · intro j l' hj
    simp only [connStep] at hj
    simp only [World.connect]
    by_cases e : j = i
    · simp [e] at hj ⊢; exact hj
    · simp [e] at hj ⊢; exact h3 j l' hj

theorem disconnect_inv (w : World) (c : Conns) (h : Inv w c) (i : Nat) :
    Inv (w.disconnect i) (connStep c (.disconnect i)) := by
  obtain ⟨h1, h2, h3⟩ := h
  refine ⟨List.Nodup.sublist List.filter_sublist h1, ?_, ?_⟩
  · intro j
    simp only [World.disconnect, Base.remove, connStep, List.mem_filter, h2]
    by_cases e : j = i <;> simp [e]
  · intro j l' hj
    simp only [connStep] at hj
    by_cases e : j = i
    · simp [e] at hj
    · simp [e] at hj; exact h3 j l' hj

theorem receive_spec (w : World) (c : Conns) (h : Inv w c) (i : Nat) :
    Inv (w.receive i) c ∧ ∀ j, ((w.receive i).ifs j).delivered ++ ((w.receive i).ifs j).queue =
      (w.ifs j).delivered ++ (w.ifs j).queue := by
  obtain ⟨h1, h2, h3⟩ := h
  unfold World.receive
  cases hq : (w.ifs i).queue with
  | nil => exact ⟨⟨h1, h2, h3⟩, fun j => rfl⟩
  | cons f r =>
    refine ⟨⟨h1, h2, ?_⟩, ?_⟩
    · intro j l hj
      by_cases e : j = i
      · simpa [e] using h3 j l hj
      · simpa [e] using h3 j l hj
    · intro j
      by_cases e : j = i
      · subst e; simp [hq]
      · simp [e]

theorem run_spec (es : List Ev) (w : World) (c : Conns) (h : Inv w c) :
    (SendersConnected c es → ∃ w', w.run es = .ok w' ∧ ∀ j,
      (w'.ifs j).delivered ++ (w'.ifs j).queue =
        (w.ifs j).delivered ++ (w.ifs j).queue ++ mustReceive j c es) ∧
    (¬ SendersConnected c es → w.run es = .ub) := by
  induction es generalizing w c with
  | nil => exact ⟨fun _ => ⟨w, rfl, fun j => by simp [mustReceive]⟩, fun h => absurd trivial h⟩
  | cons e es ih =>
    cases e with
    | connect i l =>
      obtain ⟨a, b⟩ := ih _ _ (connect_inv w c h i l)
      refine ⟨fun hs => ?_, fun hs => b hs⟩
      obtain ⟨w', hw, hj⟩ := a hs
      refine ⟨w', hw, fun j => ?_⟩
      rw [hj j]
      by_cases e : j = i <;> simp [World.connect, mustReceive, e]
    | disconnect i =>
      obtain ⟨a, b⟩ := ih _ _ (disconnect_inv w c h i)
      refine ⟨fun hs => ?_, fun hs => b hs⟩
      obtain ⟨w', hw, hj⟩ := a hs
      exact ⟨w', hw, fun j => by rw [hj j]; simp [World.disconnect, mustReceive]⟩
    | send i f =>
      by_cases hc : (c i).isSome = true
      · obtain ⟨w1, hw1, hinv, hq⟩ := send_spec w c h i f hc
        obtain ⟨a, b⟩ := ih _ _ hinv
        have hrun : w.run (.send i f :: es) = w1.run es := by simp [World.run, World.step, hw1]
        refine ⟨fun hs => ?_, fun hs => ?_⟩
        · obtain ⟨w', hw, hj⟩ := a hs.2
          refine ⟨w', by rw [hrun, hw], fun j => ?_⟩
          rw [hj j, (hq j).1, (hq j).2, mustReceive]
          split <;> simp
        · rw [hrun]
          exact b (fun hs' => hs ⟨hc, hs'⟩)
      · have hub : w.send i f = .ub := by
          unfold World.send
          rw [if_neg (fun hm => hc ((h.2.1 i).1 hm))]
        refine ⟨fun hs => absurd hs.1 hc, fun _ => by simp [World.run, World.step, hub]⟩
    | receive i =>
      obtain ⟨hinv, hq⟩ := receive_spec w c h i
      obtain ⟨a, b⟩ := ih _ _ hinv
      refine ⟨fun hs => ?_, fun hs => b hs⟩
      obtain ⟨w', hw, hj⟩ := a hs
      exact ⟨w', hw, fun j => by rw [hj j, hq j]; rfl⟩

theorem init_inv : Inv World.init (fun _ => none) := by
  refine ⟨by simp [World.init], ?_, ?_⟩ <;> simp [World.init]

end Verif.Dummy
