import Verif.Lemmas.Reader

/-!
# C12: buffered reader
-/

namespace Verif.Props
open Verif.Rd Verif.Spec

variable {α : Type}

/-- C12.  For every history the reader behaves exactly like the abstract log-with-position: it hands out the same frames,
and holds exactly the accepted frames after the position. -/
theorem C12_reader_refines (e : Bool) (cap : Nat) (ops : List (Op α)) :
    let r := (Reader.new e cap : Reader α).run ops
    let a := ({ log := [], gone := 0, enabled := e, cap := cap } : AbsReader α).run ops
    r.2 = a.2 ∧ r.1.buffer = a.1.log.drop a.1.gone ∧ r.1.enabled = a.1.enabled ∧ r.1.maxLen = a.1.cap := by
  have h0 : Rel (Reader.new e cap : Reader α) { log := [], gone := 0, enabled := e, cap := cap } :=
    ⟨rfl, rfl, rfl, Nat.le_refl _, fun _ => by simp⟩
  obtain ⟨h, h'⟩ := run_rel ops _ _ h0
  exact ⟨h', h.1, h.2.1, h.2.2.1⟩

/-- capacity 2: the oldest of three frames is dropped -/
example : (Reader.new true 2 : Reader Nat).run [.arrive 1, .arrive 2, .arrive 3, .read] =
      ({ buffer := [3], enabled := true, maxLen := 2 }, [2]) ∧
    (({ log := [], gone := 0, enabled := true, cap := 2 } : AbsReader Nat).run [.arrive 1, .arrive 2, .arrive 3, .read]).2 = [2] := by
  decide

/-- C12.  Frames handed out followed by frames still held are a sub-sequence of the frames accepted while enabled: order is
kept, nothing is invented, nothing is handed out twice; and what is held are always the newest accepted frames. -/
theorem C12_in_order_at_most_once (e : Bool) (cap : Nat) (ops : List (Op α)) :
    let r := (Reader.new e cap : Reader α).run ops
    (r.2 ++ r.1.buffer).Sublist (acceptedOf e ops) ∧ r.1.buffer <:+ acceptedOf e ops := by
  obtain ⟨h1, h2, _, _⟩ := C12_reader_refines e cap ops
  obtain ⟨h3, h4, h5⟩ := abs_delivered ops ({ log := [], gone := 0, enabled := e, cap := cap } : AbsReader α)
    (Nat.le_refl _) [] (List.nil_sublist _)
  simp only [List.nil_append] at h3 h4
  simp only
  rw [h1, h2, ← h4]
  refine ⟨?_, List.drop_suffix _ _⟩
  generalize ({ log := [], gone := 0, enabled := e, cap := cap } : AbsReader α).run ops = A at h3 ⊢
  have := List.Sublist.append h3 (List.Sublist.refl (A.1.log.drop A.1.gone))
  rwa [List.take_append_drop] at this

example : acceptedOf true ([.arrive 1, .arrive 2, .arrive 3, .read] : List (Op Nat)) = [1, 2, 3] ∧
    ([2] ++ [3] : List Nat).Sublist [1, 2, 3] := by decide

/-- C12.  Never more than the capacity is held. -/
theorem C12_capacity (e : Bool) (cap : Nat) (ops : List (Op α)) :
    let r := (Reader.new e cap : Reader α).run ops
    r.1.maxLen ≠ 0 → r.1.buffer.length ≤ r.1.maxLen := by
  have h0 : Rel (Reader.new e cap : Reader α) { log := [], gone := 0, enabled := e, cap := cap } :=
    ⟨rfl, rfl, rfl, Nat.le_refl _, fun _ => by simp⟩
  obtain ⟨⟨h1, h2, h3, h4, h5⟩, h'⟩ := run_rel ops _ _ h0
  intro r hr
  simp only [r] at hr ⊢
  rw [h3] at hr ⊢
  rw [h1, List.length_drop]
  exact h5 hr

/-- lowering the capacity trims what is held -/
example : ((Reader.new true 0 : Reader Nat).run [.arrive 1, .arrive 2, .arrive 3, .setMaxLen 1]).1 =
    { buffer := [3], enabled := true, maxLen := 1 } := by decide

/-- C12.  With unlimited capacity and without flush/listen no accepted frame is lost. -/
theorem C12_no_loss (e : Bool) (ops : List (Op α))
    (hops : ∀ op ∈ ops, op ≠ .flush ∧ op ≠ .listen ∧ ∀ n, op = .setMaxLen n → n = 0) :
    let r := (Reader.new e 0 : Reader α).run ops
    r.2 ++ r.1.buffer = acceptedOf e ops := by
  suffices h : ∀ (ops : List (Op α)) (r : Reader α), r.maxLen = 0 →
      (∀ op ∈ ops, op ≠ .flush ∧ op ≠ .listen ∧ ∀ n, op = .setMaxLen n → n = 0) →
      (r.run ops).2 ++ (r.run ops).1.buffer = r.buffer ++ acceptedOf r.enabled ops by
    have := h ops (Reader.new e 0) rfl hops
    simpa [Reader.new] using this
  intro ops
  induction ops with
  | nil => intro r _ _; simp [Reader.run, acceptedOf]
  | cons op ops ih =>
    intro r hm hops
    have hop := hops op (by simp)
    have htl := fun o (h : o ∈ ops) => hops o (List.mem_cons_of_mem _ h)
    simp only [Reader.run]
    cases op with
    | arrive f =>
      simp only [Reader.step, Reader.handleFrame, acceptedOf]
      cases he : r.enabled with
      | false =>
        have := ih r hm htl
        rw [he] at this
        simpa using this
      | true =>
        have e1 : ({ r with buffer := r.buffer ++ [f] } : Reader α).trim = { r with buffer := r.buffer ++ [f] } := by
          simp [Reader.trim, hm]
        simp only [if_true]
        have := ih { r with buffer := r.buffer ++ [f] } hm htl
        simp only [he] at this
        rw [he] at e1; rw [e1]
        simpa [he] using this
    | flush => exact absurd rfl hop.1
    | listen => exact absurd rfl hop.2.1
    | setMaxLen n =>
      have hn := hop.2.2 n rfl
      subst hn
      have e1 : r.setMaxLen 0 = { r with maxLen := 0 } := by simp [Reader.setMaxLen, Reader.trim]
      simp only [Reader.step, acceptedOf, e1]
      simpa using ih { r with maxLen := 0 } rfl htl
    | setEnabled e =>
      simp only [Reader.step, Reader.setEnabled, acceptedOf]
      simpa using ih { r with enabled := e } hm htl
    | read =>
      simp only [Reader.step, Reader.readUntil, acceptedOf]
      cases hb : r.buffer with
      | nil =>
        have := ih r hm htl
        simpa [hb] using this
      | cons x xs =>
        have := ih { r with buffer := xs } hm htl
        simpa using this
    | peek =>
      simp only [Reader.step, Reader.readUntil, acceptedOf]
      cases hb : r.buffer with
      | nil =>
        have := ih r hm htl
        simpa [hb] using this
      | cons x xs =>
        have := ih r hm htl
        simpa [hb] using this

/-- the hypothesis of `C12_no_loss` is met by a history that fills, reads and toggles -/
example : (∀ op ∈ ([.arrive 1, .arrive 2, .read, .setEnabled false, .arrive 3, .setEnabled true, .arrive 4] : List (Op Nat)),
      op ≠ .flush ∧ op ≠ .listen ∧ ∀ n, op = .setMaxLen n → n = 0) ∧
    (Reader.new true 0 : Reader Nat).run
      [.arrive 1, .arrive 2, .read, .setEnabled false, .arrive 3, .setEnabled true, .arrive 4] =
      ({ buffer := [2, 4], enabled := true, maxLen := 0 }, [1]) := by
  refine ⟨?_, rfl⟩
  intro op h
  simp at h
  rcases h with rfl | rfl | rfl | rfl | rfl | rfl | rfl <;> simp

/-- C12.  `ScopedEnabler`: the block runs enabled and the switch is restored, whatever the block does. -/
theorem C12_scoped_enabler (r : Reader α) (ops : List (Op α)) :
    (r.scopedEnabled ops).1.enabled = r.enabled ∧
    (r.scopedEnabled ops).1.buffer = (({ r with enabled := true } : Reader α).run ops).1.buffer ∧
    (r.scopedEnabled ops).2 = (({ r with enabled := true } : Reader α).run ops).2 := by
  simp [Reader.scopedEnabled, Reader.setEnabled]

example : ((Reader.new false 0 : Reader Nat).scopedEnabled [.arrive 1, .setEnabled false, .arrive 2]).1 =
    { buffer := [1], enabled := false, maxLen := 0 } := by decide

/-- C12.  After every history a read returns true exactly if an accepted frame is left; it stores the oldest one that is left, which is gone then.  With a null pointer the frame is
left where it is. -/
theorem C12_read_result (e : Bool) (cap : Nat) (ops : List (Op α)) :
    let r := ((Reader.new e cap : Reader α).run ops).1
    let a := (({ log := [], gone := 0, enabled := e, cap := cap } : AbsReader α).run ops).1
    (r.readUntil true).2 = ((a.log[a.gone]?).isSome, a.log[a.gone]?) ∧ (r.readUntil true).1.buffer = a.log.drop (a.gone + 1) ∧
    (r.readUntil false).2 = ((a.log[a.gone]?).isSome, none) ∧ (r.readUntil false).1 = r := by
  intro r a
  have hb : r.buffer = a.log.drop a.gone := (C12_reader_refines e cap ops).2.1
  have hd : a.log.drop (a.gone + 1) = r.buffer.drop 1 := by rw [hb, List.drop_drop, Nat.add_comm]
  have h0 : a.log[a.gone]? = r.buffer[0]? := by rw [hb, List.getElem?_drop]; rfl
  rw [hd, h0]
  unfold Reader.readUntil
  cases hx : r.buffer with
  | nil => simp [hx]
  | cons x xs => simp

example : let r := ((Reader.new true 2 : Reader Nat).run [.arrive 1, .arrive 2, .arrive 3]).1
    (r.readUntil true).2 = (true, some 2) ∧ (r.readUntil false).2 = (true, none) ∧ ((Reader.new true 2 : Reader Nat).readUntil false).2 = (false, none) := by decide

end Verif.Props
