import Verif.Spec.SetPoint
import Verif.Lemmas.Motor

/-!
# Lemmas for C115
-/

namespace Verif.Spec.SetPoint
open Verif Verif.M402 Verif.Spec.M402

theorem ack_statusOf (b : BitVec 16) (a : Bool) : acknowledged (statusOf b a) = a := by
  unfold statusOf acknowledged
  cases a
  · have : (0xEFFF : BitVec 16).getLsbD 12 = false := by decide
    simp only [Bool.false_eq_true, if_false, BitVec.getLsbD_and, this, Bool.and_false]
  · have : (0x1000 : BitVec 16).getLsbD 12 = true := by decide
    simp only [if_true, BitVec.getLsbD_or, this, Bool.or_true]

/-- the bits of a sequence of frames, after a bit `b`: what the drive will adopt if it looks at all of them -/
def edges : Bool → List (BitVec 16 × Int) → List Int
  | _, [] => []
  | b, x :: q => (if newSetPoint x.1 && !b then [x.2] else []) ++ edges (newSetPoint x.1) q

/-- the bit of the last frame -/
def lastBit (b : Bool) : List (BitVec 16 × Int) → Bool
  | [] => b
  | x :: q => lastBit (newSetPoint x.1) q

theorem edges_snoc (q : List (BitVec 16 × Int)) (x : BitVec 16 × Int) : ∀ b, edges b (q ++ [x]) = edges b q ++ (if newSetPoint x.1 && !lastBit b q then [x.2] else []) := by
  induction q with
  | nil => intro b; simp [edges, lastBit]
  | cons y q ih => intro b; simp [edges, lastBit, ih]

theorem lastBit_snoc (q : List (BitVec 16 × Int)) (x : BitVec 16 × Int) : ∀ b, lastBit b (q ++ [x]) = newSetPoint x.1 := by
  induction q with
  | nil => intro b; rfl
  | cons y q ih => intro b; exact ih _

/-- what always holds if the drive looks at every frame -/
structure Inv (s : Sys) : Prop where
  ack : s.drive.ack = true → s.drive.was = true
  bit : lastBit s.drive.was s.out = newSetPoint s.cw
  adopted : s.drive.adopted ++ edges s.drive.was s.out = sentTargets s.tr

theorem sent_app (a b : List PObs) : sentTargets (a ++ b) = sentTargets a ++ sentTargets b := by simp [sentTargets]

theorem take_inv (s : Sys) (h : Inv s) : Inv s.take := by
  unfold Sys.take
  cases ho : s.out with
  | nil => exact h
  | cons x q =>
    have hb := h.bit
    have ha := h.adopted
    rw [ho] at hb ha
    simp only [lastBit, edges] at hb ha
    have hack := h.ack
    cases hn : newSetPoint x.1 with
    | false =>
      rw [hn] at hb ha
      refine ⟨?_, ?_, ?_⟩
      · simp [Drive.take, hn]
      · simpa [Drive.take, hn] using hb
      · simpa [Drive.take, hn] using ha
    | true =>
      rw [hn] at hb ha
      cases hw : s.drive.was with
      | true =>
        rw [hw] at ha
        refine ⟨?_, ?_, ?_⟩
        · simp [Drive.take, hn, hw]
        · simpa [Drive.take, hn, hw] using hb
        · simpa [Drive.take, hn, hw] using ha
      | false =>
        have hk : s.drive.ack = false := by
          cases hk : s.drive.ack with
          | false => rfl
          | true => rw [hack hk] at hw; exact absurd hw (by decide)
        rw [hw] at ha
        refine ⟨?_, ?_, ?_⟩
        · simp [Drive.take, hn, hw, hk]
        · simpa [Drive.take, hn, hw, hk] using hb
        · simpa [Drive.take, hn, hw, hk] using ha

theorem read_inv (s : Sys) (h : Inv s) : Inv s.read := by
  unfold Sys.read
  cases hb : s.back with
  | nil => exact h
  | cons w q =>
    refine ⟨h.ack, h.bit, ?_⟩
    simp only [Sys.mode, pstep, sent_app]
    rw [h.adopted]
    simp [sentTargets]

theorem times_inv {P : Sys → Prop} {f : Sys → Sys} (hf : ∀ s, P s → P (f s)) (n : Nat) : ∀ s, P s → P (times f n s) := by
  induction n with
  | zero => intro s h; exact h
  | succ n ih => intro s h; exact ih _ (hf s h)

theorem write_inv (s : Sys) (h : Inv s) : Inv (s.step .write) := by
  refine ⟨h.ack, ?_, ?_⟩
  · simp only [Sys.step, Sys.mode, lastBit_snoc]
  · simp only [Sys.step, Sys.mode, pstep, edges_snoc, sent_app]
    rw [h.bit, ← List.append_assoc, h.adopted]
    congr 1
    rcases pwrite_cases s.p s.cw with ⟨a1, a2, a3, a4, a5, a6⟩ | ⟨a1, a2, a3, a4, a5, a6⟩ | ⟨a1, a2, a5, a6⟩ | ⟨a1, a2, a3, a5, a6⟩ | ⟨a1, a5, a6⟩
    · rw [a5, a6]; simp [sentTargets]
    · rw [a5, a4]; simp [sentTargets, a6, nowSent]
    · rw [a5, a6]; simp [sentTargets]
    · rw [a5, a6]; cases newSetPoint s.cw <;> simp [sentTargets]
    · rw [a5, a6]; cases newSetPoint s.cw <;> simp [sentTargets]

theorem step_inv (s : Sys) (e : Ev) (hs : Seen e) (h : Inv s) : Inv (s.step e) := by
  cases e with
  | target v =>
    refine ⟨h.ack, h.bit, ?_⟩
    simp only [Sys.step, Sys.mode, pstep, sent_app]
    rw [h.adopted]; simp [sentTargets]
  | write => exact write_inv s h
  | other w =>
    simp only [Sys.step]
    split
    · rename_i hw
      exact ⟨h.ack, by rw [hw]; exact h.bit, h.adopted⟩
    · exact h
  | take => exact take_inv s h
  | takeAll => exact times_inv take_inv _ s h
  | report b => exact ⟨h.ack, h.bit, h.adopted⟩
  | read => exact read_inv s h
  | readAll => exact times_inv read_inv _ s h
  | skip => exact hs.elim

theorem run_inv (es : List Ev) : ∀ s, (∀ e ∈ es, Seen e) → Inv s → Inv (s.run es) := by
  induction es with
  | nil => intro s _ h; exact h
  | cons e es ih => intro s hs h; exact ih _ (fun x hx => hs x (List.mem_cons_of_mem _ hx)) (step_inv s e (hs e List.mem_cons_self) h)

theorem begins_inv (p : ProfPos) (cw : BitVec 16) (obj : Int) (ack : Bool) : Inv (begins p cw obj ack) :=
  ⟨by simp [begins], rfl, rfl⟩

/-! ### How far a command has come -/

/-- the stages on the way of the target `T` to the drive -/
def At (T : Int) : Nat → Sys → Prop
  | 0, s => s.p.t.has = true ∧ s.p.t.target = T ∧ s.p.last ≠ some T ∧ newSetPoint s.cw = true
  | 1, s => s.p.t.has = true ∧ s.p.t.target = T ∧ s.p.last ≠ some T ∧ newSetPoint s.cw = false
  | 2, s => s.p.t.has = true ∧ s.p.t.target = T ∧ s.p.last ≠ some T ∧ newSetPoint s.cw = false ∧ s.drive.was = false ∧ (∀ x ∈ s.out, newSetPoint x.1 = false)
  | 3, s => s.p.t.has = true ∧ s.p.t.target = T ∧ s.p.last ≠ some T ∧ newSetPoint s.cw = false ∧ s.drive.was = false ∧ (∀ x ∈ s.out, newSetPoint x.1 = false) ∧
      ∃ a w b, s.back = a ++ w :: b ∧ acknowledged w = false ∧ ∀ x ∈ b, acknowledged x = false
  | 4, s => s.p.t.has = true ∧ s.p.t.target = T ∧ s.p.last ≠ some T ∧ newSetPoint s.cw = false ∧ s.drive.was = false ∧ (∀ x ∈ s.out, newSetPoint x.1 = false) ∧
      acknowledged s.p.sw = false ∧ ∀ x ∈ s.back, acknowledged x = false
  | 5, s => s.p.t.has = true ∧ s.p.t.target = T ∧ s.p.last = some T ∧ (sentTargets s.tr).getLast? = some T
  | 6, s => s.p.t.has = true ∧ s.p.t.target = T ∧ s.p.last = some T ∧ (sentTargets s.tr).getLast? = some T ∧ s.drive.adopted = sentTargets s.tr
  | _, _ => False

/-- the step that leads on -/
def leads : Nat → Ev → Bool
  | 0, .write => true
  | 1, .takeAll => true
  | 2, .report _ => true
  | 3, .readAll => true
  | 4, .write => true
  | 5, .takeAll => true
  | _, _ => false

theorem at_le {T : Int} {k : Nat} {s : Sys} (h : At T k s) : k ≤ 6 := by
  by_cases hk : k ≤ 6
  · exact hk
  · exfalso
    have : ∃ m, k = m + 7 := ⟨k - 7, by omega⟩
    obtain ⟨m, rfl⟩ := this
    exact h

theorem take_at (T : Int) (s : Sys) (k : Nat) (hi : Inv s) (h : At T k s) : ∃ k', k ≤ k' ∧ At T k' s.take := by
  unfold Sys.take
  cases ho : s.out with
  | nil => exact ⟨k, Nat.le_refl _, h⟩
  | cons x q =>
    have hk := at_le h
    have hack := hi.ack
    match k, h with
    | 0, h => exact ⟨0, Nat.le_refl _, h⟩
    | 1, h => exact ⟨1, Nat.le_refl _, h⟩
    | 2, h =>
      obtain ⟨h1, h2, h3, h4, h5, h6⟩ := h
      rw [ho] at h6
      have hx := h6 x List.mem_cons_self
      exact ⟨2, Nat.le_refl _, h1, h2, h3, h4, by simp [Drive.take, hx], fun y hy => h6 y (List.mem_cons_of_mem _ hy)⟩
    | 3, h =>
      obtain ⟨h1, h2, h3, h4, h5, h6, h7⟩ := h
      rw [ho] at h6
      have hx := h6 x List.mem_cons_self
      exact ⟨3, Nat.le_refl _, h1, h2, h3, h4, by simp [Drive.take, hx], fun y hy => h6 y (List.mem_cons_of_mem _ hy), h7⟩
    | 4, h =>
      obtain ⟨h1, h2, h3, h4, h5, h6, h7⟩ := h
      rw [ho] at h6
      have hx := h6 x List.mem_cons_self
      exact ⟨4, Nat.le_refl _, h1, h2, h3, h4, by simp [Drive.take, hx], fun y hy => h6 y (List.mem_cons_of_mem _ hy), h7⟩
    | 5, h => exact ⟨5, Nat.le_refl _, h⟩
    | 6, h =>
      obtain ⟨h1, h2, h3, h4, h5⟩ := h
      refine ⟨6, Nat.le_refl _, h1, h2, h3, h4, ?_⟩
      have ha := hi.adopted
      rw [h5, ho] at ha
      have he : edges s.drive.was (x :: q) = [] := by
        have := congrArg List.length ha
        simp only [List.length_append] at this
        exact List.eq_nil_of_length_eq_zero (by omega)
      have ht := take_inv s hi
      have ha' := ht.adopted
      unfold Sys.take at ha'
      rw [ho] at ha'
      dsimp only at ha' ⊢
      have hl : s.drive.adopted.length ≤ (s.drive.take x).adopted.length := by unfold Drive.take; split <;> (try split) <;> simp
      have := congrArg List.length ha'
      simp only [List.length_append] at this
      have h0 : edges (s.drive.take x).was q = [] := by
        rw [← h5] at this
        exact List.eq_nil_of_length_eq_zero (by omega)
      rw [h0, List.append_nil] at ha'
      exact ha'
    | k + 7, _ => omega

theorem read_at (T : Int) (s : Sys) (k : Nat) (h : At T k s) : ∃ k', k ≤ k' ∧ At T k' s.read := by
  unfold Sys.read
  cases hb : s.back with
  | nil => exact ⟨k, Nat.le_refl _, h⟩
  | cons w q =>
    have hk := at_le h
    match k, h with
    | 0, h => exact ⟨0, Nat.le_refl _, h⟩
    | 1, h => exact ⟨1, Nat.le_refl _, h⟩
    | 2, h => exact ⟨2, Nat.le_refl _, h⟩
    | 3, h =>
      obtain ⟨h1, h2, h3, h4, h5, h6, a, y, b, h7, h8, h9⟩ := h
      rw [hb] at h7
      cases a with
      | nil =>
        simp only [List.nil_append, List.cons.injEq] at h7
        refine ⟨4, by omega, h1, h2, h3, h4, h5, h6, ?_, ?_⟩
        · show acknowledged w = false
          rw [h7.1]; exact h8
        · show ∀ x ∈ q, _
          rw [h7.2]; exact h9
      | cons z a =>
        simp only [List.cons_append, List.cons.injEq] at h7
        exact ⟨3, by omega, h1, h2, h3, h4, h5, h6, a, y, b, h7.2, h8, h9⟩
    | 4, h =>
      obtain ⟨h1, h2, h3, h4, h5, h6, h7, h8⟩ := h
      rw [hb] at h8
      exact ⟨4, by omega, h1, h2, h3, h4, h5, h6, h8 w List.mem_cons_self, fun x hx => h8 x (List.mem_cons_of_mem _ hx)⟩
    | 5, h =>
      refine ⟨5, Nat.le_refl _, h.1, h.2.1, h.2.2.1, ?_⟩
      simp only [Sys.mode, pstep, sent_app]
      simpa [sentTargets] using h.2.2.2
    | 6, h =>
      refine ⟨6, Nat.le_refl _, h.1, h.2.1, h.2.2.1, ?_, ?_⟩
      · simp only [Sys.mode, pstep, sent_app]
        simpa [sentTargets] using h.2.2.2.1
      · simp only [Sys.mode, pstep, sent_app]
        simpa [sentTargets] using h.2.2.2.2
    | k + 7, _ => omega

theorem write_last (p : ProfPos) (cw : BitVec 16) :
    (p.write cw).1.t = p.t ∧ (p.write cw).1.sw = p.sw ∧
    (p.write cw).1.last = (match (p.write cw).2.2.2 with | some t => some t | none => p.last) := pwrite_last p cw

theorem write_at (T : Int) (s : Sys) (k : Nat) (h : At T k s) :
    ∃ k', k ≤ k' ∧ At T k' (s.step .write) ∧ (leads k .write = true → k < k') := by
  have hk := at_le h
  obtain ⟨w1, w2, w3⟩ := pwrite_last s.p s.cw
  simp only [Sys.step, Sys.mode, pstep]
  have key : ∀ (hh : s.p.t.has = true) (ht : s.p.t.target = T) (hl : s.p.last ≠ some T), 
      (acknowledged s.p.sw = false ∧ newSetPoint s.cw = false ∧ (s.p.write s.cw).2.2.2 = some T ∧ (s.p.write s.cw).1.last = some T) ∨
      ((acknowledged s.p.sw = true ∨ newSetPoint s.cw = true) ∧ newSetPoint ((s.p.write s.cw).2.1.foldl AccOp.apply s.cw) = false ∧ (s.p.write s.cw).2.2.2 = none ∧
        (s.p.write s.cw).1.last = s.p.last) := by
    intro hh ht hl
    rcases pwrite_cases s.p s.cw with ⟨a1, a2, a3, a4, a5, a6⟩ | ⟨a1, a2, a3, a4, a5, a6⟩ | ⟨a1, a2, a5, a6⟩ | ⟨a1, a2, a3, a5, a6⟩ | ⟨a1, a5, a6⟩
    · right; rw [a6] at w3; exact ⟨Or.inr a4, a5, a6, w3⟩
    · left; rw [a6] at w3; exact ⟨a2, a4, by rw [a6, ht], by rw [w3, ht]⟩
    · right; rw [a6] at w3; exact ⟨Or.inl a2, a5, a6, w3⟩
    · exact absurd (ht ▸ a3) hl
    · rw [hh] at a1; exact absurd a1 (by decide)
  have done : ∀ (hh : s.p.t.has = true) (ht : s.p.t.target = T), (s.p.write s.cw).2.2.2 = some T → (s.p.write s.cw).1.last = some T →
      At T 5 ⟨(s.p.write s.cw).1, (s.p.write s.cw).2.1.foldl AccOp.apply s.cw, nowSent s,
        s.out ++ [((s.p.write s.cw).2.1.foldl AccOp.apply s.cw, nowSent s)], s.back, s.drive,
        s.tr ++ [.wrote s.cw ((s.p.write s.cw).2.1.foldl AccOp.apply s.cw) (s.p.write s.cw).2.2.2]⟩ := by
    intro hh ht h1 h2
    refine ⟨by rw [w1]; exact hh, by rw [w1]; exact ht, h2, ?_⟩
    simp only [sent_app, h1]
    simp [sentTargets]
  have snoc : (∀ x ∈ s.out, newSetPoint x.1 = false) → newSetPoint ((s.p.write s.cw).2.1.foldl AccOp.apply s.cw) = false →
      ∀ x ∈ s.out ++ [((s.p.write s.cw).2.1.foldl AccOp.apply s.cw, nowSent s)], newSetPoint x.1 = false := by
    intro h1 h2 x hx
    rcases List.mem_append.1 hx with hx | hx
    · exact h1 x hx
    · cases List.mem_singleton.1 hx; exact h2
  match k, h with
  | 0, h =>
    rcases key h.1 h.2.1 h.2.2.1 with ⟨b1, b2, b3, b4⟩ | ⟨b1, b2, b3, b4⟩
    · exact ⟨5, by omega, done h.1 h.2.1 b3 b4, fun _ => by omega⟩
    · exact ⟨1, by omega, ⟨by rw [w1]; exact h.1, by rw [w1]; exact h.2.1, by rw [b4]; exact h.2.2.1, b2⟩, fun _ => by omega⟩
  | 1, h =>
    rcases key h.1 h.2.1 h.2.2.1 with ⟨b1, b2, b3, b4⟩ | ⟨b1, b2, b3, b4⟩
    · exact ⟨5, by omega, done h.1 h.2.1 b3 b4, fun _ => by omega⟩
    · exact ⟨1, by omega, ⟨by rw [w1]; exact h.1, by rw [w1]; exact h.2.1, by rw [b4]; exact h.2.2.1, b2⟩, fun hl => by simp [leads] at hl⟩
  | 2, h =>
    rcases key h.1 h.2.1 h.2.2.1 with ⟨b1, b2, b3, b4⟩ | ⟨b1, b2, b3, b4⟩
    · exact ⟨5, by omega, done h.1 h.2.1 b3 b4, fun _ => by omega⟩
    · exact ⟨2, by omega, ⟨by rw [w1]; exact h.1, by rw [w1]; exact h.2.1, by rw [b4]; exact h.2.2.1, b2, h.2.2.2.2.1, snoc h.2.2.2.2.2 b2⟩,
        fun hl => by simp [leads] at hl⟩
  | 3, h =>
    rcases key h.1 h.2.1 h.2.2.1 with ⟨b1, b2, b3, b4⟩ | ⟨b1, b2, b3, b4⟩
    · exact ⟨5, by omega, done h.1 h.2.1 b3 b4, fun _ => by omega⟩
    · exact ⟨3, by omega, ⟨by rw [w1]; exact h.1, by rw [w1]; exact h.2.1, by rw [b4]; exact h.2.2.1, b2, h.2.2.2.2.1, snoc h.2.2.2.2.2.1 b2, h.2.2.2.2.2.2⟩,
        fun hl => by simp [leads] at hl⟩
  | 4, h =>
    rcases key h.1 h.2.1 h.2.2.1 with ⟨b1, b2, b3, b4⟩ | ⟨b1, b2, b3, b4⟩
    · exact ⟨5, by omega, done h.1 h.2.1 b3 b4, fun _ => by omega⟩
    · exfalso
      rcases b1 with b1 | b1
      · rw [h.2.2.2.2.2.2.1] at b1; exact absurd b1 (by decide)
      · rw [h.2.2.2.1] at b1; exact absurd b1 (by decide)
  | 5, h =>
    have hn : (s.p.write s.cw).2.2.2 = none := by
      rcases pwrite_cases s.p s.cw with ⟨a1, a2, a3, a4, a5, a6⟩ | ⟨a1, a2, a3, a4, a5, a6⟩ | ⟨a1, a2, a5, a6⟩ | ⟨a1, a2, a3, a5, a6⟩ | ⟨a1, a5, a6⟩
      · exact a6
      · exact absurd (by rw [h.2.2.1, h.2.1]) a3
      · exact a6
      · exact a6
      · exact a6
    rw [hn] at w3
    refine ⟨5, by omega, ⟨by rw [w1]; exact h.1, by rw [w1]; exact h.2.1, by rw [w3]; exact h.2.2.1, ?_⟩, fun hl => by simp [leads] at hl⟩
    simp only [sent_app, hn]
    simpa [sentTargets] using h.2.2.2
  | 6, h =>
    have hn : (s.p.write s.cw).2.2.2 = none := by
      rcases pwrite_cases s.p s.cw with ⟨a1, a2, a3, a4, a5, a6⟩ | ⟨a1, a2, a3, a4, a5, a6⟩ | ⟨a1, a2, a5, a6⟩ | ⟨a1, a2, a3, a5, a6⟩ | ⟨a1, a5, a6⟩
      · exact a6
      · exact absurd (by rw [h.2.2.1, h.2.1]) a3
      · exact a6
      · exact a6
      · exact a6
    rw [hn] at w3
    refine ⟨6, by omega, ⟨by rw [w1]; exact h.1, by rw [w1]; exact h.2.1, by rw [w3]; exact h.2.2.1, ?_, ?_⟩, fun hl => by simp [leads] at hl⟩
    · simp only [sent_app, hn]
      simpa [sentTargets] using h.2.2.2.1
    · simp only [sent_app, hn]
      simpa [sentTargets] using h.2.2.2.2
  | k + 7, _ => omega

theorem take_out (s : Sys) : s.take.out = s.out.tail := by
  unfold Sys.take
  cases h : s.out with
  | nil => simp [h]
  | cons x q => rfl

theorem read_back (s : Sys) : s.read.back = s.back.tail := by
  unfold Sys.read
  cases h : s.back with
  | nil => simp [h]
  | cons x q => rfl

theorem times_out (n : Nat) : ∀ s, (times Sys.take n s).out = s.out.drop n := by
  induction n with
  | zero => intro s; rfl
  | succ n ih => intro s; rw [times, ih, take_out, List.drop_tail]

theorem times_back (n : Nat) : ∀ s, (times Sys.read n s).back = s.back.drop n := by
  induction n with
  | zero => intro s; rfl
  | succ n ih => intro s; rw [times, ih, read_back, List.drop_tail]

theorem times_take_at (T : Int) (n : Nat) : ∀ s k, Inv s → At T k s → ∃ k', k ≤ k' ∧ At T k' (times Sys.take n s) := by
  induction n with
  | zero => intro s k _ h; exact ⟨k, Nat.le_refl _, h⟩
  | succ n ih =>
    intro s k hi h
    obtain ⟨k1, h1, h2⟩ := take_at T s k hi h
    obtain ⟨k2, h3, h4⟩ := ih _ _ (take_inv s hi) h2
    exact ⟨k2, by omega, h4⟩

theorem times_read_at (T : Int) (n : Nat) : ∀ s k, At T k s → ∃ k', k ≤ k' ∧ At T k' (times Sys.read n s) := by
  induction n with
  | zero => intro s k h; exact ⟨k, Nat.le_refl _, h⟩
  | succ n ih =>
    intro s k h
    obtain ⟨k1, h1, h2⟩ := read_at T s k h
    obtain ⟨k2, h3, h4⟩ := ih _ _ h2
    exact ⟨k2, by omega, h4⟩

theorem takeAll_at (T : Int) (s : Sys) (k : Nat) (hi : Inv s) (h : At T k s) :
    ∃ k', k ≤ k' ∧ At T k' (s.step .takeAll) ∧ (leads k .takeAll = true → k < k') := by
  obtain ⟨k', h1, h2⟩ := times_take_at T s.out.length s k hi h
  have hi' := times_inv take_inv s.out.length s hi
  have ho : (times Sys.take s.out.length s).out = [] := by rw [times_out]; simp
  simp only [Sys.step]
  generalize times Sys.take s.out.length s = t at *
  by_cases hlt : k < k'
  · exact ⟨k', h1, h2, fun _ => hlt⟩
  · have hkk : k' = k := by omega
    subst hkk
    by_cases h1' : k' = 1
    · subst h1'
      refine ⟨2, by omega, ?_, fun _ => by omega⟩
      obtain ⟨g1, g2, g3, g4⟩ := h2
      refine ⟨g1, g2, g3, g4, ?_, by rw [ho]; exact fun _ hx => nomatch hx⟩
      have := hi'.bit
      rw [ho] at this
      exact this.trans g4
    · by_cases h5' : k' = 5
      · subst h5'
        refine ⟨6, by omega, ?_, fun _ => by omega⟩
        obtain ⟨g1, g2, g3, g4⟩ := h2
        refine ⟨g1, g2, g3, g4, ?_⟩
        have := hi'.adopted
        rw [ho] at this
        simpa [edges] using this
      · refine ⟨k', Nat.le_refl _, h2, fun hl => ?_⟩
        exfalso
        unfold leads at hl
        split at hl <;> simp_all

theorem readAll_at (T : Int) (s : Sys) (k : Nat) (h : At T k s) :
    ∃ k', k ≤ k' ∧ At T k' (s.step .readAll) ∧ (leads k .readAll = true → k < k') := by
  obtain ⟨k', h1, h2⟩ := times_read_at T s.back.length s k h
  have hb : (times Sys.read s.back.length s).back = [] := by rw [times_back]; simp
  refine ⟨k', h1, h2, fun hl => ?_⟩
  have hk : k = 3 := by
    unfold leads at hl
    split at hl <;> simp_all
  subst hk
  have : k' ≠ 3 := by
    rintro rfl
    obtain ⟨_, _, _, _, _, _, a, w, b, h7, _⟩ := h2
    rw [hb] at h7
    simp at h7
  omega

theorem report_at (T : Int) (s : Sys) (k : Nat) (b : BitVec 16) (hi : Inv s) (h : At T k s) :
    ∃ k', k ≤ k' ∧ At T k' (s.step (.report b)) ∧ (leads k (.report b) = true → k < k') := by
  have hk := at_le h
  have hack : s.drive.was = false → s.drive.ack = false := by
    intro hw
    cases hk : s.drive.ack with
    | false => rfl
    | true => rw [hi.ack hk] at hw; exact absurd hw (by decide)
  match k, h with
  | 0, h => exact ⟨0, by omega, h, fun hl => by simp [leads] at hl⟩
  | 1, h => exact ⟨1, by omega, h, fun hl => by simp [leads] at hl⟩
  | 2, h =>
    refine ⟨3, by omega, ⟨h.1, h.2.1, h.2.2.1, h.2.2.2.1, h.2.2.2.2.1, h.2.2.2.2.2, s.back, _, [], rfl, ?_, fun _ hx => nomatch hx⟩, fun _ => by omega⟩
    rw [ack_statusOf]; exact hack h.2.2.2.2.1
  | 3, h =>
    obtain ⟨h1, h2, h3, h4, h5, h6, a, w, c, h7, h8, h9⟩ := h
    refine ⟨3, by omega, ⟨h1, h2, h3, h4, h5, h6, a, w, c ++ [statusOf b s.drive.ack], ?_, h8, ?_⟩, fun hl => by simp [leads] at hl⟩
    · simp [Sys.step, h7]
    · intro x hx
      rcases List.mem_append.1 hx with hx | hx
      · exact h9 x hx
      · cases List.mem_singleton.1 hx; rw [ack_statusOf]; exact hack h5
  | 4, h =>
    obtain ⟨h1, h2, h3, h4, h5, h6, h7, h8⟩ := h
    refine ⟨4, by omega, ⟨h1, h2, h3, h4, h5, h6, h7, ?_⟩, fun hl => by simp [leads] at hl⟩
    intro x hx
    rcases List.mem_append.1 hx with hx | hx
    · exact h8 x hx
    · cases List.mem_singleton.1 hx; rw [ack_statusOf]; exact hack h5
  | 5, h => exact ⟨5, by omega, h, fun hl => by simp [leads] at hl⟩
  | 6, h => exact ⟨6, by omega, h, fun hl => by simp [leads] at hl⟩
  | k + 7, _ => omega

theorem other_at (T : Int) (s : Sys) (k : Nat) (w : BitVec 16) (h : At T k s) :
    ∃ k', k ≤ k' ∧ At T k' (s.step (.other w)) ∧ (leads k (.other w) = true → k < k') := by
  have hk := at_le h
  have hl : leads k (.other w) = true → k < k := by
    intro hl
    exfalso
    unfold leads at hl
    split at hl <;> simp_all
  refine ⟨k, Nat.le_refl _, ?_, hl⟩
  simp only [Sys.step]
  split
  · rename_i hw
    match k, h with
    | 0, h => exact ⟨h.1, h.2.1, h.2.2.1, hw.trans h.2.2.2⟩
    | 1, h => exact ⟨h.1, h.2.1, h.2.2.1, hw.trans h.2.2.2⟩
    | 2, h => exact ⟨h.1, h.2.1, h.2.2.1, hw.trans h.2.2.2.1, h.2.2.2.2⟩
    | 3, h => exact ⟨h.1, h.2.1, h.2.2.1, hw.trans h.2.2.2.1, h.2.2.2.2⟩
    | 4, h => exact ⟨h.1, h.2.1, h.2.2.1, hw.trans h.2.2.2.1, h.2.2.2.2⟩
    | 5, h => exact h
    | 6, h => exact h
    | k + 7, _ => omega
  · exact h

theorem step_at (T : Int) (s : Sys) (e : Ev) (k : Nat) (hs : Seen e) (hc : Calm e) (hi : Inv s) (h : At T k s) :
    ∃ k', k ≤ k' ∧ At T k' (s.step e) ∧ (leads k e = true → k < k') := by
  cases e with
  | target v => exact hc.elim
  | write => exact write_at T s k h
  | other w => exact other_at T s k w h
  | take =>
    obtain ⟨k', h1, h2⟩ := take_at T s k hi h
    refine ⟨k', h1, h2, fun hl => ?_⟩
    exfalso
    unfold leads at hl
    split at hl <;> simp_all
  | takeAll => exact takeAll_at T s k hi h
  | report b => exact report_at T s k b hi h
  | read =>
    obtain ⟨k', h1, h2⟩ := read_at T s k h
    refine ⟨k', h1, h2, fun hl => ?_⟩
    exfalso
    unfold leads at hl
    split at hl <;> simp_all
  | readAll => exact readAll_at T s k h
  | skip => exact hs.elim

theorem run_at (T : Int) (es : List Ev) : ∀ s k, (∀ e ∈ es, Seen e ∧ Calm e) → Inv s → At T k s →
    ∃ k', k ≤ k' ∧ At T k' (s.run es) ∧ ((∃ e ∈ es, leads k e = true) → k < k') := by
  induction es with
  | nil => intro s k _ _ h; exact ⟨k, Nat.le_refl _, h, fun ⟨e, he, _⟩ => nomatch he⟩
  | cons e es ih =>
    intro s k hw hi h
    have he := hw e List.mem_cons_self
    obtain ⟨k1, h1, h2, h3⟩ := step_at T s e k he.1 he.2 hi h
    obtain ⟨k2, h4, h5, h6⟩ := ih _ k1 (fun x hx => hw x (List.mem_cons_of_mem _ hx)) (step_inv s e he.1 hi) h2
    refine ⟨k2, by omega, h5, ?_⟩
    rintro ⟨x, hx, hl⟩
    rcases List.mem_cons.1 hx with rfl | hx
    · have := h3 hl; omega
    · by_cases hk : k1 = k
      · subst hk; exact h6 ⟨x, hx, hl⟩
      · omega

theorem round_leads {es : List Ev} (h : Round es) (k : Nat) (hk : k < 6) : ∃ e ∈ es, leads k e = true := by
  obtain ⟨b, hb⟩ := h.report
  match k, hk with
  | 0, _ => exact ⟨_, h.write, rfl⟩
  | 1, _ => exact ⟨_, h.take, rfl⟩
  | 2, _ => exact ⟨_, hb, rfl⟩
  | 3, _ => exact ⟨_, h.read, rfl⟩
  | 4, _ => exact ⟨_, h.write, rfl⟩
  | 5, _ => exact ⟨_, h.take, rfl⟩
  | k + 6, hk => omega

theorem run_append (es fs : List Ev) : ∀ (s : Sys), s.run (es ++ fs) = (s.run es).run fs := by
  induction es with
  | nil => intro s; rfl
  | cons e es ih => intro s; exact ih _

theorem rounds_at (T : Int) (rs : List (List Ev)) : ∀ s k, (∀ r ∈ rs, Round r ∧ ∀ e ∈ r, Seen e ∧ Calm e) → Inv s → At T k s →
    ∃ k', At T k' (s.run rs.flatten) ∧ min 6 (k + rs.length) ≤ k' := by
  induction rs with
  | nil => intro s k _ _ h; exact ⟨k, h, by simp; omega⟩
  | cons r rs ih =>
    intro s k hr hi h
    obtain ⟨k1, h1, h2, h3⟩ := run_at T r s k (hr r List.mem_cons_self).2 hi h
    obtain ⟨k2, h4, h5⟩ := ih _ k1 (fun x hx => hr x (List.mem_cons_of_mem _ hx)) (run_inv r s (fun e he => ((hr r List.mem_cons_self).2 e he).1) hi) h2
    refine ⟨k2, ?_, ?_⟩
    · rw [List.flatten_cons, run_append]; exact h4
    · have := at_le h4
      have hk := at_le h
      simp only [List.length_cons]
      by_cases hlt : k < 6
      · have := h3 (round_leads (hr r List.mem_cons_self).1 k hlt); omega
      · omega

theorem noRepeat_snoc {l : List Int} {t : Int} (h : NoRepeat l) (ht : l.getLast? ≠ some t) : NoRepeat (l ++ [t]) := by
  intro a x b he
  rcases List.eq_nil_or_concat b with rfl | ⟨b', y, rfl⟩
  · have : l ++ [t] = (a ++ [x]) ++ [x] := by simpa using he
    obtain ⟨h1, h2⟩ := List.append_inj' this rfl
    simp at h2
    subst h2
    rw [h1] at ht
    simp at ht
  · have : l ++ [t] = (a ++ x :: x :: b') ++ [y] := by simpa using he
    obtain ⟨h1, _⟩ := List.append_inj' this rfl
    exact h a x b' h1

theorem noRepeat_prefix {l m : List Int} (h : NoRepeat l) (hm : m <+: l) : NoRepeat m := by
  obtain ⟨r, rfl⟩ := hm
  intro a x b he
  exact h a x (b ++ r) (by simp [he])

/-- the mode and what was observed of it -/
structure Obs (s : Sys) : Prop where
  p : PInv s.p s.tr
  last : s.p.last = (sentTargets s.tr).getLast?
  chain : NoRepeat (sentTargets s.tr)
  given : ∀ t ∈ sentTargets s.tr, ∃ v, PObs.given v true ∈ s.tr ∧ Stored (-2147483648) 2147483647 v t

theorem inForce_given (tr : List PObs) (v : Dbl) (h : inForce tr = some v) : PObs.given v true ∈ tr := by
  have : ∀ (l : List PObs) (g : Option Dbl),
      l.foldl (fun g o => match o with | .started => none | .given v true => some v | _ => g) g = some v → g = some v ∨ PObs.given v true ∈ l := by
    intro l
    induction l with
    | nil => intro g hg; exact .inl hg
    | cons o l ih =>
      intro g hg
      rw [List.foldl_cons] at hg
      rcases ih _ hg with h1 | h1
      · cases o with
        | started => cases h1
        | given w b =>
          cases b with
          | false => exact .inl h1
          | true => cases h1; exact .inr List.mem_cons_self
        | status _ => exact .inl h1
        | wrote _ _ _ => exact .inl h1
      · exact .inr (List.mem_cons_of_mem _ h1)
  rcases this tr none h with h | h
  · cases h
  · exact h

theorem quiet_obs (s : Sys) (e : PEv) (h : Obs s) (hl : (pstep (s.p, s.cw) e).1.1.last = s.p.last) (hs : sentTargets (pstep (s.p, s.cw) e).2 = []) : Obs (s.mode e) := by
  have hp := pinv_step (s := (s.p, s.cw)) h.p e
  have he : sentTargets (s.mode e).tr = sentTargets s.tr := by simp only [Sys.mode]; rw [sent_app, hs, List.append_nil]
  refine ⟨hp, ?_, ?_, ?_⟩
  · rw [he, ← h.last]; exact hl
  · rw [he]; exact h.chain
  · rw [he]; intro t ht
    obtain ⟨v, hv, hs⟩ := h.given t ht
    exact ⟨v, List.mem_append_left _ hv, hs⟩

theorem write_obs (s : Sys) (h : Obs s) : Obs (s.step .write) := by
  have hp := pinv_step (s := (s.p, s.cw)) h.p .write
  have hl := (pwrite_last s.p s.cw).2.2
  cases hs : (s.p.write s.cw).2.2.2 with
  | none =>
    rw [hs] at hl
    have := quiet_obs s .write h hl (by simp [pstep, hs, sentTargets])
    exact ⟨this.p, this.last, this.chain, this.given⟩
  | some t =>
    rw [hs] at hl
    have he : sentTargets (s.step .write).tr = sentTargets s.tr ++ [t] := by
      simp only [Sys.step, Sys.mode]; rw [sent_app]; simp [pstep, hs, sentTargets]
    have hq : s.p.t.has = true ∧ s.p.last ≠ some t ∧ t = s.p.t.target := by
      rcases pwrite_cases s.p s.cw with ⟨a1, a2, a3, a4, a5, a6⟩ | ⟨a1, a2, a3, a4, a5, a6⟩ | ⟨a1, a2, a5, a6⟩ | ⟨a1, a2, a3, a5, a6⟩ | ⟨a1, a5, a6⟩
        <;> rw [hs] at a6 <;> simp at a6
      subst a6; exact ⟨a1, a3, rfl⟩
    refine ⟨hp, ?_, ?_, ?_⟩
    · rw [he, List.getLast?_concat]; exact hl
    · rw [he]
      exact noRepeat_snoc h.chain (by rw [← h.last]; exact hq.2.1)
    · rw [he]
      intro u hu
      rcases List.mem_append.1 hu with hu | hu
      · obtain ⟨v, hv, hs⟩ := h.given u hu
        exact ⟨v, List.mem_append_left _ hv, hs⟩
      · cases List.mem_singleton.1 hu
        have hh := h.p.has
        rw [hq.1] at hh
        cases hf : inForce s.tr with
        | none => rw [hf] at hh; simp at hh
        | some v =>
          refine ⟨v, List.mem_append_left _ (inForce_given _ _ hf), ?_⟩
          rw [hq.2.2]
          exact h.p.val v hf

theorem take_obs (s : Sys) (h : Obs s) : Obs s.take := by
  unfold Sys.take
  split
  · exact h
  · exact ⟨h.p, h.last, h.chain, h.given⟩

theorem read_obs (s : Sys) (h : Obs s) : Obs s.read := by
  unfold Sys.read
  split
  · exact h
  · rename_i w q _
    exact quiet_obs { s with back := q } (.read w) ⟨h.p, h.last, h.chain, h.given⟩ rfl rfl

theorem step_obs (s : Sys) (e : Ev) (h : Obs s) : Obs (s.step e) := by
  cases e with
  | target v => exact quiet_obs s (.target v) h rfl rfl
  | write => exact write_obs s h
  | other w =>
    simp only [Sys.step]
    split
    · exact ⟨h.p, h.last, h.chain, h.given⟩
    · exact h
  | take => exact take_obs s h
  | takeAll => exact times_inv take_obs _ s h
  | report b => exact ⟨h.p, h.last, h.chain, h.given⟩
  | read => exact read_obs s h
  | readAll => exact times_inv read_obs _ s h
  | skip =>
    simp only [Sys.step]
    split
    · exact ⟨h.p, h.last, h.chain, h.given⟩
    · exact h

theorem run_obs (es : List Ev) : ∀ s, Obs s → Obs (s.run es) := by
  induction es with
  | nil => intro s h; exact h
  | cons e es ih => intro s h; exact ih _ (step_obs s e h)

theorem begins_obs (p : ProfPos) (cw : BitVec 16) (obj : Int) (ack : Bool) (hlo : p.t.lo = -2147483648) (hhi : p.t.hi = 2147483647) : Obs (begins p cw obj ack) :=
  ⟨⟨hlo, hhi, rfl, rfl, rfl, by intro v hv; simp [begins, inForce] at hv⟩, rfl, by intro a x b; simp [begins, sentTargets], by intro t ht; simp [begins, sentTargets] at ht⟩

theorem at_of {s : Sys} {v : Dbl} {T : Int} (h : Obs s) (hv : inForce s.tr = some v) (hT : s.p.t.target = T) : ∃ k, At T k s := by
  have hh : s.p.t.has = true := by rw [h.p.has, hv]; rfl
  by_cases hl : s.p.last = some T
  · exact ⟨5, hh, hT, hl, by rw [← h.last]; exact hl⟩
  · cases hb : newSetPoint s.cw with
    | true => exact ⟨0, hh, hT, hl, hb⟩
    | false => exact ⟨1, hh, hT, hl, hb⟩

theorem at_6 {s : Sys} {T : Int} {k : Nat} (h : At T k s) (hk : 6 ≤ k) : s.drive.adopted = sentTargets s.tr ∧ (sentTargets s.tr).getLast? = some T := by
  have := at_le h
  have : k = 6 := by omega
  subst this
  exact ⟨h.2.2.2.2, h.2.2.2.1⟩

/-! ### A command that got lost or has arrived -/

/-- the target was sent, and the drive will see no raised bit -/
structure Lost (s : Sys) : Prop where
  has : s.p.t.has = true
  last : s.p.last = some s.p.t.target
  none : edges s.drive.was s.out = []
  bit : lastBit s.drive.was s.out = newSetPoint s.cw

theorem edges_skip (b : Bool) (x y : BitVec 16 × Int) (q : List (BitVec 16 × Int)) (h : edges b (x :: y :: q) = []) : edges b (y :: q) = [] := by
  simp only [edges] at h ⊢
  cases b <;> cases hx : newSetPoint x.1 <;> cases hy : newSetPoint y.1 <;> simp_all

theorem take_lost (s : Sys) (h : Lost s) : Lost s.take ∧ s.take.drive.adopted = s.drive.adopted := by
  unfold Sys.take
  cases ho : s.out with
  | nil => exact ⟨h, rfl⟩
  | cons x q =>
    have h3 := h.none
    have h4 := h.bit
    rw [ho] at h3 h4
    simp only [edges, lastBit] at h3 h4
    unfold Drive.take
    cases hx : newSetPoint x.1 with
    | false =>
      rw [hx] at h3 h4
      refine ⟨⟨h.has, h.last, ?_, ?_⟩, ?_⟩ <;> simp_all
    | true =>
      have hw : s.drive.was = true := by
        cases hw : s.drive.was with
        | true => rfl
        | false => simp [hx, hw] at h3
      rw [hx, hw] at h3
      rw [hx] at h4
      refine ⟨⟨h.has, h.last, ?_, ?_⟩, ?_⟩ <;> simp_all

theorem read_lost (s : Sys) (h : Lost s) : Lost s.read ∧ s.read.drive.adopted = s.drive.adopted := by
  unfold Sys.read
  split
  · exact ⟨h, rfl⟩
  · exact ⟨⟨h.has, h.last, h.none, h.bit⟩, rfl⟩

theorem times_lost {f : Sys → Sys} (hf : ∀ s, Lost s → Lost (f s) ∧ (f s).drive.adopted = s.drive.adopted) (n : Nat) :
    ∀ s, Lost s → Lost (times f n s) ∧ (times f n s).drive.adopted = s.drive.adopted := by
  induction n with
  | zero => intro s h; exact ⟨h, rfl⟩
  | succ n ih => intro s h; exact ⟨(ih _ (hf s h).1).1, (ih _ (hf s h).1).2.trans (hf s h).2⟩

theorem step_lost (s : Sys) (e : Ev) (hc : Calm e) (h : Lost s) : Lost (s.step e) ∧ (s.step e).drive.adopted = s.drive.adopted := by
  cases e with
  | target v => exact hc.elim
  | write =>
    refine ⟨?_, rfl⟩
    have hw := pwrite_last s.p s.cw
    have hb := h.bit
    have hn := h.none
    rcases pwrite_cases s.p s.cw with ⟨a1, a2, a3, a4, a5, a6⟩ | ⟨a1, a2, a3, a4, a5, a6⟩ | ⟨a1, a2, a5, a6⟩ | ⟨a1, a2, a3, a5, a6⟩ | ⟨a1, a5, a6⟩
    · exact absurd h.last a3
    · exact absurd h.last a3
    · rw [a6] at hw
      refine ⟨by simp [Sys.step, Sys.mode, pstep, hw.1, h.has], by simp [Sys.step, Sys.mode, pstep, hw.1, hw.2.2, h.last], ?_, ?_⟩
      · simp only [Sys.step, Sys.mode, pstep, edges_snoc, a5, hn]; rfl
      · simp only [Sys.step, Sys.mode, pstep, lastBit_snoc]
    · rw [a6] at hw
      refine ⟨by simp [Sys.step, Sys.mode, pstep, hw.1, h.has], by simp [Sys.step, Sys.mode, pstep, hw.1, hw.2.2, h.last], ?_, ?_⟩
      · simp only [Sys.step, Sys.mode, pstep, edges_snoc, a5, hn, hb]; cases newSetPoint s.cw <;> rfl
      · simp only [Sys.step, Sys.mode, pstep, lastBit_snoc]
    · rw [h.has] at a1; cases a1
  | other w =>
    simp only [Sys.step]
    split
    · rename_i hw
      exact ⟨⟨h.has, h.last, h.none, h.bit.trans hw.symm⟩, rfl⟩
    · exact ⟨h, rfl⟩
  | take => exact take_lost s h
  | takeAll => exact times_lost take_lost _ s h
  | report b => exact ⟨⟨h.has, h.last, h.none, h.bit⟩, rfl⟩
  | read => exact read_lost s h
  | readAll => exact times_lost read_lost _ s h
  | skip =>
    simp only [Sys.step]
    split
    · rename_i x y q ho
      have h3 := h.none
      have h4 := h.bit
      rw [ho] at h3 h4
      exact ⟨⟨h.has, h.last, edges_skip _ _ _ _ h3, h4⟩, rfl⟩
    · exact ⟨h, rfl⟩

theorem run_lost (es : List Ev) : ∀ s, (∀ e ∈ es, Calm e) → Lost s → (s.run es).drive.adopted = s.drive.adopted := by
  induction es with
  | nil => intro s _ _; rfl
  | cons e es ih =>
    intro s hc h
    obtain ⟨h1, h2⟩ := step_lost s e (hc e List.mem_cons_self) h
    exact (ih _ (fun x hx => hc x (List.mem_cons_of_mem _ hx)) h1).trans h2

theorem lost_of_6 {s : Sys} {T : Int} {k : Nat} (hi : Inv s) (h : At T k s) (hk : 6 ≤ k) : Lost s := by
  have := at_le h
  have : k = 6 := by omega
  subst this
  obtain ⟨h1, h2, h3, _, h5⟩ := h
  refine ⟨h1, by rw [h3, h2], ?_, hi.bit⟩
  have := hi.adopted
  rw [h5] at this
  exact List.append_cancel_left (this.trans (List.append_nil _).symm)

end Verif.Spec.SetPoint
