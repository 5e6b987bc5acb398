import Verif.Spec.Axis
import Verif.Lemmas.Pdo
import Verif.Lemmas.PdoRx
import Verif.Lemmas.Motor
import Verif.Lemmas.HandleCycle

/-!
# Lemmas about an axis
-/

namespace Verif.Axis
open Verif Verif.Pdo Verif.Spec.Pdo Verif.Spec.Axis

/-! ### numbers -/

theorem ofBytes_eq (bs : List Byte) : ofBytes bs = unsigned bs := by
  induction bs with
  | nil => rfl
  | cons b bs ih => simp [ofBytes, unsigned, ih]

theorem toBytes_length (w : Nat) (n : Int) : (toBytes w n).length = w := by
  induction w generalizing n with
  | zero => rfl
  | succ w ih => simp [toBytes, ih]

theorem split_mod (n : Int) (P : Nat) (hP : 0 < P) : n % (256 * (P : Int)) = n % 256 + 256 * (n / 256 % P) := by
  have h1 : 256 * (n / 256) + n % 256 = n := Int.mul_ediv_add_emod n 256
  have h2 : (P : Int) * (n / 256 / P) + n / 256 % P = n / 256 := Int.mul_ediv_add_emod (n / 256) P
  have h3 := Int.emod_nonneg (n / 256) (show (P : Int) ≠ 0 by omega)
  have h4 := Int.emod_lt_of_pos (n / 256) (show (0 : Int) < P by omega)
  have h5 : n = (n % 256 + 256 * (n / 256 % P)) + 256 * (P : Int) * (n / 256 / P) := by
    rw [Int.mul_assoc]; omega
  conv => lhs; rw [h5]
  rw [Int.add_mul_emod_self_left, Int.emod_eq_of_lt (by omega) (by omega)]

theorem unsigned_toBytes (w : Nat) (n : Int) : (unsigned (toBytes w n) : Int) = n % (256 ^ w : Nat) := by
  induction w generalizing n with
  | zero => simp [toBytes, unsigned, Int.emod_one]
  | succ w ih =>
    have h1 : unsigned (toBytes (w + 1) n) = (BitVec.ofInt 8 n).toNat + 256 * unsigned (toBytes w (n / 256)) := rfl
    rw [h1, Int.natCast_add, Int.natCast_mul, ih, BitVec.toNat_ofInt]
    have h2 : ((n % ((2 ^ 8 : Nat) : Int)).toNat : Int) = n % 256 := by omega
    have h3 : ((256 ^ (w + 1) : Nat) : Int) = 256 * (256 ^ w : Nat) := by rw [Nat.pow_succ, Int.natCast_mul]; exact Int.mul_comm _ _
    rw [h2, h3]
    exact (split_mod n (256 ^ w) (Nat.pow_pos (by decide))).symm

theorem signed_toBytes (w : Nat) (n : Int) (h0 : -(256 ^ w : Int) ≤ 2 * n) (h1 : 2 * n < 256 ^ w) : signed (toBytes w n) = n := by
  have hu := unsigned_toBytes w n
  unfold signed
  rw [toBytes_length]
  have hp : ((256 ^ w : Nat) : Int) = 256 ^ w := Int.natCast_pow 256 w
  have hpos : (0 : Int) < (256 ^ w : Nat) := Int.natCast_pos.mpr (Nat.pow_pos (by decide))
  rw [← hp] at h0 h1
  generalize (256 ^ w : Nat) = P at *
  generalize unsigned (toBytes w n) = u at *
  by_cases hn : 0 ≤ n
  · rw [Int.emod_eq_of_lt hn (by omega)] at hu
    rw [if_pos (by omega)]; exact hu
  · have : n % (P : Int) = n + P := by
      rw [← Int.add_emod_right, Int.emod_eq_of_lt (by omega) (by omega)]
    rw [this] at hu
    rw [if_neg (by omega)]; omega

theorem word_toBytes (w : BitVec 16) : BitVec.ofNat 16 (unsigned (toBytes 2 w.toNat)) = w := by
  have h := unsigned_toBytes 2 w.toNat
  have hw := w.isLt
  rw [Int.emod_eq_of_lt (by omega) (by show _ < (65536 : Int); omega)] at h
  have : unsigned (toBytes 2 w.toNat) = w.toNat := by omega
  rw [this]; simp

/-! ### a whole cycle of a TPDO -/

theorem atTurn_replicate (n : Nat) (h : List TOp) (h0 : picks h % n = 0) (j i : Nat) (hj : j ≤ n) (hi : i < j) :
    atTurn n i (List.replicate j .pick ++ h) = some (List.replicate i .pick ++ h) := by
  induction j with
  | zero => omega
  | succ j ih =>
    rw [List.replicate_succ, List.cons_append]
    have hp : picks (List.replicate j TOp.pick ++ h) % n = j := by
      have : ∀ j, picks (List.replicate j TOp.pick ++ h) = j + picks h := by
        intro j; induction j with
        | zero => simp
        | succ j ih => rw [List.replicate_succ, List.cons_append, picks, ih]; omega
      rw [this, Nat.add_mod, h0, Nat.add_zero, Nat.mod_mod, Nat.mod_eq_of_lt (by omega)]
    rw [atTurn, hp]
    by_cases hij : j = i
    · rw [if_pos hij, hij]
    · rw [if_neg hij]; exact ih (by omega) (by omega)

theorem latest_replicate (sizes init i j) (h : List TOp) : latest sizes init i (List.replicate j .pick ++ h) = latest sizes init i h := by
  induction j with
  | zero => rfl
  | succ j ih => rw [List.replicate_succ, List.cons_append, latest, ih]

theorem picks_replicate' (j : Nat) (h : List TOp) : picks (List.replicate j TOp.pick ++ h) = j + picks h := by
  induction j with
  | zero => simp
  | succ j ih => rw [List.replicate_succ, List.cons_append, picks, ih]; omega

theorem written_replicate (sizes : List Nat) (i : Nat) (h : List TOp) (h0 : picks h % sizes.length = 0) (j : Nat) (hj : j ≤ sizes.length) :
    written sizes i (List.replicate j .pick ++ h) ↔ j ≤ i ∧ written sizes i h := by
  induction j with
  | zero => simp
  | succ j ih =>
    rw [List.replicate_succ, List.cons_append, written, ih (by omega), picks_replicate']
    have : (j + picks h) % sizes.length = j := by
      rw [Nat.add_mod, h0, Nat.add_zero, Nat.mod_mod, Nat.mod_eq_of_lt (by omega)]
    rw [this]
    constructor
    · rintro ⟨a, b, c⟩; exact ⟨by omega, c⟩
    · rintro ⟨a, c⟩; exact ⟨by omega, by omega, c⟩

theorem send_spec (sizes : List Nat) (init) (hsum : sizes.sum ≤ 8) (hn : sizes ≠ []) (hdr : Header) (s : TSched) (h : List TOp)
    (inv : TInv sizes init hdr s h) (h0 : picks h % sizes.length = 0) :
    ∃ s' outs, s.run (List.replicate sizes.length .pick) = .ok (s', outs) ∧ TInv sizes init hdr s' (List.replicate sizes.length .pick ++ h) ∧
      (outs.findSome? id ≠ none ↔ ∃ i, i < sizes.length ∧ written sizes i h) ∧
      ∀ f, outs.findSome? id = some f → ∀ i, i < sizes.length → ∀ v, latest sizes init i h = some v → slice sizes i f = v := by
  have hn0 : 0 < sizes.length := List.length_pos_iff.mpr hn
  have hall : ∀ j, j < sizes.length → ∃ s' outs, s.run (List.replicate j .pick) = .ok (s', outs) ∧
      TInv sizes init hdr s' (List.replicate j .pick ++ h) ∧ outs.findSome? id = none := by
    intro j
    induction j with
    | zero => intro _; exact ⟨s, [], rfl, inv, rfl⟩
    | succ j ih =>
      intro hj
      obtain ⟨s1, outs, h1, h2, h3⟩ := ih (by omega)
      obtain ⟨s2, out, h4, h5, h6, h7⟩ := tinv_pick _ _ hsum hn _ s1 _ h2
      refine ⟨s2, outs ++ [out], ?_, ?_, ?_⟩
      · rw [List.replicate_succ']; exact run_append _ _ _ _ _ h1 _ _ h4
      · rw [List.replicate_succ]; exact h5
      · cases out with
        | none => simp [h3]
        | some f =>
          have := (h6 f rfl).1
          rw [picks, picks_replicate', show j + picks h + 1 = (j + 1) + picks h by omega, Nat.add_mod, h0, Nat.add_zero, Nat.mod_mod,
            Nat.mod_eq_of_lt hj] at this
          omega
  obtain ⟨s1, outs, h1, h2, h3⟩ := hall (sizes.length - 1) (by omega)
  obtain ⟨s2, out, h4, h5, h6, h7⟩ := tinv_pick _ _ hsum hn _ s1 _ h2
  have e : TOp.pick :: (List.replicate (sizes.length - 1) .pick ++ h) = List.replicate sizes.length .pick ++ h := by
    rw [← List.cons_append, ← List.replicate_succ, Nat.sub_add_cancel hn0]
  rw [e] at h5 h6 h7
  have hf : (outs ++ [out]).findSome? id = out := by
    rw [List.findSome?_append, h3]; cases out <;> rfl
  have hz : picks (List.replicate sizes.length TOp.pick ++ h) % sizes.length = 0 := by
    rw [picks_replicate', Nat.add_mod_left, h0]
  refine ⟨s2, outs ++ [out], ?_, h5, ?_, ?_⟩
  · have := run_append _ _ _ _ _ h1 _ _ h4
    rwa [← List.replicate_succ', Nat.sub_add_cancel hn0] at this
  · rw [hf]
    constructor
    · intro ho
      cases out with
      | none => exact absurd rfl ho
      | some f =>
        obtain ⟨-, ⟨i, hi, r, h8, h9⟩, -⟩ := h6 f rfl
        rw [atTurn_replicate _ _ h0 _ _ (Nat.le_refl _) hi] at h8
        cases h8
        exact ⟨i, hi, ((written_replicate sizes i h h0 i (by omega)).1 h9).2⟩
    · rintro ⟨i, hi, hw⟩
      exact h7 hz ⟨i, hi, _, atTurn_replicate _ _ h0 _ _ (Nat.le_refl _) hi, (written_replicate sizes i h h0 i (by omega)).2 ⟨Nat.le_refl _, hw⟩⟩
  · rw [hf]
    intro f hff i hi v hv
    obtain ⟨-, -, -, -, h8⟩ := h6 f hff
    exact h8 i hi _ v (atTurn_replicate _ _ h0 _ _ (Nat.le_refl _) hi) (by rw [latest_replicate]; exact hv)

/-! ### the events of the motor -/

/-- the event at the motor for an observation at the handle -/
def ofOut : Cyc.Out → Option M402.Ev
  | .sent _ v => some (.setTarget v)
  | _ => none

/-- what happens to the motor in a step of the axis -/
def mev (L : Layout) (conv : Rob.Kind → M402.Dbl → M402.Dbl) (a : Axis) : Ev → List M402.Ev
  | .joint e => (Cyc.step conv a.c e).2.filterMap ofOut
  | .service e => if isService e then [e] else []
  | .read =>
    match a.rx.read L.sw a.sw with
    | .ok (r, sw) =>
      match r.read L.disp a.disp with
      | .ok (_, disp) => [.read (BitVec.ofNat 16 (ofBytes sw)) (BitVec.ofNat 8 (ofBytes disp))]
      | _ => []
    | _ => []
  | .write => [.write]
  | _ => []

def mevs (L : Layout) (conv : Rob.Kind → M402.Dbl → M402.Dbl) (a : Axis) : List Ev → List M402.Ev
  | [] => []
  | e :: es => mev L conv a e ++ (match step L conv a e with | .ok (b, _) => mevs L conv b es | _ => [])

theorem run_append {L conv a p q b os} (h : run L conv a p = .ok (b, os)) :
    run L conv a (p ++ q) = (match run L conv b q with | .ok (c, os') => .ok (c, os ++ os') | .throws x => .throws x | .ub => .ub) := by
  induction p generalizing a os with
  | nil =>
    simp only [run] at h; cases h
    simp only [List.nil_append]
    cases run L conv b q <;> rfl
  | cons e p ih =>
    simp only [run, List.cons_append] at h ⊢
    cases hs : step L conv a e with
    | throws x => rw [hs] at h; simp at h
    | ub => rw [hs] at h; simp at h
    | ok r =>
      obtain ⟨b1, o⟩ := r
      rw [hs] at h
      simp only at h ⊢
      cases hr : run L conv b1 p with
      | throws x => rw [hr] at h; simp at h
      | ub => rw [hr] at h; simp at h
      | ok r =>
        obtain ⟨c, os1⟩ := r
        rw [hr] at h
        simp only [Outcome.ok.injEq, Prod.mk.injEq] at h
        obtain ⟨rfl, rfl⟩ := h
        rw [ih hr]
        cases run L conv c q <;> rfl

theorem mevs_append {L conv a p q b os} (h : run L conv a p = .ok (b, os)) : mevs L conv a (p ++ q) = mevs L conv a p ++ mevs L conv b q := by
  induction p generalizing a os with
  | nil => simp only [run] at h; cases h; rfl
  | cons e p ih =>
    simp only [run, List.cons_append, mevs] at h ⊢
    cases hs : step L conv a e with
    | throws x => rw [hs] at h; simp at h
    | ub => rw [hs] at h; simp at h
    | ok r =>
      obtain ⟨b1, o⟩ := r
      rw [hs] at h
      simp only at h ⊢
      cases hr : run L conv b1 p with
      | throws x => rw [hr] at h; simp at h
      | ub => rw [hr] at h; simp at h
      | ok r =>
        obtain ⟨c, os1⟩ := r
        rw [hr] at h
        simp only [Outcome.ok.injEq, Prod.mk.injEq] at h
        obtain ⟨rfl, rfl⟩ := h
        rw [ih hr, List.append_assoc]

theorem mrun_append (m : M402.Motor) (a b : List M402.Ev) : (m.run (a ++ b)).1 = ((m.run a).1.run b).1 := (M402.run_append a b m).1

theorem targets_eq (m : M402.Motor) (os : List Cyc.Out) : targets m os = (m.run (os.filterMap ofOut)).1 := by
  induction os generalizing m with
  | nil => rfl
  | cons o os ih =>
    cases o with
    | sent k v => exact ih (m.setTarget v).1
    | _ => exact ih m

/-- the motor of an axis sees exactly these events -/
theorem motor_step {L conv a e b o} (h : step L conv a e = .ok (b, o)) : b.m = (a.m.run (mev L conv a e)).1 := by
  cases e with
  | joint e => simp only [step] at h; cases h; exact targets_eq _ _
  | service e =>
    simp only [step] at h
    simp only [mev]
    split at h
    · cases h; rename_i hi; rw [if_pos hi]; rfl
    · cases h; rename_i hi; rw [if_neg hi]; rfl
  | frame f =>
    simp only [step] at h
    split at h <;> cases h
    rfl
  | read =>
    simp only [step] at h
    simp only [mev]
    cases h1 : a.rx.read L.sw a.sw with
    | ub => rw [h1] at h; cases h
    | throws x => rw [h1] at h; cases h; rfl
    | ok r =>
      obtain ⟨r, sw⟩ := r
      rw [h1] at h
      simp only at h ⊢
      cases h2 : r.read L.disp a.disp with
      | ub => rw [h2] at h; cases h
      | throws x => rw [h2] at h; cases h; rfl
      | ok r => rw [h2] at h; cases h; rfl
  | write =>
    simp only [step] at h
    split at h <;> cases h
    rfl
  | object i v =>
    simp only [step] at h
    split at h <;> cases h
    rfl
  | send =>
    simp only [step] at h
    split at h <;> cases h
    rfl

theorem motor_run {L conv a es b os} (h : run L conv a es = .ok (b, os)) : b.m = (a.m.run (mevs L conv a es)).1 := by
  induction es generalizing a os with
  | nil => simp only [run] at h; cases h; rfl
  | cons e es ih =>
    simp only [run] at h
    cases hs : step L conv a e with
    | throws x => rw [hs] at h; simp at h
    | ub => rw [hs] at h; simp at h
    | ok r =>
      obtain ⟨b1, o⟩ := r
      rw [hs] at h
      simp only at h
      cases hr : run L conv b1 es with
      | throws x => rw [hr] at h; simp at h
      | ub => rw [hr] at h; simp at h
      | ok r =>
        obtain ⟨c, os1⟩ := r
        rw [hr] at h
        simp only [Outcome.ok.injEq, Prod.mk.injEq] at h
        obtain ⟨rfl, rfl⟩ := h
        rw [ih hr, motor_step hs, mevs, hs, mrun_append]

/-! ### the invariant -/

theorem lastFrame_append (os : List (Option Frame)) (o : Option Frame) : lastFrame (os ++ [o]) = o.or (lastFrame os) := by
  induction os with
  | nil => cases o <;> rfl
  | cons x os ih => simp only [List.cons_append, lastFrame, ih]; cases o <;> rfl

/-- what the storage holds of an object of the RPDO -/
structure Held (sizes : List Nat) (init : Nat → Option (List Byte)) (i : Nat) (rh : List ROp) (es : List Ev) (bs : List Byte) : Prop where
  len : bs.length = sizes.getD i 0
  rcv : received sizes i rh = heard sizes i es.reverse
  old : ¬ news sizes i rh → ∀ v, (heard sizes i es.reverse).or (init i) = some v → bs = v

structure Inv (L : Layout) (es : List Ev) (a : Axis) (outs : List (Option Frame)) (mh : List M402.Ev) (pd : Option (Nat × List Byte)) : Prop where
  tx : ∃ th, TInv (sizesOf L.tx) (initOf L.tx) L.f0.toHeader a.tx th ∧ picks th % (sizesOf L.tx).length = 0 ∧
    latest (sizesOf L.tx) (initOf L.tx) L.cw th = a.cw ∧
    (∀ j v, pd = some (j, v) → j < L.tx.length ∧ latest (sizesOf L.tx) (initOf L.tx) j th = some v ∧ written (sizesOf L.tx) j th) ∧
    (¬ written (sizesOf L.tx) L.cw th → ∀ v, a.cw = some v →
      (lastFrame outs = none → initOf L.tx L.cw = some v) ∧ ∀ f, lastFrame outs = some f → slice (sizesOf L.tx) L.cw f = v)
  rx : ∃ rh, RInv (sizesOf L.rx) (initOf L.rx) a.rx rh ∧ Held (sizesOf L.rx) (initOf L.rx) L.sw rh es a.sw ∧
    Held (sizesOf L.rx) (initOf L.rx) L.disp rh es a.disp
  word : Spec.M402.lastWord mh = (seen (sizesOf L.rx) (initOf L.rx) L.sw es.reverse).map fun bs => BitVec.ofNat 16 (unsigned bs)
  disp : Spec.M402.lastDisplay mh =
    (seen (sizesOf L.rx) (initOf L.rx) L.disp es.reverse).map fun bs => ((BitVec.ofNat 8 (unsigned bs)).signExtend 16).toNat

theorem inv_init (L : Layout) (m0 : M402.Motor) (ok : Ok L m0) (c0 : Cyc.St) : Inv L [] (Axis.fresh L c0 m0) [] [] none := by
  refine ⟨⟨[], tinv_init L.tx ok.tx.2.2 L.f0 ok.dlc, rfl, rfl, (fun _ _ h => nomatch h), ?_⟩, ⟨[], rinv_init L.rx ok.rx.2.2 L.g0 L.ty, ?_, ?_⟩, rfl, rfl⟩
  · intro _ v hv
    exact ⟨fun _ => hv, fun f hf => by simp [lastFrame] at hf⟩
  all_goals
    have hlen : ∀ i n, (sizesOf L.rx).getD i 0 = n → i < L.rx.length →
        (((L.rx[i]?).bind Obj.init).getD (List.replicate n 0#8)).length = n := by
      intro i n hn hi
      cases ho : (L.rx[i]?).bind Obj.init with
      | none => simp
      | some v =>
        rw [List.getElem?_eq_getElem hi] at ho
        have := ok.rx.2.2 _ (List.getElem_mem hi) v ho
        simp only [Option.getD_some, this]
        rw [← hn]
        simp [sizesOf, List.getD, hi]
    have hold : ∀ i n v, (none : Option (List Byte)).or (initOf L.rx i) = some v → ((L.rx[i]?).bind Obj.init).getD (List.replicate n 0#8) = v := by
      intro i n v hv
      have : (L.rx[i]?).bind Obj.init = some v := hv
      rw [this]; rfl
  · exact ⟨by rw [ok.sw.2]; exact hlen _ _ ok.sw.2 ok.sw.1, rfl, fun _ v hv => hold _ 2 v hv⟩
  · exact ⟨by rw [ok.disp.2]; exact hlen _ _ ok.disp.2 ok.disp.1, rfl, fun _ v hv => hold _ 1 v hv⟩

theorem lastWord_append (a b : List M402.Ev) : Spec.M402.lastWord (a ++ b) = (Spec.M402.lastWord b).or (Spec.M402.lastWord a) := by
  have : ∀ (b : List M402.Ev) (x : Option (BitVec 16)), b.foldl (fun s e => match e with | .read sw _ => some sw | _ => s) x =
      (b.foldl (fun s e => match e with | .read sw _ => some sw | _ => s) none).or x := by
    intro b
    induction b with
    | nil => intro x; rfl
    | cons e b ih =>
      intro x
      simp only [List.foldl_cons]
      cases e <;> first | exact ih x | (rw [ih (some _)]; simp)
  unfold Spec.M402.lastWord
  rw [List.foldl_append]
  exact this b _

theorem lastDisplay_append (a b : List M402.Ev) :
    Spec.M402.lastDisplay (a ++ b) = (Spec.M402.lastDisplay b).or (Spec.M402.lastDisplay a) := by
  have : ∀ (b : List M402.Ev) (x : Option Nat), b.foldl (fun s e => match e with | .read _ d => some (d.signExtend 16).toNat | _ => s) x =
      (b.foldl (fun s e => match e with | .read _ d => some (d.signExtend 16).toNat | _ => s) none).or x := by
    intro b
    induction b with
    | nil => intro x; rfl
    | cons e b ih =>
      intro x
      simp only [List.foldl_cons]
      cases e <;> first | exact ih x | (rw [ih (some _)]; simp)
  unfold Spec.M402.lastDisplay
  rw [List.foldl_append]
  exact this b _

theorem no_reads (b : List M402.Ev) (h : ∀ sw d, M402.Ev.read sw d ∉ b) : Spec.M402.lastWord b = none ∧ Spec.M402.lastDisplay b = none := by
  induction b with
  | nil => exact ⟨rfl, rfl⟩
  | cons e b ih =>
    obtain ⟨h1, h2⟩ := ih fun sw d hm => h sw d (List.mem_cons_of_mem _ hm)
    have e1 : e :: b = [e] ++ b := rfl
    rw [e1, lastWord_append, lastDisplay_append, h1, h2]
    cases e with
    | read sw d => exact absurd List.mem_cons_self (h sw d)
    | _ => exact ⟨rfl, rfl⟩

/-- a step that does not touch the PDOs -/
theorem inv_quiet {L : Layout} {es : List Ev} {a : Axis} {outs : List (Option Frame)} {mh : List M402.Ev} {pd} (inv : Inv L es a outs mh pd)
    (e : Ev) (he : (∃ x, e = .joint x) ∨ ∃ x, e = .service x) (c : Cyc.St) (m : M402.Motor) (ms : List M402.Ev)
    (hm : ∀ sw d, M402.Ev.read sw d ∉ ms) :
    Inv L (es ++ [e]) { a with c := c, m := m } (outs ++ [none]) (mh ++ ms) pd := by
  have hh : ∀ i, heard (sizesOf L.rx) i (es ++ [e]).reverse = heard (sizesOf L.rx) i es.reverse := by
    intro i; rw [List.reverse_append]; rcases he with ⟨x, rfl⟩ | ⟨x, rfl⟩ <;> rfl
  have hs : ∀ i, seen (sizesOf L.rx) (initOf L.rx) i (es ++ [e]).reverse = seen (sizesOf L.rx) (initOf L.rx) i es.reverse := by
    intro i; rw [List.reverse_append]; rcases he with ⟨x, rfl⟩ | ⟨x, rfl⟩ <;> rfl
  obtain ⟨n1, n2⟩ := no_reads ms hm
  refine ⟨?_, ?_, ?_, ?_⟩
  · obtain ⟨th, h1, h2, h3, h4, h5⟩ := inv.tx
    refine ⟨th, h1, h2, h3, h4, ?_⟩
    rw [lastFrame_append]; exact h5
  · obtain ⟨rh, h1, h2, h3⟩ := inv.rx
    exact ⟨rh, h1, ⟨h2.len, by rw [hh]; exact h2.rcv, by rw [hh]; exact h2.old⟩, ⟨h3.len, by rw [hh]; exact h3.rcv, by rw [hh]; exact h3.old⟩⟩
  · rw [lastWord_append, n1, hs]; exact inv.word
  · rw [lastDisplay_append, n2, hs]; exact inv.disp

theorem rread_of_step {r r' : Rpdo} {i data v} (h : r.step (.read i data) = .ok (r', some (.ok v))) : r.read i data = .ok (r', v) := by
  simp only [Rpdo.step] at h
  cases hr : r.read i data with
  | ok q => rw [hr] at h; simp only [Outcome.ok.injEq, Prod.mk.injEq, Option.some.injEq] at h; rw [← h.1, ← h.2]
  | throws x => rw [hr] at h; simp at h
  | ub => rw [hr] at h; simp at h

theorem rread_throws_of_step {r r' : Rpdo} {i data v} (h : r.step (.read i data) = .ok (r', some (.throws v))) : r.read i data = .throws v := by
  simp only [Rpdo.step] at h
  cases hr : r.read i data with
  | ok q => rw [hr] at h; simp at h
  | throws x => rw [hr] at h; simp at h; rw [h.2]
  | ub => rw [hr] at h; simp at h

theorem seen_none (sizes : List Nat) (init : Nat → Option (List Byte)) (i : Nat) (h : List Ev) (h0 : heard sizes i h = none) (h1 : init i = none) :
    seen sizes init i h = none := by
  induction h with
  | nil => rfl
  | cons e h ih =>
    cases e with
    | frame f => simp [heard] at h0
    | read =>
      have h0 : heard sizes i h = none := h0
      simp [seen, h0, h1]
    | _ => exact ih h0

theorem heard_iff (sizes : List Nat) (i j : Nat) (h : List Ev) : (heard sizes i h).isSome = (heard sizes j h).isSome := by
  induction h with
  | nil => rfl
  | cons e h ih =>
    cases e with
    | frame f => rfl
    | _ => exact ih

/-- what a read of an object gives -/
theorem read_held {sizes init r rh i es bs} (inv : RInv sizes init r rh) (hi : i < sizes.length) (hh : Held sizes init i rh es bs) :
    (∀ v, (heard sizes i es.reverse).or (init i) = some v → ∃ r', r.read i bs = .ok (r', v) ∧ RInv sizes init r' (.read i bs :: rh)) ∧
    ((heard sizes i es.reverse).or (init i) = none → r.read i bs = .throws .timeout) := by
  obtain ⟨r', out, h1, h2, h3, -⟩ := rinv_read inv i bs
  obtain ⟨g1, g2, g3⟩ := h3 hi hh.len
  constructor
  · intro v hv
    have : out = .ok v := by
      by_cases hn : news sizes i rh
      · have hrec : ∀ l : List ROp, news sizes i l → received sizes i l ≠ none := by
          intro l
          induction l with
          | nil => intro h; exact absurd h id
          | cons o l ih =>
            cases o with
            | frame f => intro _; simp [received]
            | read j v => intro h; exact ih h.2
        obtain ⟨w, hw⟩ := Option.ne_none_iff_exists'.mp (hrec rh hn)
        have := g2 hn w hw
        rw [hh.rcv] at hw
        rw [hw] at hv
        simp only [Option.some_or, Option.some.injEq] at hv
        rw [this, hv]
      · have := hh.old hn v hv
        have h5 := g3 hn (by
          rw [hh.rcv]
          cases hc : heard sizes i es.reverse with
          | some x => left; simp
          | none => right; rw [hc] at hv; simp only [Option.none_or] at hv; rw [hv]; simp)
        rw [h5, this]
    rw [this] at h1
    exact ⟨r', rread_of_step h1, h2⟩
  · intro hv
    have hv' : heard sizes i es.reverse = none ∧ init i = none := by
      cases hc : heard sizes i es.reverse with
      | some x => rw [hc] at hv; simp at hv
      | none => rw [hc] at hv; exact ⟨rfl, by simpa using hv⟩
    have := g1 (by rw [hh.rcv]; exact hv'.1) hv'.2
    rw [this] at h1
    exact rread_throws_of_step h1

theorem inv_read {L : Layout} {m0 : M402.Motor} (ok : Ok L m0) {es : List Ev} {a : Axis} {outs : List (Option Frame)} {mh : List M402.Ev}
    {pd} (inv : Inv L es a outs mh pd) (conv) :
    ∃ b, step L conv a .read = .ok (b, none) ∧ b.cw = a.cw ∧ Inv L (es ++ [.read]) b (outs ++ [none]) (mh ++ mev L conv a .read) pd := by
  obtain ⟨rh, r1, r2, r3⟩ := inv.rx
  have hl : (sizesOf L.rx).length = L.rx.length := by simp [sizesOf]
  have htx : ∀ b : Axis, b.tx = a.tx → b.cw = a.cw → ∃ th, TInv (sizesOf L.tx) (initOf L.tx) L.f0.toHeader b.tx th ∧ picks th % (sizesOf L.tx).length = 0 ∧
      latest (sizesOf L.tx) (initOf L.tx) L.cw th = b.cw ∧
      (∀ j v, pd = some (j, v) → j < L.tx.length ∧ latest (sizesOf L.tx) (initOf L.tx) j th = some v ∧ written (sizesOf L.tx) j th) ∧
      (¬ written (sizesOf L.tx) L.cw th → ∀ v, b.cw = some v →
        (lastFrame (outs ++ [none]) = none → initOf L.tx L.cw = some v) ∧ ∀ f, lastFrame (outs ++ [none]) = some f → slice (sizesOf L.tx) L.cw f = v) := by
    intro b e1 e2
    obtain ⟨th, h1, h2, h3, h4, h5⟩ := inv.tx
    refine ⟨th, by rw [e1]; exact h1, h2, by rw [e2]; exact h3, h4, ?_⟩
    rw [lastFrame_append, e2]; exact h5
  have hh : ∀ i, heard (sizesOf L.rx) i (es ++ [Ev.read]).reverse = heard (sizesOf L.rx) i es.reverse := by
    intro i; rw [List.reverse_append]; rfl
  have hsn : ∀ i, seen (sizesOf L.rx) (initOf L.rx) i (es ++ [Ev.read]).reverse = (heard (sizesOf L.rx) i es.reverse).or (initOf L.rx i) := by
    intro i; rw [List.reverse_append]; rfl
  have hne : L.sw ≠ L.disp := by
    intro e
    have h1 := ok.sw.2; have h2 := ok.disp.2
    rw [e, h2] at h1; omega
  obtain ⟨s1, s2⟩ := read_held r1 (by rw [hl]; exact ok.sw.1) r2
  cases hx : (heard (sizesOf L.rx) L.sw es.reverse).or (initOf L.rx L.sw) with
  | none =>
    have hr := s2 hx
    have hy : (heard (sizesOf L.rx) L.disp es.reverse).or (initOf L.rx L.disp) = none := by
      have e1 := heard_iff (sizesOf L.rx) L.sw L.disp es.reverse
      have e2 := ok.init
      revert hx e1 e2
      cases heard (sizesOf L.rx) L.sw es.reverse <;> cases heard (sizesOf L.rx) L.disp es.reverse <;> cases initOf L.rx L.sw <;>
        cases initOf L.rx L.disp <;> simp
    have z : ∀ i, (heard (sizesOf L.rx) i es.reverse).or (initOf L.rx i) = none → seen (sizesOf L.rx) (initOf L.rx) i es.reverse = none := by
      intro i hi
      apply seen_none
      · cases hc : heard (sizesOf L.rx) i es.reverse with
        | none => rfl
        | some x => rw [hc] at hi; simp at hi
      · cases hc : heard (sizesOf L.rx) i es.reverse with
        | none => rw [hc] at hi; simpa using hi
        | some x => rw [hc] at hi; simp at hi
    refine ⟨a, by simp only [step, hr], rfl, htx a rfl rfl, ⟨rh, r1, ?_, ?_⟩, ?_, ?_⟩
    · exact ⟨r2.len, by rw [hh]; exact r2.rcv, by rw [hh]; exact r2.old⟩
    · exact ⟨r3.len, by rw [hh]; exact r3.rcv, by rw [hh]; exact r3.old⟩
    · simp only [mev, hr, List.append_nil]
      rw [hsn, hx, inv.word, z _ hx]
    · simp only [mev, hr, List.append_nil]
      rw [hsn, hy, inv.disp, z _ hy]
  | some v =>
    obtain ⟨r', hr, hi⟩ := s1 v hx
    have hy : ∃ w, (heard (sizesOf L.rx) L.disp es.reverse).or (initOf L.rx L.disp) = some w := by
      have e1 := heard_iff (sizesOf L.rx) L.sw L.disp es.reverse
      have e2 := ok.init
      revert hx e1 e2
      cases heard (sizesOf L.rx) L.sw es.reverse <;> cases heard (sizesOf L.rx) L.disp es.reverse <;> cases initOf L.rx L.sw <;>
        cases initOf L.rx L.disp <;> simp
    obtain ⟨w, hy⟩ := hy
    have r3' : Held (sizesOf L.rx) (initOf L.rx) L.disp (.read L.sw a.sw :: rh) es a.disp := by
      refine ⟨r3.len, r3.rcv, ?_⟩
      intro hn
      apply r3.old
      intro hnn
      exact hn ⟨fun h => hne h.1, hnn⟩
    obtain ⟨t1, -⟩ := read_held hi (by rw [hl]; exact ok.disp.1) r3'
    obtain ⟨r'', hr2, hi2⟩ := t1 w hy
    have lens : ∀ i x, i < L.rx.length → (heard (sizesOf L.rx) i es.reverse).or (initOf L.rx i) = some x → x.length = (sizesOf L.rx).getD i 0 := by
      intro i x hil hxx
      obtain ⟨b, hb, okb⟩ := r1.buf i (by rw [hl]; exact hil)
      cases hc : heard (sizesOf L.rx) i es.reverse with
      | some y =>
        rw [hc] at hxx
        simp only [Option.some_or, Option.some.injEq] at hxx
        have : ∀ h : List Ev, heard (sizesOf L.rx) i h = some y → y.length = (sizesOf L.rx).getD i 0 := by
          intro h
          induction h with
          | nil => intro h; simp [heard] at h
          | cons e h ih =>
            cases e with
            | frame f =>
              intro h
              simp only [heard, Option.some.injEq] at h
              rw [← h, slice, take_drop_length]
              have := offset_le (sizesOf L.rx) i (by rw [hl]; exact hil)
              have := ok.rx.2.1
              omega
            | _ => exact ih
        rw [← hxx]; exact this _ hc
      | none =>
        rw [hc] at hxx
        simp only [Option.none_or] at hxx
        obtain ⟨o, h1, h2, h3⟩ := objs_get L.rx i (by rw [hl]; exact hil)
        rw [h3] at hxx
        rw [← h2]
        exact ok.rx.2.2 o (List.mem_of_getElem? h1) x hxx
    refine ⟨{ a with rx := r'', sw := v, disp := w, m := a.m.readState (BitVec.ofNat 16 (ofBytes v)) (BitVec.ofNat 8 (ofBytes w)) },
      by simp only [step, hr, hr2], rfl, htx _ rfl rfl, ⟨_, hi2, ?_, ?_⟩, ?_, ?_⟩
    · refine ⟨lens _ _ ok.sw.1 hx, by rw [hh]; exact r2.rcv, ?_⟩
      rw [hh]; intro _ x hxx
      rw [hx] at hxx; cases hxx; rfl
    · refine ⟨lens _ _ ok.disp.1 hy, by rw [hh]; exact r3.rcv, ?_⟩
      rw [hh]; intro _ x hxx
      rw [hy] at hxx; cases hxx; rfl
    · simp only [mev, hr, hr2]
      rw [lastWord_append, hsn, hx, ofBytes_eq]; rfl
    · simp only [mev, hr, hr2]
      rw [lastDisplay_append, hsn, hy, ofBytes_eq, ofBytes_eq]; rfl

theorem inv_frame {L : Layout} {m0 : M402.Motor} (ok : Ok L m0) {es : List Ev} {a : Axis} {outs : List (Option Frame)} {mh : List M402.Ev}
    {pd} (inv : Inv L es a outs mh pd) (conv) (f : Frame) (hf : (sizesOf L.rx).sum ≤ f.dlc.toNat) :
    ∃ b, step L conv a (.frame f) = .ok (b, none) ∧ b.cw = a.cw ∧ Inv L (es ++ [.frame f]) b (outs ++ [none]) mh pd := by
  obtain ⟨rh, r1, r2, r3⟩ := inv.rx
  obtain ⟨r', h1, h2⟩ := rinv_frame r1 ok.rx.2.1 f hf
  have h1' : a.rx.handleFrame f = .ok r' := by
    simp only [Rpdo.step] at h1
    cases hr : a.rx.handleFrame f with
    | ok q => rw [hr] at h1; simp only [Outcome.ok.injEq, Prod.mk.injEq] at h1; rw [h1.1]
    | throws x => rw [hr] at h1; simp at h1
    | ub => rw [hr] at h1; simp at h1
  have hh : ∀ i, heard (sizesOf L.rx) i (es ++ [Ev.frame f]).reverse = some (slice (sizesOf L.rx) i f) := by
    intro i; rw [List.reverse_append]; rfl
  refine ⟨{ a with rx := r' }, by simp only [step, h1'], rfl, ?_, ⟨_, h2, ?_, ?_⟩, ?_, ?_⟩
  · obtain ⟨th, h1, h2, h3, h4, h5⟩ := inv.tx
    refine ⟨th, h1, h2, h3, h4, ?_⟩
    rw [lastFrame_append]; exact h5
  · exact ⟨r2.len, by rw [hh]; rfl, fun hn => absurd trivial hn⟩
  · exact ⟨r3.len, by rw [hh]; rfl, fun hn => absurd trivial hn⟩
  · rw [inv.word, List.reverse_append]; rfl
  · rw [inv.disp, List.reverse_append]; rfl

/-- writing objects of the TPDO -/
theorem writes_spec (sizes : List Nat) (init) (hdr : Header) (ws : List (Nat × List Byte)) : ∀ (s : TSched) (h : List TOp) (_ : TInv sizes init hdr s h),
    ∃ s' outs, s.run (ws.map fun p => .write p.1 p.2) = .ok (s', outs) ∧
      TInv sizes init hdr s' ((ws.map fun p => TOp.write p.1 p.2).reverse ++ h) := by
  induction ws with
  | nil => intro s h inv; exact ⟨s, [], rfl, inv⟩
  | cons p ws ih =>
    intro s h inv
    obtain ⟨s1, h1, h2⟩ := tinv_write sizes init hdr s h inv p.1 p.2
    obtain ⟨s2, outs, h3, h4⟩ := ih s1 _ h2
    refine ⟨s2, none :: outs, ?_, ?_⟩
    · simp only [List.map_cons, TSched.run, h1, h3]
    · rw [List.map_cons, List.reverse_cons, List.append_assoc]; exact h4

/-- parts of the invariant a step without reading and receiving keeps -/
theorem rest_same {L : Layout} {es : List Ev} {a b : Axis} {outs : List (Option Frame)} {mh ms : List M402.Ev} {pd} (inv : Inv L es a outs mh pd)
    (e : Ev) (he : e = .write ∨ e = .send ∨ ∃ i v, e = .object i v) (hrx : b.rx = a.rx) (hsw : b.sw = a.sw) (hd : b.disp = a.disp)
    (hm : ∀ sw d, M402.Ev.read sw d ∉ ms) :
    (∃ rh, RInv (sizesOf L.rx) (initOf L.rx) b.rx rh ∧ Held (sizesOf L.rx) (initOf L.rx) L.sw rh (es ++ [e]) b.sw ∧
      Held (sizesOf L.rx) (initOf L.rx) L.disp rh (es ++ [e]) b.disp) ∧
    Spec.M402.lastWord (mh ++ ms) =
      (seen (sizesOf L.rx) (initOf L.rx) L.sw (es ++ [e]).reverse).map (fun bs => BitVec.ofNat 16 (unsigned bs)) ∧
    Spec.M402.lastDisplay (mh ++ ms) =
      (seen (sizesOf L.rx) (initOf L.rx) L.disp (es ++ [e]).reverse).map fun bs => ((BitVec.ofNat 8 (unsigned bs)).signExtend 16).toNat := by
  have hh : ∀ i, heard (sizesOf L.rx) i (es ++ [e]).reverse = heard (sizesOf L.rx) i es.reverse := by
    intro i; rw [List.reverse_append]; rcases he with rfl | rfl | ⟨i, v, rfl⟩ <;> rfl
  have hs : ∀ i, seen (sizesOf L.rx) (initOf L.rx) i (es ++ [e]).reverse = seen (sizesOf L.rx) (initOf L.rx) i es.reverse := by
    intro i; rw [List.reverse_append]; rcases he with rfl | rfl | ⟨i, v, rfl⟩ <;> rfl
  obtain ⟨n1, n2⟩ := no_reads ms hm
  refine ⟨?_, ?_, ?_⟩
  · obtain ⟨rh, h1, h2, h3⟩ := inv.rx
    rw [hrx, hsw, hd]
    exact ⟨rh, h1, ⟨h2.len, by rw [hh]; exact h2.rcv, by rw [hh]; exact h2.old⟩, ⟨h3.len, by rw [hh]; exact h3.rcv, by rw [hh]; exact h3.old⟩⟩
  · rw [lastWord_append, n1, hs]; exact inv.word
  · rw [lastDisplay_append, n2, hs]; exact inv.disp

theorem inv_object {L : Layout} {es : List Ev} {a : Axis} {outs : List (Option Frame)} {mh : List M402.Ev}
    {pd} (inv : Inv L es a outs mh pd) (conv) (i : Nat) (v : List Byte) (hi : i ≠ L.cw) (hp : ∀ j w, pd = some (j, w) → i ≠ j) :
    ∃ b, step L conv a (.object i v) = .ok (b, none) ∧ b.cw = a.cw ∧ Inv L (es ++ [.object i v]) b (outs ++ [none]) mh pd := by
  obtain ⟨th, h1, h2, h3, h4, h5⟩ := inv.tx
  obtain ⟨s', g1, g2⟩ := tinv_write _ _ _ a.tx th h1 i v
  obtain ⟨k1, k2, k3⟩ := rest_same (ms := []) (b := { a with tx := s' }) inv (.object i v) (Or.inr (Or.inr ⟨i, v, rfl⟩)) rfl rfl rfl (by simp)
  rw [List.append_nil] at k2 k3
  refine ⟨{ a with tx := s' }, by simp only [step, g1, if_neg hi], rfl, ⟨_, g2, h2, ?_, ?_, ?_⟩, k1, k2, k3⟩
  · rw [latest, if_neg (fun h => hi h.1)]; exact h3
  · intro j w hj
    obtain ⟨q1, q2, q3⟩ := h4 j w hj
    refine ⟨q1, ?_, Or.inr q3⟩
    rw [latest, if_neg (fun h => hp j w hj h.1)]; exact q2
  · rw [lastFrame_append]
    intro hn
    exact h5 (fun hw => hn (Or.inr hw))

theorem inv_object_cw {L : Layout} {m0 : M402.Motor} (ok : Ok L m0) {es : List Ev} {a : Axis} {outs : List (Option Frame)} {mh : List M402.Ev}
    {pd} (inv : Inv L es a outs mh pd) (hp : ∀ j w, pd = some (j, w) → j ≠ L.cw) (conv) (v : List Byte) (hv : v.length = 2) :
    ∃ b, step L conv a (.object L.cw v) = .ok (b, none) ∧ Inv L (es ++ [.object L.cw v]) b (outs ++ [none]) mh pd := by
  obtain ⟨th, h1, h2, h3, h4, h5⟩ := inv.tx
  obtain ⟨s', g1, g2⟩ := tinv_write _ _ _ a.tx th h1 L.cw v
  obtain ⟨k1, k2, k3⟩ := rest_same (ms := []) (b := { a with tx := s', cw := some v }) inv (.object L.cw v) (Or.inr (Or.inr ⟨L.cw, v, rfl⟩)) rfl rfl rfl
    (by simp)
  rw [List.append_nil] at k2 k3
  have hl : v.length = (sizesOf L.tx).getD L.cw 0 := by rw [ok.cw.2, hv]
  refine ⟨{ a with tx := s', cw := some v }, by simp only [step, g1, if_true], ⟨_, g2, h2, ?_, ?_, ?_⟩, k1, k2, k3⟩
  · rw [latest, if_pos ⟨rfl, hl⟩]
  · intro j w hj
    obtain ⟨q1, q2, q3⟩ := h4 j w hj
    refine ⟨q1, ?_, Or.inr q3⟩
    rw [latest, if_neg (fun h => hp j w hj h.1.symm)]; exact q2
  · intro hn
    exact absurd (Or.inl ⟨rfl, hl⟩) hn

theorem inv_forget {L : Layout} {es : List Ev} {a : Axis} {outs : List (Option Frame)} {mh : List M402.Ev}
    {pd} (inv : Inv L es a outs mh pd) : Inv L es a outs mh none := by
  obtain ⟨th, h1, h2, h3, -, h5⟩ := inv.tx
  exact ⟨⟨th, h1, h2, h3, (fun _ _ h => nomatch h), h5⟩, inv.rx, inv.word, inv.disp⟩

/-- the pending target after a write cycle -/
def pending (L : Layout) (m : M402.Motor) (t : Option Int) : Option (Nat × List Byte) :=
  match t with
  | none => none
  | some n => (m.selected.bind fun k => (L.tgt k).map fun j => (j, toBytes (L.width k) n))

theorem pending_tgt {L : Layout} {m : M402.Motor} {t j w} (h : pending L m t = some (j, w)) :
    ∃ k n, t = some n ∧ m.selected = some k ∧ L.tgt k = some j ∧ w = toBytes (L.width k) n := by
  unfold pending at h
  cases t with
  | none => cases h
  | some n =>
    cases hs : m.selected with
    | none => rw [hs] at h; cases h
    | some k =>
      rw [hs] at h
      simp only [Option.bind_some] at h
      cases ht : L.tgt k with
      | none => rw [ht] at h; cases h
      | some j' => rw [ht] at h; simp at h; exact ⟨k, n, rfl, rfl, by rw [ht, h.1], h.2.symm⟩

theorem targetWrite_eq (L : Layout) (m : M402.Motor) (t : Option Int) :
    targetWrite L m t = ((pending L m t).toList).map fun p => TOp.write p.1 p.2 := by
  unfold targetWrite pending
  cases t with
  | none => rfl
  | some n =>
    cases m.selected with
    | none => rfl
    | some k =>
      simp only [Option.bind_some]
      cases L.tgt k <;> rfl

theorem inv_write {L : Layout} {m0 : M402.Motor} (ok : Ok L m0) {es : List Ev} {a : Axis} {outs : List (Option Frame)} {mh : List M402.Ev}
    {pd} (inv : Inv L es a outs mh pd) (conv) :
    ∃ b, step L conv a .write = .ok (b, none) ∧ b.cw = some (toBytes 2 a.m.handleWrite.2.1.toNat) ∧
      Inv L (es ++ [.write]) b (outs ++ [none]) (mh ++ [.write]) (pending L a.m a.m.handleWrite.2.2) := by
  obtain ⟨th, h1, h2, h3, h4, h5⟩ := inv.tx
  generalize hw : a.m.handleWrite.2.1 = word
  generalize ht : a.m.handleWrite.2.2 = t
  have hl : (sizesOf L.tx).length = L.tx.length := by simp [sizesOf]
  have hops : targetWrite L a.m t ++ wordWrite L a.cw word =
      ((pending L a.m t).toList ++ if a.cw = some (toBytes 2 word.toNat) then [] else [(L.cw, toBytes 2 word.toNat)]).map fun p => TOp.write p.1 p.2 := by
    rw [List.map_append, targetWrite_eq]
    unfold wordWrite
    split <;> rfl
  obtain ⟨s', os, g1, g2⟩ := writes_spec _ _ _ ((pending L a.m t).toList ++
    if a.cw = some (toBytes 2 word.toNat) then [] else [(L.cw, toBytes 2 word.toNat)]) a.tx th h1
  rw [← hops] at g1
  obtain ⟨k1, k2, k3⟩ := rest_same (ms := [.write]) (b := { a with m := a.m.handleWrite.1, tx := s', cw := some (toBytes 2 word.toNat) })
    inv .write (Or.inl rfl) rfl rfl rfl (by simp)
  refine ⟨{ a with m := a.m.handleWrite.1, tx := s', cw := some (toBytes 2 word.toNat) }, by simp only [step, hw, ht, g1], rfl, ⟨_, g2, ?_, ?_, ?_, ?_⟩, k1, k2, k3⟩
  · rw [picks_append]
    have : ∀ ws : List (Nat × List Byte), picks ((ws.map fun p => TOp.write p.1 p.2).reverse) = 0 := by
      intro ws
      rw [picks_reverse]
      induction ws with
      | nil => rfl
      | cons p ws ih => exact ih
    rw [this, Nat.zero_add, h2]
  all_goals
    have htg : ∀ j w, pending L a.m t = some (j, w) → j < L.tx.length ∧ j ≠ L.cw ∧ w.length = (sizesOf L.tx).getD j 0 := by
      intro j w hp
      obtain ⟨k, n, -, -, e1, e2⟩ := pending_tgt hp
      obtain ⟨q1, q2, q3⟩ := ok.tgt k j e1
      exact ⟨q1, q2, by rw [e2, toBytes_length, q3]⟩
    have h2len : (toBytes 2 (word.toNat : Int)).length = (sizesOf L.tx).getD L.cw 0 := by rw [toBytes_length, ok.cw.2]
  · by_cases hc : a.cw = some (toBytes 2 word.toNat)
    · rw [if_pos hc, List.append_nil]
      cases hp : pending L a.m t with
      | none => simp only [Option.toList, List.map_nil, List.reverse_nil, List.nil_append]; rw [h3, hc]
      | some p =>
        obtain ⟨q1, q2, q3⟩ := htg p.1 p.2 hp
        simp only [Option.toList, List.map_cons, List.map_nil, List.reverse_cons, List.reverse_nil, List.nil_append, List.cons_append]
        rw [latest, if_neg (fun h => q2 h.1), h3, hc]
    · rw [if_neg hc, List.map_append, List.reverse_append]
      simp only [List.map_cons, List.map_nil, List.reverse_cons, List.reverse_nil, List.nil_append, List.cons_append]
      rw [latest, if_pos ⟨rfl, h2len⟩]
  · intro j w hp
    obtain ⟨q1, q2, q3⟩ := htg j w hp
    refine ⟨q1, ?_⟩
    rw [hp]
    by_cases hc : a.cw = some (toBytes 2 word.toNat)
    · rw [if_pos hc, List.append_nil]
      simp only [Option.toList, List.map_cons, List.map_nil, List.reverse_cons, List.reverse_nil, List.nil_append, List.cons_append]
      exact ⟨by rw [latest, if_pos ⟨rfl, q3⟩], Or.inl ⟨rfl, q3⟩⟩
    · rw [if_neg hc]
      simp only [Option.toList, List.map_append, List.reverse_append, List.map_cons, List.map_nil, List.reverse_cons, List.reverse_nil, List.nil_append, List.cons_append]
      refine ⟨?_, Or.inr (Or.inl ⟨rfl, q3⟩)⟩
      rw [latest, if_neg (fun h => q2 h.1.symm), latest, if_pos ⟨rfl, q3⟩]
  · rw [lastFrame_append]
    intro hn v hv
    cases hv
    by_cases hc : a.cw = some (toBytes 2 word.toNat)
    · rw [if_pos hc, List.append_nil] at hn
      refine h5 ?_ _ hc
      intro hw
      apply hn
      cases hp : pending L a.m t with
      | none => simpa [Option.toList] using hw
      | some p =>
        simp only [Option.toList, List.map_cons, List.map_nil, List.reverse_cons, List.reverse_nil, List.nil_append, List.cons_append]
        exact Or.inr hw
    · exfalso
      rw [if_neg hc, List.map_append, List.reverse_append] at hn
      simp only [List.map_cons, List.map_nil, List.reverse_cons, List.reverse_nil, List.nil_append, List.cons_append] at hn
      exact hn (Or.inl ⟨rfl, h2len⟩)

theorem inv_send {L : Layout} {m0 : M402.Motor} (ok : Ok L m0) {es : List Ev} {a : Axis} {outs : List (Option Frame)} {mh : List M402.Ev}
    {pd} (inv : Inv L es a outs mh pd) (conv) :
    ∃ b o, step L conv a .send = .ok (b, o) ∧ b.cw = a.cw ∧ Inv L (es ++ [.send]) b (outs ++ [o]) mh none ∧
      (∀ j v, pd = some (j, v) → ∃ f, o = some f ∧ slice (sizesOf L.tx) j f = v) ∧
      ∀ v, a.cw = some v → (lastFrame (outs ++ [o]) = none → initOf L.tx L.cw = some v) ∧
        ∀ f, lastFrame (outs ++ [o]) = some f → slice (sizesOf L.tx) L.cw f = v := by
  obtain ⟨th, h1, h2, h3, h4, h5⟩ := inv.tx
  have hl : (sizesOf L.tx).length = L.tx.length := by simp [sizesOf]
  obtain ⟨s', os, g1, g2, g3, g4⟩ := send_spec _ _ ok.tx.2.1 (by simpa [sizesOf] using ok.tx.1) _ a.tx th h1 h2
  rw [hl] at g1 g2 g3 g4
  obtain ⟨k1, k2, k3⟩ := rest_same (ms := []) (b := { a with tx := s' }) inv .send (Or.inr (Or.inl rfl)) rfl rfl rfl (by simp)
  rw [List.append_nil] at k2 k3
  have hlast : ∀ v, a.cw = some v → (lastFrame (outs ++ [os.findSome? id]) = none → initOf L.tx L.cw = some v) ∧
      ∀ f, lastFrame (outs ++ [os.findSome? id]) = some f → slice (sizesOf L.tx) L.cw f = v := by
    intro v hv
    rw [lastFrame_append]
    cases ho : os.findSome? id with
    | some f =>
      simp only [Option.some_or]
      refine ⟨(fun h => nomatch h), fun f' hf' => ?_⟩
      cases hf'
      exact g4 f ho L.cw ok.cw.1 v (by rw [h3]; exact hv)
    | none =>
      simp only [Option.none_or]
      refine h5 ?_ v hv
      intro hw
      exact g3.2 ⟨L.cw, ok.cw.1, hw⟩ ho
  refine ⟨{ a with tx := s' }, os.findSome? id, by simp only [step, g1], rfl, ⟨⟨_, g2, ?_, ?_, (fun _ _ h => nomatch h), ?_⟩, k1, k2, k3⟩, ?_, hlast⟩
  · rw [picks_replicate', ← hl, Nat.add_mod_left, h2]
  · rw [latest_replicate]; exact h3
  · exact fun _ v hv => hlast v hv
  · intro j v hj
    obtain ⟨q1, q2, q3⟩ := h4 j v hj
    cases ho : os.findSome? id with
    | none => exact absurd ho (g3.2 ⟨j, q1, q3⟩)
    | some f => exact ⟨f, rfl, g4 f ho j q1 v q2⟩

/-! ### histories -/

/-- the place of a pending target is that of a mode -/
def OfMode (L : Layout) (pd : Option (Nat × List Byte)) : Prop := ∀ j v, pd = some (j, v) → ∃ k, L.tgt k = some j

theorem mev_no_read (L conv a) (e : Ev) (he : e ≠ .read) : ∀ sw d, M402.Ev.read sw d ∉ mev L conv a e := by
  intro sw d hm
  cases e with
  | joint e =>
    simp only [mev, List.mem_filterMap] at hm
    obtain ⟨o, -, ho⟩ := hm
    cases o <;> simp [ofOut] at ho
  | service e =>
    simp only [mev] at hm
    split at hm
    · rename_i hs
      simp only [List.mem_cons, List.not_mem_nil, or_false] at hm
      rw [← hm] at hs; cases hs
    · cases hm
  | read => exact he rfl
  | write => simp [mev] at hm
  | frame f => simp [mev] at hm
  | object i v => simp [mev] at hm
  | send => simp [mev] at hm

theorem proper_append {L : Layout} {p q : List Ev} (h : Proper L (p ++ q)) : Proper L p ∧ Proper L q :=
  ⟨⟨fun f hf => h.1 f (by simp [hf]), fun i v hf => h.2 i v (by simp [hf])⟩, ⟨fun f hf => h.1 f (by simp [hf]), fun i v hf => h.2 i v (by simp [hf])⟩⟩

theorem inv_step {L : Layout} {m0 : M402.Motor} (ok : Ok L m0) {es : List Ev} {a : Axis} {outs : List (Option Frame)} {mh : List M402.Ev}
    {pd} (inv : Inv L es a outs mh pd) (hpd : OfMode L pd) (conv) (e : Ev) (hp : Sized L [e]) :
    ∃ b o pd', step L conv a e = .ok (b, o) ∧ Inv L (es ++ [e]) b (outs ++ [o]) (mh ++ mev L conv a e) pd' ∧ OfMode L pd' ∧
      (e ≠ .write → e ≠ .send → o = none ∧ (Proper L [e] → pd' = pd ∧ b.cw = a.cw)) := by
  cases e with
  | joint x =>
    have h := inv_quiet inv (.joint x) (Or.inl ⟨x, rfl⟩) (Cyc.step conv a.c x).1 (targets a.m (Cyc.step conv a.c x).2)
      (mev L conv a (.joint x)) (mev_no_read _ _ _ _ (by simp))
    exact ⟨_, none, pd, rfl, h, hpd, fun _ _ => ⟨rfl, fun _ => ⟨rfl, rfl⟩⟩⟩
  | service x =>
    by_cases hs : isService x = true
    · have h := inv_quiet inv (.service x) (Or.inr ⟨x, rfl⟩) a.c (a.m.step x).1 (mev L conv a (.service x)) (mev_no_read _ _ _ _ (by simp))
      exact ⟨{ a with m := (a.m.step x).1 }, none, pd, by simp only [step, if_pos hs], h, hpd, fun _ _ => ⟨rfl, fun _ => ⟨rfl, rfl⟩⟩⟩
    · have h := inv_quiet inv (.service x) (Or.inr ⟨x, rfl⟩) a.c a.m (mev L conv a (.service x)) (mev_no_read _ _ _ _ (by simp))
      exact ⟨a, none, pd, by simp only [step, if_neg hs], h, hpd, fun _ _ => ⟨rfl, fun _ => ⟨rfl, rfl⟩⟩⟩
  | frame f =>
    obtain ⟨b, h1, h2, h3⟩ := inv_frame ok inv conv f (hp.1 f (by simp))
    exact ⟨b, none, pd, h1, by simpa [mev] using h3, hpd, fun _ _ => ⟨rfl, fun _ => ⟨rfl, h2⟩⟩⟩
  | read =>
    obtain ⟨b, h1, h2, h3⟩ := inv_read ok inv conv
    exact ⟨b, none, pd, h1, h3, hpd, fun _ _ => ⟨rfl, fun _ => ⟨rfl, h2⟩⟩⟩
  | write =>
    obtain ⟨b, h1, h2, h3⟩ := inv_write ok inv conv
    refine ⟨b, none, _, h1, h3, ?_, fun h => absurd rfl h⟩
    intro j v hj
    obtain ⟨k, n, -, -, h, -⟩ := pending_tgt hj
    exact ⟨k, h⟩
  | object i v =>
    by_cases hi : i = L.cw
    · subst hi
      obtain ⟨b, h1, h2⟩ := inv_object_cw ok inv (fun j w hj => by
        obtain ⟨k, hk⟩ := hpd j w hj
        exact (ok.tgt k j hk).2.1) conv v (hp.2 v (by simp))
      exact ⟨b, none, pd, h1, by simpa [mev] using h2, hpd, fun _ _ => ⟨rfl, fun hq => absurd rfl (hq.2 L.cw v (by simp)).1⟩⟩
    by_cases hj : ∃ k, L.tgt k = some i
    · obtain ⟨b, h1, h2, h3⟩ := inv_object (inv_forget inv) conv i v hi (fun _ _ h => nomatch h)
      obtain ⟨k, hk⟩ := hj
      exact ⟨b, none, none, h1, by simpa [mev] using h3, (fun _ _ h => nomatch h), fun _ _ => ⟨rfl, fun hq => absurd hk ((hq.2 i v (by simp)).2 k)⟩⟩
    · obtain ⟨b, h1, h2, h3⟩ := inv_object inv conv i v hi (by
        intro j w hw e
        obtain ⟨k, hk⟩ := hpd j w hw
        exact hj ⟨k, by rw [hk, e]⟩)
      exact ⟨b, none, pd, h1, by simpa [mev] using h3, hpd, fun _ _ => ⟨rfl, fun _ => ⟨rfl, h2⟩⟩⟩
  | send =>
    obtain ⟨b, o, h1, h2, h3, -⟩ := inv_send ok inv conv
    exact ⟨b, o, none, h1, by simpa [mev] using h3, (fun _ _ h => nomatch h), fun _ h => absurd rfl h⟩

theorem inv_run_from {L : Layout} {m0 : M402.Motor} (ok : Ok L m0) (conv) (q : List Ev) : ∀ {es : List Ev} {a : Axis}
    {outs : List (Option Frame)} {mh : List M402.Ev} {pd} (_ : Inv L es a outs mh pd) (_ : OfMode L pd) (_ : Sized L q),
    ∃ b os pd', run L conv a q = .ok (b, os) ∧ os.length = q.length ∧ Inv L (es ++ q) b (outs ++ os) (mh ++ mevs L conv a q) pd' ∧ OfMode L pd' ∧
      (Ev.write ∉ q → Ev.send ∉ q → (∀ o ∈ os, o = none) ∧ (Proper L q → pd' = pd ∧ b.cw = a.cw)) := by
  induction q with
  | nil =>
    intro es a outs mh pd inv hpd hp
    exact ⟨a, [], pd, rfl, rfl, by simpa [mevs] using inv, hpd, fun _ _ => ⟨by simp, fun _ => ⟨rfl, rfl⟩⟩⟩
  | cons e q ih =>
    intro es a outs mh pd inv hpd hp
    obtain ⟨b, o, pd', h1, h2, h3, h4⟩ := inv_step ok inv hpd conv e
      ⟨fun f hf => hp.1 f (by simp only [List.mem_cons, List.not_mem_nil, or_false] at hf; simp [hf]),
       fun v hf => hp.2 v (by simp only [List.mem_cons, List.not_mem_nil, or_false] at hf; simp [hf])⟩
    obtain ⟨c, os, pd2, g1, g2, g3, g4, g5⟩ := ih h2 h3
      ⟨fun f hf => hp.1 f (List.mem_cons_of_mem _ hf), fun v hf => hp.2 v (List.mem_cons_of_mem _ hf)⟩
    refine ⟨c, o :: os, pd2, by simp only [run, h1, g1], by simp [g2], ?_, g4, ?_⟩
    · have e1 : es ++ e :: q = es ++ [e] ++ q := by simp
      have e2 : outs ++ o :: os = outs ++ [o] ++ os := by simp
      have e3 : mh ++ mevs L conv a (e :: q) = mh ++ mev L conv a e ++ mevs L conv b q := by simp [mevs, h1]
      rw [e1, e2, e3]; exact g3
    · intro hw hs
      obtain ⟨k3, k1⟩ := h4 (fun h => hw (by simp [h])) (fun h => hs (by simp [h]))
      obtain ⟨l3, l1⟩ := g5 (fun h => hw (List.mem_cons_of_mem _ h)) (fun h => hs (List.mem_cons_of_mem _ h))
      refine ⟨?_, ?_⟩
      · intro x hx
        rcases List.mem_cons.mp hx with rfl | hx
        · exact k3
        · exact l3 x hx
      · intro hq
        obtain ⟨hq1, hq2⟩ := proper_append (p := [e]) hq
        obtain ⟨m1, m2⟩ := k1 hq1
        obtain ⟨n1, n2⟩ := l1 hq2
        exact ⟨by rw [n1, m1], by rw [n2, m2]⟩

theorem sized_of_proper {L : Layout} {q : List Ev} (h : Proper L q) : Sized L q := ⟨h.1, fun v hf => absurd rfl (h.2 L.cw v hf).1⟩

/-! ### targets of the handle -/

theorem one_sent (conv) (s : Cyc.St) (e : Cyc.Ev) : (Cyc.step conv s e).2.filterMap ofOut = [] ∨ ∃ k v, (Cyc.step conv s e).2 = [.sent k v] := by
  generalize hr : Cyc.step conv s e = r
  unfold Cyc.step at hr
  cases e <;> simp only at hr <;> repeat' (split at hr)
  all_goals (subst hr; simp [ofOut])

theorem setTarget_split {L conv a0 es b os} (h : run L conv a0 es = .ok (b, os)) {x y : List M402.Ev} {v : M402.Dbl}
    (hm : mevs L conv a0 es = x ++ .setTarget v :: y) :
    ∃ p e q a os1 kind, es = p ++ .joint e :: q ∧ run L conv a0 p = .ok (a, os1) ∧ (Cyc.step conv a.c e).2 = [.sent kind v] ∧
      mevs L conv a0 p = x := by
  induction es generalizing a0 x os b with
  | nil => simp [mevs] at hm
  | cons e es ih =>
    simp only [run] at h
    cases hs : step L conv a0 e with
    | throws z => rw [hs] at h; simp at h
    | ub => rw [hs] at h; simp at h
    | ok r =>
      obtain ⟨b1, o⟩ := r
      rw [hs] at h
      simp only at h
      cases hr : run L conv b1 es with
      | throws z => rw [hr] at h; simp at h
      | ub => rw [hr] at h; simp at h
      | ok r =>
        obtain ⟨c, os1⟩ := r
        simp only [mevs, hs] at hm
        -- the event in question is one of a later step
        have later : ∀ x', x = mev L conv a0 e ++ x' → mevs L conv b1 es = x' ++ .setTarget v :: y → ∃ p e' q a os1 kind, e :: es = p ++ .joint e' :: q ∧
            run L conv a0 p = .ok (a, os1) ∧ (Cyc.step conv a.c e').2 = [.sent kind v] ∧ mevs L conv a0 p = x := by
          intro x' hx hm'
          obtain ⟨p, e', q, a, os2, kind, g1, g2, g3, g4⟩ := ih hr hm'
          refine ⟨e :: p, e', q, a, o :: os2, kind, by rw [g1]; rfl, by simp only [run, hs, g2], g3, ?_⟩
          simp only [mevs, hs, g4, hx]
        rcases List.append_eq_append_iff.mp hm with ⟨x', hx, hm'⟩ | ⟨x', hx, hm'⟩
        · exact later x' hx hm'
        · cases x' with
          | nil =>
            rw [List.append_nil] at hx
            exact later [] (by rw [hx, List.append_nil]) (by simpa using hm'.symm)
          | cons z x' =>
            simp only [List.cons_append, List.cons.injEq] at hm'
            obtain ⟨hz, -⟩ := hm'
            rw [← hz] at hx
            have hmem : M402.Ev.setTarget v ∈ mev L conv a0 e := by rw [hx]; simp
            cases e with
            | joint e =>
              rcases one_sent conv a0.c e with h0 | ⟨k, w, h1⟩
              · simp only [mev] at hmem; rw [h0] at hmem; cases hmem
              · simp only [mev, h1] at hx
                have e1 : List.filterMap ofOut [Cyc.Out.sent k w] = [.setTarget w] := rfl
                rw [e1] at hx
                cases x with
                | nil =>
                  simp only [List.nil_append, List.cons.injEq, M402.Ev.setTarget.injEq] at hx
                  exact ⟨[], e, es, a0, [], k, rfl, rfl, by rw [h1, hx.1], rfl⟩
                | cons z' x =>
                  simp only [List.cons_append, List.cons.injEq] at hx
                  have := congrArg List.length hx.2
                  simp at this
            | service e =>
              simp only [mev] at hmem
              split at hmem
              · rename_i hsv
                simp only [List.mem_cons, List.not_mem_nil, or_false] at hmem
                rw [← hmem] at hsv; cases hsv
              · cases hmem
            | read =>
              simp only [mev] at hmem
              split at hmem
              · split at hmem
                · simp at hmem
                · cases hmem
              · cases hmem
            | write => simp [mev] at hmem
            | frame f => simp [mev] at hmem
            | object i v => simp [mev] at hmem
            | send => simp [mev] at hmem

theorem run_prefix {L conv a0 p q b os} (h : run L conv a0 (p ++ q) = .ok (b, os)) : ∃ a os1, run L conv a0 p = .ok (a, os1) := by
  induction p generalizing a0 os with
  | nil => exact ⟨a0, [], rfl⟩
  | cons e p ih =>
    simp only [run, List.cons_append] at h ⊢
    cases hs : step L conv a0 e with
    | throws z => rw [hs] at h; simp at h
    | ub => rw [hs] at h; simp at h
    | ok r =>
      obtain ⟨b1, o⟩ := r
      rw [hs] at h
      simp only at h ⊢
      cases hr : run L conv b1 (p ++ q) with
      | throws z => rw [hr] at h; simp at h
      | ub => rw [hr] at h; simp at h
      | ok r =>
        obtain ⟨a, os1, h1⟩ := ih (os := r.2) (a0 := b1) (by
          rw [hr] at h
          simp only [Outcome.ok.injEq, Prod.mk.injEq] at h
          rw [hr, ← h.1])
        exact ⟨a, o :: os1, by rw [h1]⟩

theorem lastTarget_of_given {L conv a0 es b os} (h : run L conv a0 es = .ok (b, os)) {k : Nat} {v : M402.Dbl}
    (hg : Spec.M402.Given a0.m (mevs L conv a0 es) k v) : ∃ kind, LastTarget L conv a0 es k kind v := by
  obtain ⟨x, y, hm, h1, h2, h3⟩ := hg
  obtain ⟨p, e, q, a, os1, kind, g1, g2, g3, g4⟩ := setTarget_split h hm
  have ha : a.m = (a0.m.run x).1 := by rw [← g4]; exact motor_run g2
  refine ⟨kind, p, e, q, a, os1, g1, g2, by rw [g3]; simp, by rw [ha]; exact h1, ?_, ?_⟩
  · rw [ha]
    simpa [M402.Motor.step] using h2
  · intro q1 e' q2 b' os' kind' v' hq hr hsent hsel
    have hs : (Cyc.step conv b'.c e').2 = [.sent kind' v'] := by
      rcases one_sent conv b'.c e' with h0 | ⟨k2, w2, h0⟩
      · exfalso
        have : M402.Ev.setTarget v' ∈ (Cyc.step conv b'.c e').2.filterMap ofOut := List.mem_filterMap.mpr ⟨_, hsent, rfl⟩
        rw [h0] at this; cases this
      · rw [h0] at hsent ⊢
        simp only [List.mem_cons, List.not_mem_nil, or_false] at hsent
        rw [hsent]
    -- the events of the motor in these parts
    have e1 : es = (p ++ .joint e :: q1) ++ (.joint e' :: q2) := by rw [g1, hq]; simp
    have e2 : mevs L conv a0 es = mevs L conv a0 (p ++ .joint e :: q1) ++ mevs L conv b' (.joint e' :: q2) := by
      rw [e1]; exact mevs_append hr
    have e3 : ∃ y1, mevs L conv a0 (p ++ .joint e :: q1) = x ++ .setTarget v :: y1 := by
      rw [mevs_append g2, g4]
      simp only [mevs, mev, g3]
      exact ⟨_, rfl⟩
    obtain ⟨y1, e3⟩ := e3
    have e4 : ∃ y2, mevs L conv b' (.joint e' :: q2) = .setTarget v' :: y2 := by
      simp only [mevs, mev, hs]
      exact ⟨_, rfl⟩
    obtain ⟨y2, e4⟩ := e4
    rw [hm, e3, e4] at e2
    have e5 : y = y1 ++ .setTarget v' :: y2 := by simpa using e2
    have hl := h3 y1 (.setTarget v') y2 e5
    have e6 : x ++ [M402.Ev.setTarget v] ++ y1 = mevs L conv a0 (p ++ .joint e :: q1) := by rw [e3]; simp
    rw [e6, ← motor_run hr] at hl
    have := hl hsel
    simpa [M402.Motor.step] using this

/-- the events of the handle in a history -/
def joints : List Ev → List Cyc.Ev
  | [] => []
  | .joint e :: es => e :: joints es
  | _ :: es => joints es

theorem joint_step {L conv a e b o} (h : step L conv a e = .ok (b, o)) (he : ∀ x, e ≠ .joint x) : b.c = a.c := by
  cases e with
  | joint x => exact absurd rfl (he x)
  | _ =>
    simp only [step] at h
    repeat' (split at h)
    all_goals first | (cases h; rfl) | cases h

theorem joint_run {L conv a es b os} (h : run L conv a es = .ok (b, os)) : b.c = (Cyc.run conv a.c (joints es)).1 := by
  induction es generalizing a os with
  | nil => simp only [run] at h; cases h; rfl
  | cons e es ih =>
    simp only [run] at h
    cases hs : step L conv a e with
    | throws x => rw [hs] at h; simp at h
    | ub => rw [hs] at h; simp at h
    | ok r =>
      obtain ⟨b1, o⟩ := r
      rw [hs] at h
      simp only at h
      cases hr : run L conv b1 es with
      | throws x => rw [hr] at h; simp at h
      | ub => rw [hr] at h; simp at h
      | ok r =>
        obtain ⟨c, os1⟩ := r
        rw [hr] at h
        simp only [Outcome.ok.injEq, Prod.mk.injEq] at h
        obtain ⟨rfl, rfl⟩ := h
        rw [ih hr]
        cases e with
        | joint x => simp only [step] at hs; cases hs; rfl
        | _ => rw [joint_step hs (fun x h => nomatch h)]; rfl

/-! ### the shape of mode handlers -/

/-- the range of a mode with targets, and whether it forwards them -/
def shape : M402.Mode → Option (Bool × Int × Int)
  | .forward _ _ _ t => some (true, t.lo, t.hi)
  | .profPos p => some (false, p.t.lo, p.t.hi)
  | .homing _ => none

theorem shape_set (t : M402.Target) (v : M402.Dbl) : (t.set v).1.lo = t.lo ∧ (t.set v).1.hi = t.hi := by
  unfold M402.Target.set
  split
  · exact ⟨rfl, rfl⟩
  · split <;> exact ⟨rfl, rfl⟩

theorem shape_setTarget (h : M402.Mode) (v : M402.Dbl) : shape (h.setTarget v).1 = shape h := by
  cases h with
  | forward o s w t =>
    obtain ⟨h1, h2⟩ := shape_set t v
    simp [M402.Mode.setTarget, shape, h1, h2]
  | profPos p =>
    obtain ⟨h1, h2⟩ := shape_set p.t v
    simp [M402.Mode.setTarget, shape, h1, h2]
  | homing x => rfl

theorem shape_read (h : M402.Mode) (sw) : shape (h.read sw).1 = shape h := by cases h <;> rfl

theorem shape_write (h : M402.Mode) (cw) : shape (h.write cw).1 = shape h := by
  cases h with
  | forward o s w t => simp only [M402.Mode.write]; split <;> rfl
  | profPos p => simp only [M402.Mode.write, M402.ProfPos.write]; (repeat' split) <;> rfl
  | homing x => rfl

theorem shape_put (modes : Nat → Option M402.Mode) (j : Nat) (h h' : M402.Mode) (hj : modes j = some h) (hs : shape h' = shape h) (k : Nat) :
    (M402.putMode j h' modes k).map shape = (modes k).map shape := by
  unfold M402.putMode
  split
  · rename_i e; rw [e, hj]; simp [hs]
  · rfl

theorem shape_start (modes : Nat → Option M402.Mode) (j k : Nat) : (M402.startMode j modes k).map shape = (modes k).map shape := by
  unfold M402.startMode
  split
  · cases modes k with
    | none => rfl
    | some h => cases h <;> rfl
  · rfl

theorem active_modes {m : M402.Motor} {j h} (ha : m.active j = some h) : m.modes j = some h := by
  unfold M402.Motor.active at ha
  split at ha
  · exact ha
  · cases ha

theorem shape_step (m : M402.Motor) (e : M402.Ev) (k : Nat) : ((m.step e).1.modes k).map shape = (m.modes k).map shape := by
  cases e with
  | read sw d =>
    simp only [M402.Motor.step, M402.Motor.readState]
    cases ha : m.active (BitVec.signExtend 16 d).toNat with
    | some h => exact shape_put _ _ h _ (active_modes ha) (shape_read h sw) k
    | none => rfl
  | write =>
    simp only [M402.Motor.step, M402.Motor.handleWrite]
    split
    · unfold M402.Motor.writeMode
      split
      · rename_i h ha; exact shape_put _ _ h _ (active_modes ha) (shape_write h _) k
      · rfl
    · rfl
  | setTarget v =>
    simp only [M402.Motor.step, M402.Motor.setTarget]
    split
    · split
      · rfl
      · split
        · rfl
        · rename_i h hm; exact shape_put _ _ h _ hm (shape_setTarget h v) k
    · rfl
  | request j =>
    simp only [M402.Motor.step]
    split
    · rfl
    · split
      · unfold M402.Motor.beginSwitch
        split
        · rfl
        · rfl
        · split <;> exact shape_start _ _ _
      · rfl
  | stateDone b => simp only [M402.Motor.step, M402.Motor.stateDone]; split <;> (try split) <;> rfl
  | modeDone b => simp only [M402.Motor.step, M402.Motor.modeDone]; split <;> (try split) <;> (try split) <;> rfl
  | exception => simp only [M402.Motor.step]; split <;> rfl
  | command a b => rfl
  | execute b =>
    simp only [M402.Motor.step, M402.setExecute]
    split
    · split
      · rename_i h hm; rw [hm]; rfl
      · rfl
    · rfl
  | init => rfl
  | recover =>
    simp only [M402.Motor.step, M402.Motor.handleRecover]
    split
    · exact shape_start _ _ _
    · rfl
  | halt => simp only [M402.Motor.step, M402.Motor.handleHalt]; split <;> (try split) <;> rfl

theorem shape_run (es : List M402.Ev) : ∀ (m : M402.Motor) (k : Nat), ((m.run es).1.modes k).map shape = (m.modes k).map shape := by
  induction es with
  | nil => intro m k; rfl
  | cons e es ih => intro m k; exact (ih (m.step e).1 k).trans (shape_step m e k)

/-! ## the bit for a new set-point -/

theorem bit_transition (cw : BitVec 16) (src dst : M402.S402) (n : Bool) (h : cw.getLsbD 4 = false) : (M402.setTransition cw src dst n).1.getLsbD 4 = false := by
  have key : ∀ a b op, M402.transition a b = some op → op.toSet.getLsbD 4 = false := by
    intro a b op
    cases a <;> cases b <;> simp only [M402.transition, reduceCtorEq, Option.some.injEq, false_implies] <;> (intro h; subst h; decide)
  unfold M402.setTransition
  split
  · dsimp only
    split
    · rename_i op ho
      simp only [M402.Op.apply, BitVec.getLsbD_or, BitVec.getLsbD_and, h, key _ _ _ ho, Bool.false_and, Bool.or_false]
    · exact h
  · exact h

/-- nothing but a write cycle sets the bit -/
theorem bit_motor (m : M402.Motor) (e : M402.Ev) (he : e ≠ .write) (h : m.cw.getLsbD 4 = false) : (m.step e).1.cw.getLsbD 4 = false := by
  cases e with
  | write => exact absurd rfl he
  | read sw d => exact h
  | setTarget v => simp only [M402.Motor.step, M402.Motor.setTarget]; (repeat' split) <;> exact h
  | request j =>
    simp only [M402.Motor.step]
    split
    · exact h
    · split
      · unfold M402.Motor.beginSwitch
        split
        · exact h
        · exact h
        · split <;> exact h
      · exact h
  | stateDone b => simp only [M402.Motor.step, M402.Motor.stateDone]; (repeat' split) <;> exact h
  | modeDone b => simp only [M402.Motor.step, M402.Motor.modeDone]; (repeat' split) <;> exact h
  | exception => simp only [M402.Motor.step]; split <;> exact h
  | command a b => exact bit_transition _ _ _ _ h
  | execute b => exact h
  | init => simp [M402.Motor.step]
  | recover => simp only [M402.Motor.step, M402.Motor.handleRecover]; split <;> exact h
  | halt =>
    simp only [M402.Motor.step, M402.Motor.handleHalt]
    split
    · exact h
    · split
      · exact h
      · exact bit_transition _ _ _ _ h

theorem bit_targets (os : List Cyc.Out) : ∀ m : M402.Motor, m.cw.getLsbD 4 = false → (targets m os).cw.getLsbD 4 = false := by
  induction os with
  | nil => exact fun _ h => h
  | cons o os ih =>
    intro m h
    cases o with
    | sent k v => exact ih _ (bit_motor m (.setTarget v) (fun h => nomatch h) h)
    | _ => exact ih m h

theorem bit_step {L conv a e b o} (hs : step L conv a e = .ok (b, o)) (he : e ≠ .write) (h : a.m.cw.getLsbD 4 = false) : b.m.cw.getLsbD 4 = false := by
  cases e with
  | write => exact absurd rfl he
  | joint e => simp only [step] at hs; cases hs; exact bit_targets _ _ h
  | service e =>
    simp only [step] at hs
    split at hs
    · rename_i hi
      cases hs
      exact bit_motor a.m e (by intro hx; subst hx; cases hi) h
    · cases hs; exact h
  | frame f => simp only [step] at hs; split at hs <;> first | (cases hs; exact h) | cases hs
  | read =>
    simp only [step] at hs
    split at hs
    · cases hs
    · cases hs; exact h
    · split at hs
      · cases hs
      · cases hs; exact h
      · cases hs; exact h
  | object i v => simp only [step] at hs; split at hs <;> first | (cases hs; exact h) | cases hs
  | send => simp only [step] at hs; split at hs <;> first | (cases hs; exact h) | cases hs

theorem run_cons {L conv a e q c os} (h : run L conv a (e :: q) = .ok (c, os)) :
    ∃ b o os', step L conv a e = .ok (b, o) ∧ run L conv b q = .ok (c, os') ∧ os = o :: os' := by
  simp only [run] at h
  split at h
  · rename_i b o hb
    split at h
    · rename_i c' os' hc
      cases h
      exact ⟨b, o, os', hb, hc, rfl⟩
    · cases h
    · cases h
  · cases h
  · cases h

theorem run_rest {L conv a p q b os c os'} (h1 : run L conv a p = .ok (b, os)) (h2 : run L conv a (p ++ q) = .ok (c, os')) :
    ∃ os2, run L conv b q = .ok (c, os2) ∧ os' = os ++ os2 := by
  rw [run_append h1] at h2
  split at h2
  · rename_i c2 os2 hq
    cases h2
    exact ⟨os2, hq, rfl⟩
  · cases h2
  · cases h2

theorem bit_run {L conv} (es : List Ev) : ∀ {a b os}, run L conv a es = .ok (b, os) → Ev.write ∉ es → a.m.cw.getLsbD 4 = false → b.m.cw.getLsbD 4 = false := by
  induction es with
  | nil => intro a b os h _ hb; simp only [run] at h; cases h; exact hb
  | cons e es ih =>
    intro a b os h hn hb
    obtain ⟨c, o, os', h1, h2, -⟩ := run_cons h
    exact ih h2 (fun hx => hn (List.mem_cons_of_mem _ hx)) (bit_step h1 (fun hx => hn (by rw [hx]; exact List.mem_cons_self ..)) hb)

/-- without the end of a write cycle nothing is sent -/
theorem quiet_run {L conv} (es : List Ev) : ∀ {a b os}, run L conv a es = .ok (b, os) → Ev.send ∉ es → lastFrame os = none := by
  induction es with
  | nil => intro a b os h _; simp only [run] at h; cases h; rfl
  | cons e es ih =>
    intro a b os h hn
    obtain ⟨c, o, os', h1, h2, rfl⟩ := run_cons h
    have ho : o = none := by
      cases e with
      | send => exact absurd (List.mem_cons_self ..) hn
      | joint e => simp only [step] at h1; cases h1; rfl
      | service e => simp only [step] at h1; split at h1 <;> (cases h1; rfl)
      | frame f => simp only [step] at h1; split at h1 <;> first | (cases h1; rfl) | cases h1
      | read =>
        simp only [step] at h1
        split at h1
        · cases h1
        · cases h1; rfl
        · split at h1
          · cases h1
          · cases h1; rfl
          · cases h1; rfl
      | write => simp only [step] at h1; split at h1 <;> first | (cases h1; rfl) | cases h1
      | object i v => simp only [step] at h1; split at h1 <;> first | (cases h1; rfl) | cases h1
    subst ho
    show (lastFrame os').or none = none
    rw [ih h2 (fun hx => hn (List.mem_cons_of_mem _ hx))]
    rfl

/-- the word written and the word kept agree on the bit -/
theorem bit_written (m : M402.Motor) : m.handleWrite.1.cw.getLsbD 4 = m.handleWrite.2.1.getLsbD 4 := by
  unfold M402.Motor.handleWrite
  dsimp only
  cases m.sfr <;> simp

/-- in the profiled position mode the bit gets set only together with a target -/
theorem bit_rises (m : M402.Motor) (k : Nat) (p : M402.ProfPos) (hs : m.selected = some k) (hm : m.modes k = some (.profPos p))
    (h0 : m.cw.getLsbD 4 = false) (h1 : m.handleWrite.2.1.getLsbD 4 = true) : ∃ n, m.handleWrite.2.2 = some n := by
  rw [← bit_written] at h1
  unfold M402.Motor.handleWrite at h1 ⊢
  dsimp only at h1 ⊢
  split at h1
  · rename_i he
    rw [if_pos he]
    unfold M402.Motor.writeMode at h1 ⊢
    cases ha : m.active m.modeId with
    | none => rw [ha] at h1; simp [M402.AccOp.apply, M402.opMask] at h1
    | some x =>
      have hk : m.modeId = k := by
        unfold M402.Motor.active at ha
        split at ha
        · rename_i hx; rw [hs] at hx; injection hx with hx; exact hx.symm
        · cases ha
      have hx := active_modes ha
      rw [hk, hm] at hx
      injection hx with hx
      subst hx
      rw [ha] at h1
      dsimp only [M402.Mode.write] at h1 ⊢
      unfold M402.ProfPos.write at h1 ⊢
      (repeat' split at h1) <;> simp_all [M402.AccOp.apply, M402.opMask]
  · simp only [BitVec.getLsbD_or, h0] at h1
    exact absurd h1 (by decide)

end Verif.Axis
