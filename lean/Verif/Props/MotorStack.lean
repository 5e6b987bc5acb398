import Verif.Lemmas.MotorStack
import Verif.Lemmas.Motor
import Verif.Props.Layer

/-!
# C111: what stops the motors of a chain
-/

namespace Verif.Props
open Verif Verif.Lay Verif.M402 Verif.Spec Verif.Spec.MStk Verif.MStk

variable {ρ : Type}

/-- what reading does to a motor -/
private def ReadRel (a b : Core) : Prop := b.cw = a.cw ∧ b.target = a.target ∧ b.accepts = a.accepts ∧ WasRead a b

/-- a limit that was not there before is an error -/
private def Lim (a b : Core) (v : Nat) : Prop := ¬ Limit a.sw → Limit b.sw → 1 < v

private def ReadP : Stm := fun st a b v =>
  (st = .ready ∧ ReadRel a b ∧ Lim a b v) ∨ (st = .error ∧ ∃ m, ReadRel a m ∧ b = haltCore m ∧ Lim a m v)

private theorem readP_mono : Mono ReadP := by
  intro st a b v v' hv h
  rcases h with ⟨h1, h2, h3⟩ | ⟨h1, m, h2, h3, h4⟩
  · exact .inl ⟨h1, h2, fun x y => Nat.lt_of_lt_of_le (h3 x y) hv⟩
  · exact .inr ⟨h1, m, h2, h3, fun x y => Nat.lt_of_lt_of_le (h4 x y) hv⟩

private theorem readP_halt (st : LayerState) (a b : Core) (v : Nat) (hst : st.toNat > LayerState.halt.toNat) (h : ReadP st a b v) :
    ReadP .error a (haltCore b) v := by
  rcases h with ⟨rfl, h2, h3⟩ | ⟨rfl, -⟩
  · exact .inr ⟨rfl, b, h2, rfl, h3⟩
  · exact absurd hst (by decide)

private theorem bit11 (sw : BitVec 16) : sw &&& 0x800 ≠ 0 ↔ Limit sw := by
  have h : ∀ n, n < 16 → (0x800#16).getLsbD n = decide (n = 11) := by decide
  unfold Limit
  constructor
  · intro hne
    apply Classical.byContradiction
    intro hb
    apply hne
    apply BitVec.eq_of_getLsbD_eq
    intro n hn
    rw [BitVec.getLsbD_and, show (0x800 : BitVec 16) = 0x800#16 from rfl, h n hn]
    by_cases hq : n = 11
    · subst hq; rw [Bool.not_eq_true] at hb; rw [hb]; rfl
    · simp [hq]
  · intro hb he
    have := congrArg (fun x => x.getLsbD 11) he
    simp only [BitVec.getLsbD_and, hb] at this
    exact absurd this (by decide)

private theorem error_sev (rs : List Report) (s : Status) (x : Text) (h : Report.error x ∈ rs) : 1 < (rs.foldl Status.report s).sev.toNat := by
  induction rs generalizing s with
  | nil => cases h
  | cons r rs ih =>
    rw [List.foldl_cons]
    rcases List.mem_cons.1 h with rfl | h
    · refine Nat.lt_of_lt_of_le ?_ (reports_mono rs _)
      exact Nat.lt_of_lt_of_le (by decide : 1 < Sev.error.toNat) (set_mono s .error x).2.1
    · exact ih _ h

private theorem read_step (id : Nat) (o : Handlers (World ρ)) (e : Env (World ρ)) :
    ReadP .ready (core e.world id) (core (cycMotor true id .ready e.world).1 id) (sv (callHandler id (motorHandlers o id) .read .ready e)) := by
  refine .inl ⟨rfl, ?_, ?_⟩
  · show ReadRel _ (core (readMotor id .ready e.world).1 id)
    unfold readMotor
    dsimp only
    cases e.world.status id with
    | none => exact ⟨rfl, rfl, rfl, rfl, .inr ⟨rfl, rfl⟩⟩
    | some sw =>
      dsimp only
      cases e.world.display id with
      | none =>
        unfold World.put core
        simp only [if_true]
        exact ⟨rfl, rfl, rfl, rfl, .inl rfl⟩
      | some disp =>
        unfold World.put core
        simp only [if_true]
        exact ⟨rfl, rfl, rfl, rfl, .inl rfl⟩
  · intro h1 h2
    have key : 1 < (callHandler id (motorHandlers o id) .read .ready e).status.sev.toNat := by
      unfold callHandler motorHandlers
      dsimp only
      unfold readMotor
      dsimp only
      cases hsw : e.world.status id with
      | none =>
        dsimp only
        exact Nat.lt_of_lt_of_le (by decide : 1 < Sev.error.toNat) (set_mono _ .error _).2.1
      | some sw =>
        dsimp only
        cases hd : e.world.display id with
        | none =>
          dsimp only
          exact Nat.lt_of_lt_of_le (by decide : 1 < Sev.error.toNat) (set_mono _ .error _).2.1
        | some disp =>
          dsimp only
          apply error_sev _ _ "Internal limit active".toList
          have h2' : Limit sw := by
            have : (core (cycMotor true id .ready e.world).1 id).sw = sw := by
              show (core (readMotor id .ready e.world).1 id).sw = sw
              unfold readMotor
              dsimp only
              rw [hsw, hd]
              dsimp only
              unfold World.put core
              simp only [if_true]
              rfl
            rw [this] at h2
            exact h2
          have h1' : ¬ ((e.world.motors id).sw &&& 0x800 ≠ 0 ∨ LayerState.ready ≠ .ready) := by
            rintro (hx | hx)
            · exact h1 ((bit11 _).1 hx)
            · exact hx rfl
          unfold readReports
          dsimp only
          rw [if_pos ((bit11 sw).2 h2'), if_neg h1']
          exact List.mem_append_right _ (List.mem_singleton.2 rfl)
    exact key

private theorem read_all (t : Tree (World ρ)) (ids : List Nat) (hc : ChainOf t ids) (hu : Uniform .ready t) (e : Env (World ρ)) :
    ∃ l, Made (t.read e).1 l ∧ l.map (·.1) = ids ∧ ∀ p ∈ l, ReadP p.2 (core e.world p.1) (core (t.read e).2.world p.1) (sv (t.read e).2) := by
  obtain ⟨hn, l, hl, rfl⟩ := hc
  obtain ⟨l', h1, h2, -, h4⟩ := cyc_tr true (s := .ready) (by decide) readP_mono readP_halt (fun id o e => read_step id o e) t hu l e (core e.world) hl hn
    (fun _ _ => rfl)
  exact ⟨l', h1, h2, h4⟩

private theorem quick_bits (cw : BitVec 16) (k : Nat) :
    (opQuickStop.apply cw).getLsbD k = if k = 1 then true else if k = 2 ∨ k = 7 then false else cw.getLsbD k := by
  unfold Op.apply opQuickStop
  dsimp only
  by_cases hk : k < 16
  · have h1 : ∀ n, n < 16 → (0x84#16).getLsbD n = decide (n = 2 ∨ n = 7) := by decide
    have h2 : ∀ n, n < 16 → (0x02#16).getLsbD n = decide (n = 1) := by decide
    rw [BitVec.getLsbD_or, BitVec.getLsbD_and, BitVec.getLsbD_not, show (0x84 : BitVec 16) = 0x84#16 from rfl, h1 k hk, show (0x02 : BitVec 16) = 0x02#16 from rfl, h2 k hk]
    by_cases a : k = 1
    · subst a; simp
    · by_cases b : k = 2 ∨ k = 7 <;> simp [a, b, hk]
  · rw [BitVec.getLsbD_of_ge _ _ (by omega), BitVec.getLsbD_of_ge _ _ (by omega), if_neg (by omega)]
    simp

private theorem halt_facts (m : Core) : (haltCore m).hs = m.hs ∧ (haltCore m).sw = m.sw ∧ (haltCore m).words = m.words ∧ (haltCore m).accepts = m.accepts := by
  unfold haltCore
  split
  · exact ⟨rfl, rfl, rfl, rfl⟩
  · split <;> exact ⟨rfl, rfl, rfl, rfl⟩

private theorem stopped_of_halt {a m : Core} (h : m.cw = a.cw) (ht : m.target = a.target) : Stopped a (haltCore m) := by
  obtain ⟨f1, -, -, -⟩ := halt_facts m
  refine ⟨fun he => ?_, fun he => ?_, fun h1 h2 h3 => ?_⟩
  · rw [f1] at he
    unfold haltCore
    rw [if_neg (by rw [he]; decide), if_neg (fun h => h he)]
    refine ⟨rfl, fun k => ?_⟩
    dsimp only
    rw [quick_bits, h]
  · rw [f1] at he
    unfold haltCore
    rw [if_pos he.symm]
    exact ⟨ht, h⟩
  · rw [f1] at h1 h2 h3
    unfold haltCore
    rw [if_neg (fun hx => hx.elim h3 h2), if_pos h1]
    exact ⟨rfl, h⟩

private theorem wasRead_halt {a m : Core} (h : WasRead a m) : WasRead a (haltCore m) := by
  obtain ⟨f1, f2, f3, -⟩ := halt_facts m
  unfold WasRead
  rw [f1, f2, f3]
  exact h

private theorem not_warn_iff {σ : Type} (e : Env σ) : ¬ AtMostWarn e.status ↔ 1 < sv e := by
  have h := bounded_iff e
  unfold AtMostWarn sv
  cases e.status.sev <;> simp [Sev.toNat]

/-- C111.  If a read cycle of a running chain ends with an error, whichever layer reported it, then all layers are halted and each motor has been
read and then told to stop: an enabled one has the quick stop command. -/
theorem C111_stopped (stack : Bool) (ms : List (Tree (World ρ))) (ids : List Nat) (hc : ChainOf (.group stack .ready ms) ids)
    (hu : Uniform .ready (.group stack .ready ms)) (e : Env (World ρ)) :
    let r := (Tree.group stack .ready ms).read e
    ¬ AtMostWarn r.2.status → Uniform .error r.1 ∧ ChainOf r.1 ids ∧
      ∀ i ∈ ids, WasRead (core e.world i) (core r.2.world i) ∧ Stopped (core e.world i) (core r.2.world i) := by
  intro r hbad
  have hu' := (C23_read_cycle stack .ready (.inr rfl) ms hu e).2.2 hbad
  obtain ⟨l, h1, h2, h3⟩ := read_all _ ids hc hu e
  refine ⟨hu', ⟨hc.1, l, h1, h2⟩, fun i hi => ?_⟩
  rw [← h2] at hi
  obtain ⟨p, hp, rfl⟩ := List.mem_map.1 hi
  rcases h3 p hp with ⟨hx, -⟩ | ⟨-, m, ⟨g1, g2, -, g3⟩, g4, -⟩
  · rw [made_uniform _ l h1 hu' p hp] at hx
    cases hx
  · rw [show core r.2.world p.1 = haltCore m from g4]
    exact ⟨wasRead_halt g3, stopped_of_halt g1 g2⟩

/-- C111.  If it ends without an error, no motor is told to stop: commands and goals are as before. -/
theorem C111_not_stopped (stack : Bool) (ms : List (Tree (World ρ))) (ids : List Nat) (hc : ChainOf (.group stack .ready ms) ids)
    (hu : Uniform .ready (.group stack .ready ms)) (e : Env (World ρ)) :
    let r := (Tree.group stack .ready ms).read e
    AtMostWarn r.2.status → Uniform .ready r.1 ∧ ChainOf r.1 ids ∧
      ∀ i ∈ ids, WasRead (core e.world i) (core r.2.world i) ∧ (core r.2.world i).cw = (core e.world i).cw ∧ (core r.2.world i).target = (core e.world i).target := by
  intro r hok
  have hu' := (C23_read_cycle stack .ready (.inr rfl) ms hu e).2.1 hok
  obtain ⟨l, h1, h2, h3⟩ := read_all _ ids hc hu e
  refine ⟨hu', ⟨hc.1, l, h1, h2⟩, fun i hi => ?_⟩
  rw [← h2] at hi
  obtain ⟨p, hp, rfl⟩ := List.mem_map.1 hi
  rcases h3 p hp with ⟨-, ⟨g1, g2, -, g3⟩, -⟩ | ⟨hx, -⟩
  · exact ⟨g3, g1, g2⟩
  · rw [made_uniform _ l h1 hu' p hp] at hx
    cases hx

/-- C111.  As soon as one drive reports an internal limit that it did not report before, the whole chain is stopped as said in `C111_stopped`. -/
theorem C111_limit (stack : Bool) (ms : List (Tree (World ρ))) (ids : List Nat) (hc : ChainOf (.group stack .ready ms) ids)
    (hu : Uniform .ready (.group stack .ready ms)) (e : Env (World ρ)) (i : Nat) (hi : i ∈ ids) :
    let r := (Tree.group stack .ready ms).read e
    ¬ Limit (core e.world i).sw → Limit (core r.2.world i).sw → ¬ AtMostWarn r.2.status := by
  intro r h1 h2
  obtain ⟨l, a1, a2, a3⟩ := read_all _ ids hc hu e
  rw [← a2] at hi
  obtain ⟨p, hp, rfl⟩ := List.mem_map.1 hi
  rw [not_warn_iff]
  rcases a3 p hp with ⟨-, -, g⟩ | ⟨-, m, -, g1, g2⟩
  · exact g h1 h2
  · refine g2 h1 ?_
    have : (core r.2.world p.1).sw = m.sw := by rw [show core r.2.world p.1 = haltCore m from g1, (halt_facts m).2.1]
    rw [← this]
    exact h2

/-! writing -/

/-- what writing does to a motor -/
private def WriteRel (a b : Core) : Prop :=
  b.hs = a.hs ∧ b.sw = a.sw ∧ b.target = a.target ∧ b.accepts = a.accepts ∧
  (∀ k, k < 4 ∨ k = 7 → b.cw.getLsbD k = a.cw.getLsbD k) ∧
  (a.accepts = true → ∃ wd, b.words = wd :: a.words ∧ (∀ k, k < 4 → wd.getLsbD k = a.cw.getLsbD k) ∧ (wd.getLsbD 7 = true → a.cw.getLsbD 7 = true))

private theorem write_rel (id : Nat) (w : World ρ) : WriteRel (core w id) (core (writeMotor id w).1 id) := by
  have hb : ∀ k, k < 4 ∨ k = 7 → (w.motors id).handleWrite.1.cw.getLsbD k = (w.motors id).cw.getLsbD k := fun k hk =>
    handleWrite_cw _ _ (by omega) (by omega)
  unfold writeMotor
  dsimp only
  split
  · next ha =>
    unfold World.put core
    simp only [if_true]
    refine ⟨rfl, rfl, rfl, rfl, hb, fun _ => ⟨_, rfl, fun k hk => handleWrite_word_bit _ _ (by omega) (by omega) (by omega), fun h => ?_⟩⟩
    rw [handleWrite_word_bit7] at h
    simp only [Bool.and_eq_true] at h
    exact h.2
  · next ha =>
    unfold World.put core
    simp only [if_true]
    exact ⟨rfl, rfl, rfl, rfl, hb, fun h => absurd h ha⟩

private theorem write_fails (id : Nat) (o : Handlers (World ρ)) (s : LayerState) (e : Env (World ρ)) (h : (core e.world id).accepts = false) :
    1 < sv (callHandler id (motorHandlers o id) .write s e) := by
  show 1 < (callHandler id (motorHandlers o id) .write s e).status.sev.toNat
  unfold callHandler motorHandlers
  dsimp only
  unfold writeMotor
  dsimp only
  rw [if_neg (by rw [show e.world.accepts id = false from h]; simp)]
  exact Nat.lt_of_lt_of_le (by decide : 1 < Sev.error.toNat) (set_mono _ .error _).2.1

private def WriteP (s : LayerState) : Stm := fun st a b v =>
  ((st = s ∧ WriteRel a b) ∨ (s = .ready ∧ st = .error ∧ ∃ m, WriteRel a m ∧ b = haltCore m)) ∧ (a.accepts = false → 1 < v)

private theorem write_all (s : LayerState) (hs : s = .error ∨ s = .ready) (t : Tree (World ρ)) (ids : List Nat) (hc : ChainOf t ids) (hu : Uniform s t) (e : Env (World ρ)) :
    ∃ l, Made (t.write e).1 l ∧ l.map (·.1) = ids ∧ ∀ p ∈ l, WriteP s p.2 (core e.world p.1) (core (t.write e).2.world p.1) (sv (t.write e).2) := by
  obtain ⟨hn, l, hl, rfl⟩ := hc
  obtain ⟨l', h1, h2, -, h4⟩ := cyc_tr false (s := s) (by rcases hs with rfl | rfl <;> decide) (P := WriteP s) (fun _ _ _ _ _ hv h => ⟨h.1, fun ha => Nat.lt_of_lt_of_le (h.2 ha) hv⟩) (by
      intro st a b v hst h
      refine ⟨?_, h.2⟩
      rcases h.1 with ⟨rfl, hw⟩ | ⟨-, rfl, -⟩
      · rcases hs with rfl | rfl
        · exact absurd hst (by decide)
        · exact .inr ⟨rfl, rfl, b, hw, rfl⟩
      · exact absurd hst (by decide)) (fun id o e => ⟨.inl ⟨rfl, write_rel id e.world⟩, write_fails id o s e⟩) t hu l e (core e.world) hl hn
    (fun _ _ => rfl)
  exact ⟨l', h1, h2, h4⟩

/-- C111.  If a write cycle of a running chain ends with an error, all layers are halted as well, and each motor is told to stop as by
`C111_stopped` (its commands being what the write cycle left: only bits that are no commands to the state machine may differ). -/
theorem C111_write_stopped (stack : Bool) (ms : List (Tree (World ρ))) (ids : List Nat) (hc : ChainOf (.group stack .ready ms) ids)
    (hu : Uniform .ready (.group stack .ready ms)) (e : Env (World ρ)) :
    let r := (Tree.group stack .ready ms).write e
    ¬ AtMostWarn r.2.status → Uniform .error r.1 ∧ ∀ i ∈ ids, ∃ m, (∀ k, k < 4 ∨ k = 7 → m.cw.getLsbD k = (core e.world i).cw.getLsbD k) ∧
      m.target = (core e.world i).target ∧ (core r.2.world i).hs = (core e.world i).hs ∧ Stopped m (core r.2.world i) := by
  intro r hbad
  have hu' := (C23_write_cycle stack .ready (.inr rfl) ms hu e).2.2 hbad
  obtain ⟨l, h1, h2, h3⟩ := write_all .ready (.inr rfl) _ ids hc hu e
  refine ⟨hu', fun i hi => ?_⟩
  rw [← h2] at hi
  obtain ⟨p, hp, rfl⟩ := List.mem_map.1 hi
  rcases (h3 p hp).1 with ⟨hx, -⟩ | ⟨-, -, m, g, g4⟩
  · rw [made_uniform _ l h1 hu' p hp] at hx
    cases hx
  · refine ⟨m, g.2.2.2.2.1, g.2.2.1, ?_, ?_⟩
    · rw [show core r.2.world p.1 = haltCore m from g4, (halt_facts m).1, g.1]
    · rw [show core r.2.world p.1 = haltCore m from g4]
      exact stopped_of_halt rfl rfl

/-- C111.  A motor whose control word cannot be written makes the write cycle fail. -/
theorem C111_write_fails (stack : Bool) (ms : List (Tree (World ρ))) (ids : List Nat) (hc : ChainOf (.group stack .ready ms) ids)
    (hu : Uniform .ready (.group stack .ready ms)) (e : Env (World ρ)) (i : Nat) (hi : i ∈ ids) (ha : (core e.world i).accepts = false) :
    ¬ AtMostWarn ((Tree.group stack .ready ms).write e).2.status := by
  obtain ⟨l, h1, h2, h3⟩ := write_all .ready (.inr rfl) _ ids hc hu e
  rw [← h2] at hi
  obtain ⟨p, hp, rfl⟩ := List.mem_map.1 hi
  rw [not_warn_iff]
  exact (h3 p hp).2 ha

/-- C111.  The write cycle that follows a failed read cycle gives a quick stop command to every motor that was enabled (if the object can be written
at all), whatever the other layers do. -/
theorem C111_quick_stop_sent (stack : Bool) (ms : List (Tree (World ρ))) (ids : List Nat) (hc : ChainOf (.group stack .ready ms) ids)
    (hu : Uniform .ready (.group stack .ready ms)) (e : Env (World ρ)) (s : Status) :
    let r := (Tree.group stack .ready ms).read e
    let r' := r.1.write { r.2 with status := s }
    ¬ AtMostWarn r.2.status → ∀ i ∈ ids, (core r.2.world i).hs = .enabled →
      (core e.world i).accepts = true → ∃ wd, (core r'.2.world i).words = wd :: (core e.world i).words ∧ IsQuickStop wd := by
  intro r r' hbad i hi hen hacc
  obtain ⟨hu', hc', hall⟩ := C111_stopped stack ms ids hc hu e hbad
  obtain ⟨hr, hst⟩ := hall i hi
  have hacc' : (core r.2.world i).accepts = true := by
    obtain ⟨l, a1, a2, a3⟩ := read_all _ ids hc hu e
    rw [← a2] at hi
    obtain ⟨p, hp, rfl⟩ := List.mem_map.1 hi
    rcases a3 p hp with ⟨-, g, -⟩ | ⟨-, m, g, g1, -⟩
    · rw [← hacc]; exact g.2.2.1
    · rw [show core r.2.world p.1 = haltCore m from g1, (halt_facts m).2.2.2, g.2.2.1]; exact hacc
  obtain ⟨l, b1, b2, b3⟩ := write_all .error (.inl rfl) r.1 ids hc' hu' { r.2 with status := s }
  have hi' := hi
  rw [← b2] at hi'
  obtain ⟨p, hp, rfl⟩ := List.mem_map.1 hi'
  have hw : WriteRel (core r.2.world p.1) (core r'.2.world p.1) := by
    rcases (b3 p hp).1 with ⟨-, g⟩ | ⟨hx, -⟩
    · exact g
    · cases hx
  obtain ⟨wd, c1, c2, c3⟩ := hw.2.2.2.2.2 hacc'
  obtain ⟨-, hq⟩ := hst.1 hen
  refine ⟨wd, by rw [c1, hr.1], ?_, ?_, ?_⟩
  · rw [c2 1 (by omega), hq]; rfl
  · rw [c2 2 (by omega), hq]; rfl
  · apply Classical.byContradiction
    intro hx
    have := c3 (by simpa using hx)
    rw [hq] at this
    simp at this

/-- C111.  Halting the chain (service `halt`) stops every motor in the same way, by the state last read. -/
theorem C111_halt (t : Tree (World ρ)) (ids : List Nat) (hc : ChainOf t ids) (hu : Uniform .ready t) (e : Env (World ρ)) :
    Uniform .error (t.halt e).1 ∧ ∀ i ∈ ids, (core (t.halt e).2.world i).hs = (core e.world i).hs ∧ Stopped (core e.world i) (core (t.halt e).2.world i) := by
  have hu' : Uniform .error (t.halt e).1 := halt_uniform .ready t e hu
  obtain ⟨hn, l, hl, rfl⟩ := hc
  let P : Stm := fun st a b _ => (st = .ready ∧ b = a) ∨ (st = .error ∧ b = haltCore a)
  obtain ⟨l', h1, h2, -, h4⟩ := halt_tr (ρ := ρ) (P := P) (fun _ _ _ _ _ _ h => h) (by
    intro st a b v hst h
    rcases h with ⟨rfl, rfl⟩ | ⟨rfl, -⟩
    · exact .inr ⟨rfl, rfl⟩
    · exact absurd hst (by decide)) t l e (core e.world) hl hn (fun p hp => .inl ⟨made_uniform t l hl hu p hp, rfl⟩)
  refine ⟨hu', fun i hi => ?_⟩
  rw [← h2] at hi
  obtain ⟨p, hp, rfl⟩ := List.mem_map.1 hi
  rcases h4 p hp with ⟨hx, -⟩ | ⟨-, g⟩
  · rw [made_uniform _ l' h1 hu' p hp] at hx
    cases hx
  · rw [show core (t.halt e).2.world p.1 = haltCore (core e.world p.1) from g]
    exact ⟨(halt_facts _).1, stopped_of_halt rfl rfl⟩

/-! what a motor reports -/

/-- C111.  A motor that was read reports an error exactly if the profiled position mode is selected and displayed and bit 13 (following error) is set,
or there is an internal limit, its layer is ready and there was no limit the last time. -/
theorem C111_reports (m : Motor) (sw : BitVec 16) (disp : BitVec 8) (st : LayerState) :
    (∃ x, Report.error x ∈ readReports m sw disp st) ↔
      (∃ k p, m.selected = some k ∧ m.modes k = some (.profPos p) ∧ (k : Int) = disp.toInt % 65536 ∧ sw.getLsbD 13 = true) ∨
      (st = .ready ∧ Limit sw ∧ ¬ Limit m.sw) := by
  have hdisp : ((disp.signExtend 16).toNat : Int) = disp.toInt % 65536 := by
    have key : ∀ x : Fin 256, ((((⟨x⟩ : BitVec 8).signExtend 16).toNat : Nat) : Int) = (⟨x⟩ : BitVec 8).toInt % 65536 := by decide +kernel
    exact key disp.toFin
  have h13 : ∀ p : ProfPos, (p.read sw).2 = false ↔ sw.getLsbD 13 = true := by
    intro p
    show decide (sw &&& 0x2000 = 0) = false ↔ _
    rw [decide_eq_false_iff_not]
    have h : ∀ n, n < 16 → (0x2000#16).getLsbD n = decide (n = 13) := by decide
    constructor
    · intro hne
      apply Classical.byContradiction
      intro hb
      apply hne
      apply BitVec.eq_of_getLsbD_eq
      intro n hn
      rw [BitVec.getLsbD_and, show (0x2000 : BitVec 16) = 0x2000#16 from rfl, h n hn]
      by_cases hq : n = 13
      · subst hq; rw [Bool.not_eq_true] at hb; rw [hb]; rfl
      · simp [hq]
    · intro hb he
      have := congrArg (fun x => x.getLsbD 13) he
      simp only [BitVec.getLsbD_and, hb] at this
      exact absurd this (by decide)
  have e1 : (∃ x, Report.error x ∈ (match m.active (disp.signExtend 16).toNat with
      | some h => if (h.read sw).2 then [] else [Report.error "Mode handler has error".toList]
      | none => [])) ↔ ∃ k p, m.selected = some k ∧ m.modes k = some (.profPos p) ∧ (k : Int) = disp.toInt % 65536 ∧ sw.getLsbD 13 = true := by
    rw [← hdisp]
    unfold Motor.active
    constructor
    · rintro ⟨x, hx⟩
      by_cases hsel : m.selected = some (disp.signExtend 16).toNat
      · rw [if_pos hsel] at hx
        cases hm : m.modes (disp.signExtend 16).toNat with
        | none => rw [hm] at hx; cases hx
        | some h =>
          rw [hm] at hx
          dsimp only at hx
          cases h with
          | forward o s k t => cases hx
          | homing h => cases hx
          | profPos p =>
            refine ⟨_, p, hsel, hm, rfl, (h13 p).1 ?_⟩
            have hr : (Mode.read (.profPos p) sw).2 = (p.read sw).2 := rfl
            rw [hr] at hx
            cases hq : (p.read sw).2 with
            | false => rfl
            | true => rw [hq] at hx; cases hx
      · rw [if_neg hsel] at hx
        cases hx
    · rintro ⟨k, p, h1, h2, h3, h4⟩
      have hk : k = (disp.signExtend 16).toNat := by exact_mod_cast h3
      subst hk
      rw [if_pos h1, h2]
      dsimp only
      have hr : (Mode.read (.profPos p) sw).2 = (p.read sw).2 := rfl
      rw [hr, (h13 p).2 h4]
      exact ⟨_, List.mem_singleton.2 rfl⟩
  have e2 : (∃ x, Report.error x ∈ (if sw &&& 0x800 ≠ 0 then
        if m.sw &&& 0x800 ≠ 0 ∨ st ≠ .ready then [Report.warn "Internal limit active".toList] else [.error "Internal limit active".toList]
      else [])) ↔ st = .ready ∧ Limit sw ∧ ¬ Limit m.sw := by
    rw [← bit11, ← bit11]
    by_cases h1 : sw &&& 0x800 ≠ 0
    · rw [if_pos h1]
      by_cases h2 : m.sw &&& 0x800 ≠ 0 ∨ st ≠ .ready
      · rw [if_pos h2]
        constructor
        · rintro ⟨x, hx⟩
          rw [List.mem_singleton] at hx
          cases hx
        · rintro ⟨h3, -, h4⟩
          rcases h2 with h2 | h2
          · exact absurd h2 h4
          · exact absurd h3 h2
      · rw [if_neg h2]
        exact ⟨fun _ => ⟨Classical.not_not.1 (fun h => h2 (.inr h)), h1, fun h => h2 (.inl h)⟩, fun _ => ⟨_, List.mem_singleton.2 rfl⟩⟩
    · rw [if_neg h1]
      exact ⟨(fun ⟨x, hx⟩ => (nomatch hx)), fun h => absurd h.2.1 h1⟩
  have e3 : ∀ x, Report.error x ∉ (if m.selected.isSome ∧ m.selected ≠ some (disp.signExtend 16).toNat then [Report.warn "mode does not match".toList] else []) := by
    intro x hx
    split at hx
    · rw [List.mem_singleton] at hx
      cases hx
    · cases hx
  rw [← e1, ← e2]
  unfold readReports
  dsimp only
  constructor
  · rintro ⟨x, hx⟩
    rcases List.mem_append.1 hx with hx | hx
    · rcases List.mem_append.1 hx with hx | hx
      · exact .inl ⟨x, hx⟩
      · exact absurd hx (e3 x)
    · exact .inr ⟨x, hx⟩
  · rintro (⟨x, hx⟩ | ⟨x, hx⟩)
    · exact ⟨x, List.mem_append_left _ (List.mem_append_left _ hx)⟩
    · exact ⟨x, List.mem_append_right _ hx⟩

/-- C111.  Reading a motor alone: the status word that the object gives is what the motor knows from then on; if it or the mode display cannot be read,
this is an error. -/
theorem C111_read (i : Nat) (o : Handlers (World ρ)) (tr : List Method) (e : Env (World ρ)) :
    let r := (Tree.leaf i .ready (motorHandlers o i) tr).read e
    (∀ sw, e.world.status i = some sw → (core r.2.world i).sw = sw ∧ (core r.2.world i).hs = decode sw) ∧
    (e.world.status i = none ∨ e.world.display i = none → ¬ AtMostWarn r.2.status) := by
  intro r
  have hr : r.2 = callHandler i (motorHandlers o i) .read .ready e := rfl
  have hw : r.2.world = (readMotor i .ready e.world).1 := rfl
  refine ⟨fun sw h => ?_, fun h => ?_⟩
  · rw [hw]
    unfold readMotor
    dsimp only
    rw [h]
    dsimp only
    cases e.world.display i with
    | none => simp only [World.put, core, if_true, and_self]
    | some disp =>
      unfold World.put core
      simp only [if_true]
      exact ⟨rfl, rfl⟩
  · rw [not_warn_iff, hr]
    show 1 < (callHandler i (motorHandlers o i) .read .ready e).status.sev.toNat
    unfold callHandler motorHandlers
    dsimp only
    unfold readMotor
    dsimp only
    cases hs : e.world.status i with
    | none => exact Nat.lt_of_lt_of_le (by decide : 1 < Sev.error.toNat) (set_mono _ .error _).2.1
    | some sw =>
      dsimp only
      cases hd : e.world.display i with
      | none => exact Nat.lt_of_lt_of_le (by decide : 1 < Sev.error.toNat) (set_mono _ .error _).2.1
      | some disp => rw [hs, hd] at h; rcases h with h | h <;> cases h

/-! a chain of a calm layer and two motors, both enabled -/

private def running : Motor :=
  { cw := 0x0F, sfr := false, hs := .enabled, sw := 0x27, target := .enabled, modes := fun _ => none, drives := none, selected := none, modeId := 0,
    phase := .idle }

private def nothing : Handlers (World Unit) := ⟨fun _ _ w _ => (w, [], none)⟩

private def two : Tree (World Unit) :=
  .group true .ready [.leaf 0 .ready nothing [], .group false .ready [.leaf 1 .ready (motorHandlers nothing 1) [], .leaf 2 .ready (motorHandlers nothing 2) []]]

/-- the first motor reports a limit (`lim`), writing to the second works (`acc`) -/
private def scene (lim acc : Bool) : Env (World Unit) :=
  { world := { motors := fun _ => running, status := fun i => some (if lim ∧ i = 1 then 0x827 else 0x27), display := fun _ => some 0,
               accepts := fun i => acc || i == 1, words := fun _ => [], rest := () },
    status := .initial, log := [] }

private theorem two_chain : ChainOf two [1, 2] ∧ Uniform .ready two := by
  refine ⟨⟨by decide, [(1, .ready), (2, .ready)], ?_, rfl⟩, ?_⟩
  · refine ⟨[], _, rfl, .inr ⟨fun _ _ _ _ _ => rfl, rfl⟩, [(1, .ready), (2, .ready)], [], rfl, ?_, rfl⟩
    exact ⟨[(1, .ready)], [(2, .ready)], rfl, .inl ⟨_, rfl, rfl⟩, [(2, .ready)], [], rfl, .inl ⟨_, rfl, rfl⟩, rfl⟩
  · simp [two, Uniform, UniformAll]

/-- the hypotheses of `C111_stopped`, `C111_limit` and `C111_quick_stop_sent` are met: the limit of the first motor stops the second one as well -/
example : ChainOf two [1, 2] ∧ Uniform .ready two ∧ ¬ AtMostWarn (two.read (scene true true)).2.status ∧
    ¬ Limit (core (scene true true).world 1).sw ∧ Limit (core (two.read (scene true true)).2.world 1).sw ∧
    (core (two.read (scene true true)).2.world 2).hs = .enabled ∧ (core (scene true true).world 2).accepts = true ∧
    (core (two.read (scene true true)).2.world 2).cw = 0x0B :=
  ⟨two_chain.1, two_chain.2, by unfold AtMostWarn; decide +kernel, by unfold Limit; decide +kernel, by unfold Limit; decide +kernel, by decide +kernel,
    by decide +kernel, by decide +kernel⟩

/-- and those of `C111_not_stopped` without the limit -/
example : AtMostWarn (two.read (scene false true)).2.status := by unfold AtMostWarn; decide +kernel

/-- and those of `C111_write_fails` and `C111_write_stopped` if the second one cannot be written: the first one is stopped -/
example : (core (scene false false).world 2).accepts = false ∧ ¬ AtMostWarn (two.write (scene false false)).2.status ∧ (core (two.write (scene false false)).2.world 1).target = .quickStop :=
  ⟨rfl, by unfold AtMostWarn; decide +kernel, by decide +kernel⟩

/-- what is sent after the failed read cycle -/
example : (core ((two.read (scene true true)).1.write (two.read (scene true true)).2).2.world 2).words = [0x10B#16] := by decide +kernel

/-- halting -/
example : (core (two.halt (scene false true)).2.world 1).cw = 0x0B ∧ (core (two.halt (scene false true)).2.world 2).cw = 0x0B := by decide +kernel

/-- both kinds of errors -/
example : (∃ x, Report.error x ∈ readReports running 0x827 0 .ready) ∧ ¬ (∃ x, Report.error x ∈ readReports running 0x827 0 .error) :=
  ⟨⟨_, List.mem_singleton.2 rfl⟩, fun h => by
    rcases (C111_reports _ _ _ _).1 h with ⟨k, p, h, -⟩ | ⟨h, -⟩ <;> cases h⟩

end Verif.Props
