import Verif.Spec.Master

set_option linter.unusedSimpArgs false
set_option linter.unusedVariables false

namespace Verif
open Verif.Spec.Master

theorem snoc_induction {α : Type} (P : List α → Prop) (h0 : P []) (h1 : ∀ es e, P es → P (es ++ [e])) (es : List α) : P es := by
  have : ∀ l : List α, P l.reverse := by
    intro l
    induction l with
    | nil => exact h0
    | cons e l ih => rw [List.reverse_cons]; exact h1 _ _ ih
  have := this es.reverse
  rwa [List.reverse_reverse] at this

theorem snoc_split {α : Type} {es a b : List α} {e x : α} (h : es ++ [e] = a ++ x :: b) :
    (b = [] ∧ a = es ∧ x = e) ∨ ∃ b', b = b' ++ [e] ∧ es = a ++ x :: b' := by
  rcases List.eq_nil_or_concat b with hb | ⟨b', y, hb⟩
  · left
    subst hb
    have := List.append_inj' h rfl
    simp at this
    exact ⟨rfl, this.1.symm, this.2.symm⟩
  · right
    subst hb
    rw [List.concat_eq_append] at h
    rw [← List.cons_append, ← List.append_assoc] at h
    have := List.append_inj' h rfl
    simp at this
    refine ⟨b', ?_, this.1⟩
    rw [List.concat_eq_append, this.2]

end Verif

namespace Verif.Emcy
open Verif Verif.Lay Verif.Spec.Master

theorem run_snoc (h : Handler) (es : List Ev) (e : Ev) : h.run (es ++ [e]) = (h.run es).step e := by
  induction es generalizing h with
  | nil => rfl
  | cons a es ih => simp only [List.cons_append, Handler.run, ih]

theorem hasList_run (h : Handler) (es : List Ev) : (h.run es).hasList = h.hasList := by
  induction es generalizing h with
  | nil => rfl
  | cons e es ih =>
    simp only [Handler.run, ih]
    cases e with
    | frame f => rfl
    | init r c =>
      simp only [Handler.step, Handler.handleInit]
      split
      · rfl
      · split
        · rfl
        · unfold Handler.resetErrors; split <;> rfl

theorem alarming_all : ∀ r : Byte, ((r &&& ~~~ (32 : Byte)) ≠ 0) = ((r.getLsbD 0 || r.getLsbD 1 || r.getLsbD 2 || r.getLsbD 3 || r.getLsbD 4 || r.getLsbD 6 || r.getLsbD 7) = true) := by
  intro r
  rw [eq_iff_iff]
  revert r
  decide +kernel

theorem alarming_iff (r : Byte) : (r &&& ~~~ (32 : Byte)) ≠ 0 ↔ Alarming r := by
  rw [alarming_all]
  constructor
  · intro h
    simp only [Bool.or_eq_true] at h
    rcases h with (((((h | h) | h) | h) | h) | h) | h
    · exact ⟨0, by omega, by omega, h⟩
    · exact ⟨1, by omega, by omega, h⟩
    · exact ⟨2, by omega, by omega, h⟩
    · exact ⟨3, by omega, by omega, h⟩
    · exact ⟨4, by omega, by omega, h⟩
    · exact ⟨6, by omega, by omega, h⟩
    · exact ⟨7, by omega, by omega, h⟩
  · rintro ⟨i, h1, h2, h3⟩
    have : i = 0 ∨ i = 1 ∨ i = 2 ∨ i = 3 ∨ i = 4 ∨ i = 6 ∨ i = 7 := by omega
    rcases this with rfl | rfl | rfl | rfl | rfl | rfl | rfl <;> simp [h3]

theorem bit0_all : ∀ r : Byte, ((r &&& 1) ≠ 0) = (r.getLsbD 0 = true) := by
  intro r
  rw [eq_iff_iff]
  revert r
  decide +kernel

theorem run_inError (hasList : Bool) (es : List Ev) (hw : ∀ f, Ev.frame f ∈ es → wellFormed f) :
    ((Handler.fresh hasList).run es).hasError = true ↔ InError hasList es := by
  revert hw
  apply snoc_induction (fun es => (∀ f, Ev.frame f ∈ es → wellFormed f) → (((Handler.fresh hasList).run es).hasError = true ↔ InError hasList es))
  · intro _
    exact ⟨fun _ => .fresh, fun _ => rfl⟩
  · intro es e ih hw
    have ih := ih (fun f hf => hw f (by simp [hf]))
    rw [run_snoc]
    cases e with
    | frame f =>
      have hwf := hw f (by simp)
      simp only [Handler.step, Handler.handleEMCY, decide_eq_true_eq]
      rw [alarming_iff]
      constructor
      · intro h; exact .frame es f hwf h
      · intro h
        generalize hl : es ++ [Ev.frame f] = l at h
        cases h with
        | fresh => simp at hl
        | frame es' f' _ ha =>
          have := List.append_inj' hl rfl
          simp at this
          rw [this.2]; exact ha
        | keep es' e' _ hk _ =>
          have := List.append_inj' hl rfl
          simp at this
          exact absurd hwf (hk f this.2.symm)
    | init reg clears =>
      have hL : ((Handler.fresh hasList).run es).hasList = hasList := hasList_run _ es
      have key : ((((Handler.fresh hasList).run es).step (.init reg clears)).hasError = true) ↔
          (((Handler.fresh hasList).run es).hasError = true ∧ ¬ resets hasList (.init reg clears)) := by
        generalize (Handler.fresh hasList).run es = h at hL
        simp only [Handler.step, Handler.handleInit]
        cases reg with
        | none => simp [resets]
        | some r =>
          simp only [bit0_all, resets]
          cases hb : r.getLsbD 0 with
          | true => simp
          | false =>
            simp only [Bool.false_eq_true, if_false, Handler.resetErrors, hL, true_and]
            cases hasList <;> cases clears <;> simp
      rw [key, ih]
      constructor
      · rintro ⟨h1, h2⟩
        exact .keep es _ h1 (fun f h => by cases h) h2
      · intro h
        generalize hl : es ++ [Ev.init reg clears] = l at h
        cases h with
        | fresh => simp at hl
        | frame es' f' _ ha =>
          have := List.append_inj' hl rfl
          simp at this
        | keep es' e' h1 hk h2 =>
          have := List.append_inj' hl rfl
          simp at this
          rw [this.1, this.2]
          exact ⟨h1, h2⟩

end Verif.Emcy

namespace Verif.Sync
open Verif Verif.Lay Verif.Spec.Master

theorem run_snoc (s : Simple) (es : List Ev) (e : Ev) :
    s.run (es ++ [e]) = (((s.run es).1.step e).1, (s.run es).2 ++ ((s.run es).1.step e).2) := by
  induction es generalizing s with
  | nil => simp [Simple.run]
  | cons a es ih => simp only [List.cons_append, Simple.run, ih, List.append_assoc]

theorem cycles_append (a b : List Ev) : cycles (a ++ b) = cycles a + cycles b := by
  induction a with
  | nil => simp [cycles]
  | cons e es ih => cases e <;> simp [cycles, ih] <;> omega

theorem member_snoc (es : List Ev) (e : Ev) (n : Nat) :
    Member (es ++ [e]) n ↔ e = .add n ∨ (Member es n ∧ e ≠ .remove n) := by
  constructor
  · rintro ⟨a, b, h, hb⟩
    rcases snoc_split h with ⟨-, -, h1⟩ | ⟨b', h1, h2⟩
    · exact .inl h1.symm
    · right
      refine ⟨⟨a, b', h2, fun hm => hb (by rw [h1]; simp [hm])⟩, fun he => hb (by rw [h1, he]; simp)⟩
  · rintro (rfl | ⟨⟨a, b, h, hb⟩, hne⟩)
    · exact ⟨es, [], rfl, by simp⟩
    · refine ⟨a, b ++ [e], by rw [h]; simp, ?_⟩
      intro hm
      rcases List.mem_append.mp hm with hm | hm
      · exact hb hm
      · exact hne (List.mem_singleton.mp hm).symm

theorem update_nodes (s : Simple) : s.update.nodes = s.nodes ∧ s.update.overflow = s.overflow := by
  unfold Simple.update
  split
  · split <;> exact ⟨rfl, rfl⟩
  · exact ⟨rfl, rfl⟩

theorem step_overflow (s : Simple) (e : Ev) : (s.step e).1.overflow = s.overflow := by
  cases e with
  | add n => rfl
  | remove n => rfl
  | write st =>
    simp only [Simple.step, Simple.handleWrite]
    split
    · exact (update_nodes s).2
    · rfl

theorem step_nodes (s : Simple) (e : Ev) (n : Nat) :
    n ∈ (s.step e).1.nodes ↔ e = .add n ∨ (n ∈ s.nodes ∧ e ≠ .remove n) := by
  cases e with
  | add m =>
    simp only [Simple.step, Simple.addNode]
    split
    · rename_i h
      constructor
      · intro h1; exact .inr ⟨h1, fun h => by cases h⟩
      · rintro (h1 | ⟨h1, -⟩)
        · cases h1; exact h
        · exact h1
    · simp [eq_comm]
  | remove m =>
    simp only [Simple.step, Simple.removeNode]
    rw [List.mem_filter]
    constructor
    · rintro ⟨h1, h2⟩
      refine .inr ⟨h1, fun h => ?_⟩
      cases h
      simp at h2
    · rintro (h1 | ⟨h1, h2⟩)
      · cases h1
      · exact ⟨h1, by simp; exact fun h => h2 (by rw [h])⟩
  | write st =>
    have : (s.step (.write st)).1.nodes = s.nodes := by
      simp only [Simple.step, Simple.handleWrite]
      split
      · exact (update_nodes s).1
      · rfl
    rw [this]
    simp

theorem run_nodes (s : Simple) (h0 : s.nodes = []) (es : List Ev) (n : Nat) : n ∈ (s.run es).1.nodes ↔ Member es n := by
  apply snoc_induction (fun es => n ∈ (s.run es).1.nodes ↔ Member es n)
  · simp [Simple.run, h0, Member]
  · intro es e ih
    rw [run_snoc, member_snoc, ← ih]
    exact step_nodes _ _ _

/-- header and length of the frame, and its counter -/
structure Counts (h : Header) (o k : Nat) (s : Simple) : Prop where
  head : s.frame.toHeader = h
  ov : s.overflow.toNat = o
  len : s.frame.dlc = 1
  val : s.frame.data[0].toNat = k % o + 1

theorem update_counts {h : Header} {o k : Nat} {s : Simple} (ho : 2 ≤ o) (ho' : o ≤ 240) (hc : Counts h o k s) :
    Counts h o (k + 1) s.update := by
  obtain ⟨h1, h2, h3, h4⟩ := hc
  have hmod : k % o < o := Nat.mod_lt _ (by omega)
  unfold Simple.update
  rw [if_pos (by rw [h3]; decide)]
  split
  · rename_i hge
    refine ⟨h1, h2, h3, ?_⟩
    have hk : k % o = o - 1 := by omega
    have : (k + 1) % o = 0 := by
      rw [Nat.add_mod, hk]
      have h1o : 1 % o = 1 := Nat.mod_eq_of_lt (by omega)
      rw [h1o, Nat.sub_add_cancel (by omega), Nat.mod_self]
    rw [this]
    show ((s.frame.data.set 0 1)[0]).toNat = _
    rw [Vector.getElem_set_self]
    rfl
  · rename_i hlt
    refine ⟨h1, h2, h3, ?_⟩
    have : (k + 1) % o = k % o + 1 := by
      rw [Nat.add_mod, Nat.mod_eq_of_lt (a := 1) (by omega), Nat.mod_eq_of_lt]
      omega
    rw [this]
    simp only [Vector.getElem_set_self, BitVec.toNat_add]
    rw [h4]
    simp
    omega

theorem step_counts {h : Header} {o k : Nat} {s : Simple} (ho : 2 ≤ o) (ho' : o ≤ 240) (hc : Counts h o k s) (e : Ev) :
    Counts h o (k + cycles [e]) (s.step e).1 := by
  cases e with
  | add n => exact ⟨hc.1, hc.2, hc.3, hc.4⟩
  | remove n => exact ⟨hc.1, hc.2, hc.3, hc.4⟩
  | write st =>
    simp only [Simple.step, Simple.handleWrite, cycles]
    split
    · exact update_counts ho ho' hc
    · exact hc

theorem run_counts {h : Header} {o : Nat} {s : Simple} (ho : 2 ≤ o) (ho' : o ≤ 240) (hc : Counts h o 0 s) (es : List Ev) :
    Counts h o (cycles es) (s.run es).1 := by
  apply snoc_induction (fun es => Counts h o (cycles es) (s.run es).1)
  · exact hc
  · intro es e ih
    rw [run_snoc, cycles_append]
    exact step_counts ho ho' ih e

theorem step_plain (s : Simple) (h : s.frame.dlc = 0) (e : Ev) : (s.step e).1.frame = s.frame := by
  cases e with
  | add n => rfl
  | remove n => rfl
  | write st =>
    simp only [Simple.step, Simple.handleWrite]
    split
    · unfold Simple.update
      rw [if_neg (by rw [h]; decide)]
    · rfl

theorem run_plain (s : Simple) (h : s.frame.dlc = 0) (es : List Ev) : (s.run es).1.frame = s.frame := by
  induction es generalizing s with
  | nil => rfl
  | cons e es ih =>
    simp only [Simple.run]
    have := step_plain s h e
    rw [ih _ (by rw [this]; exact h), this]

theorem create_cases (p : Props) (junk : Vector Byte 8) (s : Simple) (h : Simple.create p junk = some s) :
    s.nodes = [] ∧ ((p.overflow.toNat = 0 ∧ s.frame.dlc = 0 ∧ s.frame.toHeader = p.header) ∨
      (2 ≤ p.overflow.toNat ∧ p.overflow.toNat ≤ 240 ∧ Counts p.header p.overflow.toNat 0 s)) := by
  unfold Simple.create at h
  dsimp only at h
  split at h
  · cases h
  · rename_i hno
    have h1 : p.overflow.toNat ≠ 1 := fun e => hno (.inl (BitVec.eq_of_toNat_eq e))
    have h2 : p.overflow.toNat ≤ 240 := by
      have : ¬ p.overflow.toNat > 240 := fun e => hno (.inr e)
      omega
    split at h
    · rename_i hgt
      cases h
      refine ⟨rfl, .inr ⟨by omega, h2, rfl, rfl, rfl, ?_⟩⟩
      simp
    · cases h
      exact ⟨rfl, .inl ⟨by omega, rfl, rfl⟩⟩

end Verif.Sync

namespace Verif.Bcm
open Verif Verif.Spec.Master

theorem run_snoc (s : State) (es : List Ev) (e : Ev) : s.run (es ++ [e]) = (s.run es).step e := by
  induction es generalizing s with
  | nil => rfl
  | cons a es ih => simp only [List.cons_append, State.run, ih]

theorem mem_insert (n m : Nat) (l : List Nat) : n ∈ insert m l ↔ n = m ∨ n ∈ l := by
  unfold insert
  split
  · rename_i h
    constructor
    · exact .inr
    · rintro (rfl | h')
      · exact h
      · exact h'
  · simp

theorem started_snoc (es : List Seen) (x : Seen) (n : Nat) :
    Started (es ++ [x]) n ↔ (∃ f, x = .frame f ∧ starts f n) ∨ (Started es n ∧ x ≠ .halt ∧ ∀ f, x = .frame f → ¬ ends f n) := by
  constructor
  · rintro ⟨a, f, b, h, hs, he, hh⟩
    rcases snoc_split h with ⟨-, -, h1⟩ | ⟨b', h1, h2⟩
    · exact .inl ⟨f, h1.symm, hs⟩
    · right
      refine ⟨⟨a, f, b', h2, hs, fun g hg => he g (by rw [h1]; simp [hg]), fun hm => hh (by rw [h1]; simp [hm])⟩, ?_, ?_⟩
      · intro hx; exact hh (by rw [h1, hx]; simp)
      · intro g hx; exact he g (by rw [h1, hx]; simp)
  · rintro (⟨f, rfl, hs⟩ | ⟨⟨a, f, b, h, hs, he, hh⟩, h1, h2⟩)
    · exact ⟨es, f, [], rfl, hs, by simp, by simp⟩
    · refine ⟨a, f, b ++ [x], by rw [h]; simp, hs, ?_, ?_⟩
      · intro g hg
        rcases List.mem_append.mp hg with hg | hg
        · exact he g hg
        · exact h2 g (List.mem_singleton.mp hg).symm
      · intro hm
        rcases List.mem_append.mp hm with hm | hm
        · exact hh hm
        · exact h1 (List.mem_singleton.mp hm).symm

/-- the two descriptions of the heartbeat identifiers -/
theorem heartbeat_id (i : BitVec 29) (h : i &&& ~~~ (127 : BitVec 29) = 0x700) :
    i.toNat = 0x700 + (i &&& 127).toNat ∧ (i &&& 127).toNat < 128 := by
  have e1 : i = (i &&& ~~~ (127 : BitVec 29)) ||| (i &&& 127) := by
    apply BitVec.eq_of_getLsbD_eq
    intro k hk
    simp only [BitVec.getLsbD_or, BitVec.getLsbD_and, BitVec.getLsbD_not, hk, decide_true, Bool.true_and]
    cases i.getLsbD k <;> cases (127 : BitVec 29).getLsbD k <;> rfl
  have hlt : (i &&& 127).toNat < 128 := by
    rw [BitVec.toNat_and]
    have : (127 : BitVec 29).toNat = 2 ^ 7 - 1 := by decide
    rw [this, Nat.and_two_pow_sub_one_eq_mod]
    exact Nat.mod_lt _ (by decide)
  refine ⟨?_, hlt⟩
  rw [h] at e1
  have e2 := congrArg BitVec.toNat e1
  rw [BitVec.toNat_or] at e2
  have e3 : (0x700 : BitVec 29).toNat = 2 ^ 7 * 14 := by decide
  rw [e3, ← Nat.two_pow_add_eq_or_of_lt (by simpa using hlt)] at e2
  omega

theorem heartbeat_id_conv_all : ∀ n : Fin 128, (BitVec.ofNat 29 (0x700 + n.val)) &&& ~~~ (127 : BitVec 29) = 0x700 ∧
    ((BitVec.ofNat 29 (0x700 + n.val)) &&& 127).toNat = n.val := by decide +kernel

theorem heartbeat_id_conv (i : BitVec 29) (n : Nat) (h : i.toNat = 0x700 + n) (hn : n < 128) :
    i &&& ~~~ (127 : BitVec 29) = 0x700 ∧ (i &&& 127).toNat = n := by
  have : i = BitVec.ofNat 29 (0x700 + n) := by
    apply BitVec.eq_of_toNat_eq
    rw [BitVec.toNat_ofNat, h]
    omega
  rw [this]
  exact heartbeat_id_conv_all ⟨n, hn⟩

/-- what does not change -/
structure Same (s t : State) : Prop where
  ig : t.ignored = s.ignored
  mo : t.monitored = s.monitored
  he : t.header = s.header
  fr : t.syncFrames = s.syncFrames
  pe : t.period = s.period
  op : t.open_ = s.open_
  li : t.listening = s.listening

/-- the kernel runs the SYNC job exactly if some node is started -/
structure Good (s : State) : Prop where
  op : s.open_ = true
  li : s.listening = true
  run : s.running = !s.started.isEmpty
  job : s.job = if s.running then some (txSetup s.period s.header s.syncFrames) else none

theorem toggle_spec (s : State) (hop : s.open_ = true) (hli : s.listening = true)
    (hj : s.job = if s.running then some (txSetup s.period s.header s.syncFrames) else none) :
    Good (s.toggle true) ∧ Same s (s.toggle true) ∧ (s.toggle true).started = s.started := by
  unfold State.toggle
  cases hr : s.running with
  | true =>
    rw [hr, if_pos rfl] at hj
    cases he : s.started.isEmpty with
    | true =>
      simp only [State.stopTX, hop, hj]
      refine ⟨⟨rfl, hli, ?_, ?_⟩, ⟨rfl, rfl, rfl, rfl, rfl, hop.symm, rfl⟩, rfl⟩ <;> simp [he, hop]
    | false =>
      simp only [Bool.false_eq_true, false_and, if_false]
      exact ⟨⟨hop, hli, by simp [hr, he], by simp [hr, hj]⟩, ⟨rfl, rfl, rfl, rfl, rfl, rfl, rfl⟩, rfl⟩
  | false =>
    rw [hr] at hj
    simp only [Bool.false_eq_true, if_false] at hj
    cases he : s.started.isEmpty with
    | true =>
      simp only [Bool.false_eq_true, and_false, false_and, if_false, Bool.not_true]
      exact ⟨⟨hop, hli, by simp [hr, he], by simp [hr, hj]⟩, ⟨rfl, rfl, rfl, rfl, rfl, rfl, rfl⟩, trivial⟩
    | false =>
      simp only [State.startTX, hop]
      refine ⟨⟨?_, ?_, ?_, ?_⟩, ⟨?_, ?_, ?_, ?_, ?_, ?_, ?_⟩, ?_⟩ <;> simp [he, hop, hli]

theorem skip_iff (s : State) (id : Nat) : s.skipNode id = false ↔ watched s.monitored s.ignored id := by
  unfold State.skipNode watched
  cases hm : s.monitored with
  | nil => simp
  | cons a l =>
    simp only [Bool.or_eq_false_iff, Bool.and_eq_false_iff, decide_eq_false_iff_not]
    simp
    intro _
    by_cases h : id = a <;> simp [h]

/-- what a frame means for node `n` -/
theorem no_start_end_of_other (f : Frame) (n : Nat) (h0 : f.id = 0 → f.dlc.toNat > 1 → f.data[1].toNat ≠ n)
    (h1 : f.id &&& ~~~ (127 : BitVec 29) = 0x700 → (f.id &&& 127).toNat ≠ n ∨ ¬ (f.dlc.toNat > 0 ∧ f.data[0] = 4)) : ¬ starts f n ∧ ¬ ends f n := by
  constructor
  · rintro ⟨a, b, -, d⟩
    exact h0 a b d
  · rintro (⟨c, -, a, b, -, d⟩ | ⟨a, b, c, d⟩)
    · exact h0 a b d
    · obtain ⟨e1, e2⟩ := heartbeat_id_conv f.id n a b
      rcases h1 e1 with h | h
      · exact h e2
      · exact h ⟨c, d⟩

theorem frame_step (s : State) (hg : Good s) (f : Frame) (hnb : ∀ cmd, ¬ IsNmt f cmd 0)
    (hsub : ∀ n, n ∈ s.started → watched s.monitored s.ignored n) :
    Good (s.handleFrame f true) ∧ Same s (s.handleFrame f true) ∧
    ∀ n, n ∈ (s.handleFrame f true).started ↔ (watched s.monitored s.ignored n ∧ starts f n) ∨ (n ∈ s.started ∧ ¬ ends f n) := by
  have htog : ∀ (k st : List Nat), (∀ n, n ∈ st ↔ (watched s.monitored s.ignored n ∧ starts f n) ∨ (n ∈ s.started ∧ ¬ ends f n)) →
      Good (State.toggle { s with known := k, started := st } true) ∧ Same s (State.toggle { s with known := k, started := st } true) ∧
      ∀ n, n ∈ (State.toggle { s with known := k, started := st } true).started ↔ (watched s.monitored s.ignored n ∧ starts f n) ∨ (n ∈ s.started ∧ ¬ ends f n) := by
    intro k st hst
    obtain ⟨t1, t2, t3⟩ := toggle_spec { s with known := k, started := st } hg.op hg.li hg.job
    refine ⟨t1, ⟨t2.ig, t2.mo, t2.he, t2.fr, t2.pe, t2.op, t2.li⟩, ?_⟩
    intro n
    rw [t3]
    exact hst n
  have hplain : ∀ (k : List Nat), (∀ n, watched s.monitored s.ignored n → ¬ starts f n ∧ ¬ ends f n) →
      ∀ n, n ∈ s.started ↔ (watched s.monitored s.ignored n ∧ starts f n) ∨ (n ∈ s.started ∧ ¬ ends f n) := by
    intro k hno n
    constructor
    · intro hn; exact .inr ⟨hn, (hno n (hsub n hn)).2⟩
    · rintro (⟨h1, h2⟩ | ⟨h1, -⟩)
      · exact absurd h2 (hno n h1).1
      · exact h1
  unfold State.handleFrame
  by_cases hid : f.id = 0
  · rw [if_pos hid]
    have hnh : ¬ f.id &&& ~~~ (127 : BitVec 29) = 0x700 := by rw [hid]; decide
    by_cases hd : f.dlc.toNat > 1
    · rw [if_pos hd]
      dsimp only
      have hid0 : f.data[1].toNat ≠ 0 := fun h => hnb f.data[0] ⟨hid, hd, rfl, h⟩
      cases hsk : s.skipNode f.data[1].toNat with
      | true =>
        rw [if_pos rfl]
        refine ⟨hg, ⟨rfl, rfl, rfl, rfl, rfl, rfl, rfl⟩, ?_⟩
        apply hplain []
        intro n hw
        apply no_start_end_of_other
        · intro _ _ hn
          rw [← hn, ← skip_iff, hsk] at hw
          cases hw
        · intro h; exact absurd h hnh
      | false =>
        rw [if_neg (by simp)]
        have hw := (skip_iff s _).mp hsk
        by_cases hc : f.data[0] = 1
        · rw [if_pos hc, if_pos hid0]
          apply htog
          intro n
          rw [mem_insert]
          constructor
          · rintro (rfl | hn)
            · exact .inl ⟨hw, hid, hd, hc, rfl⟩
            · refine .inr ⟨hn, ?_⟩
              rintro (⟨c, h1, h2⟩ | ⟨h1, -⟩)
              · exact h1 (by rw [← h2.2.2.1, hc])
              · rw [hid] at h1; simp at h1; omega
          · rintro (⟨-, h2⟩ | ⟨h1, -⟩)
            · exact .inl h2.2.2.2.symm
            · exact .inr h1
        · rw [if_neg hc, if_pos hid0]
          apply htog
          intro n
          rw [List.mem_filter]
          constructor
          · rintro ⟨hn, hne⟩
            simp at hne
            refine .inr ⟨hn, (no_start_end_of_other f n (fun _ _ h => hne h.symm) (fun h => absurd h hnh)).2⟩
          · rintro (⟨-, h2⟩ | ⟨h1, h2⟩)
            · exact absurd h2.2.2.1 hc
            · refine ⟨h1, ?_⟩
              simp
              intro hn
              exact h2 (.inl ⟨f.data[0], hc, hid, hd, rfl, hn.symm⟩)
    · rw [if_neg hd]
      apply htog
      apply hplain []
      intro n hw
      exact no_start_end_of_other f n (fun _ h => absurd h hd) (fun h => absurd h hnh)
  · rw [if_neg hid]
    by_cases hh : f.id &&& ~~~ (127 : BitVec 29) = 0x700
    · rw [if_pos hh]
      dsimp only
      obtain ⟨e1, e2⟩ := heartbeat_id f.id hh
      cases hsk : s.skipNode (f.id &&& 127).toNat with
      | true =>
        rw [if_pos rfl]
        refine ⟨hg, ⟨rfl, rfl, rfl, rfl, rfl, rfl, rfl⟩, ?_⟩
        apply hplain []
        intro n hw
        apply no_start_end_of_other
        · intro h; exact absurd h hid
        · intro _
          left
          intro hn
          rw [← hn, ← skip_iff, hsk] at hw
          cases hw
      | false =>
        rw [if_neg (by simp)]
        by_cases hc : f.dlc.toNat > 0 ∧ f.data[0] = 4
        · rw [if_pos hc]
          apply htog
          intro n
          rw [List.mem_filter]
          constructor
          · rintro ⟨hn, hne⟩
            simp at hne
            exact .inr ⟨hn, (no_start_end_of_other f n (fun h => absurd h hid) (fun _ => .inl (fun h => hne (by rw [← h]; simp)))).2⟩
          · rintro (⟨-, h2⟩ | ⟨h1, h2⟩)
            · exact absurd h2.1 hid
            · refine ⟨h1, ?_⟩
              simp
              intro hn
              have hn' : n = (f.id &&& 127).toNat := by rw [hn]; simp
              exact h2 (.inr ⟨by rw [hn', ← e1], by rw [hn']; exact e2, hc.1, hc.2⟩)
        · rw [if_neg hc]
          apply htog
          apply hplain []
          intro n hw
          exact no_start_end_of_other f n (fun h => absurd h hid) (fun _ => .inr hc)
    · rw [if_neg hh]
      have := htog s.known s.started (hplain [] (fun n hw => no_start_end_of_other f n (fun h => absurd h hid) (fun h => absurd h hh)))
      exact this

theorem halt_step (s : State) (hg : Good s) : Good s.handleHalt ∧ Same s s.handleHalt ∧ s.handleHalt.started = [] := by
  unfold State.handleHalt
  cases hr : s.running with
  | true =>
    have hj := hg.job
    rw [hr, if_pos rfl] at hj
    rw [if_pos rfl]
    simp only [State.stopTX, hg.op, hj]
    refine ⟨⟨?_, hg.li, ?_, ?_⟩, ⟨rfl, rfl, rfl, rfl, rfl, ?_, rfl⟩, trivial⟩ <;> simp [hg.op]
  | false =>
    rw [if_neg (by simp)]
    refine ⟨hg, ⟨rfl, rfl, rfl, rfl, rfl, rfl, rfl⟩, ?_⟩
    have := hg.run
    rw [hr] at this
    cases h : s.started with
    | nil => rfl
    | cons a l => rw [h] at this; cases this

theorem watch_run (s : State) (hg : Good s) (h0 : s.started = []) (es : List Seen) (hnb : ∀ f, Seen.frame f ∈ es → ∀ cmd, ¬ IsNmt f cmd 0) :
    Good (s.run (es.map toEv)) ∧ Same s (s.run (es.map toEv)) ∧
    ∀ n, n ∈ (s.run (es.map toEv)).started ↔ watched s.monitored s.ignored n ∧ Started es n := by
  revert hnb
  apply snoc_induction (fun es => (∀ f, Seen.frame f ∈ es → ∀ cmd, ¬ IsNmt f cmd 0) → Good (s.run (es.map toEv)) ∧ Same s (s.run (es.map toEv)) ∧
    ∀ n, n ∈ (s.run (es.map toEv)).started ↔ watched s.monitored s.ignored n ∧ Started es n)
  · intro _
    refine ⟨hg, ⟨rfl, rfl, rfl, rfl, rfl, rfl, rfl⟩, ?_⟩
    intro n
    simp [State.run, h0, Started]
  · intro es x ih hnb
    obtain ⟨i1, i2, i3⟩ := ih (fun f hf => hnb f (by simp [hf]))
    rw [List.map_append, List.map_singleton, run_snoc]
    generalize s.run (es.map toEv) = t at i1 i2 i3
    cases x with
    | halt =>
      obtain ⟨h1, h2, h3⟩ := halt_step t i1
      refine ⟨h1, ⟨h2.ig.trans i2.ig, h2.mo.trans i2.mo, h2.he.trans i2.he, h2.fr.trans i2.fr, h2.pe.trans i2.pe, h2.op.trans i2.op, h2.li.trans i2.li⟩, ?_⟩
      intro n
      simp only [toEv, State.step, h3]
      rw [started_snoc]
      simp
    | frame f =>
      have hw : ∀ n, watched t.monitored t.ignored n ↔ watched s.monitored s.ignored n := by intro n; rw [i2.mo, i2.ig]
      obtain ⟨h1, h2, h3⟩ := frame_step t i1 f (hnb f (by simp)) (fun n hn => (hw n).mpr ((i3 n).mp hn).1)
      simp only [toEv, State.step, i1.li, if_true]
      refine ⟨h1, ⟨h2.ig.trans i2.ig, h2.mo.trans i2.mo, h2.he.trans i2.he, h2.fr.trans i2.fr, h2.pe.trans i2.pe, h2.op.trans i2.op, h2.li.trans i2.li⟩, ?_⟩
      intro n
      rw [h3, hw, i3, started_snoc]
      constructor
      · rintro (⟨a, b⟩ | ⟨⟨a, b⟩, c⟩)
        · exact ⟨a, .inl ⟨f, rfl, b⟩⟩
        · exact ⟨a, .inr ⟨b, (by simp), fun g hg => (by cases hg; exact c)⟩⟩
      · rintro ⟨a, ⟨g, hg, b⟩ | ⟨b, -, c⟩⟩
        · cases hg; exact .inl ⟨a, b⟩
        · exact .inr ⟨⟨a, b⟩, c f rfl⟩

/-- stuck: the layer believes the job to run, but the kernel has none -/
structure Stuck (s : State) : Prop where
  run : s.running = true
  job : s.job = none

theorem stuck_toggle (s : State) (h : Stuck s) (ok : Bool) : Stuck (s.toggle ok) := by
  unfold State.toggle
  cases he : s.started.isEmpty with
  | true => simp only [h.run, State.stopTX, h.job]; exact ⟨by simp, by simp [h.job]⟩
  | false => simp only [h.run]; simp; exact h

theorem stuck_frame (s : State) (h : Stuck s) (f : Frame) (ok : Bool) : Stuck (s.handleFrame f ok) := by
  unfold State.handleFrame
  dsimp only
  repeat' split
  all_goals first
    | exact h
    | (apply stuck_toggle; exact ⟨h.run, h.job⟩)

end Verif.Bcm
