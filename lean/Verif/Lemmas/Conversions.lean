import Verif.Spec.Conversions

namespace Verif.Cnv
open Verif Verif.Spec.Cnv
open Verif.Rob (Kind)
open Verif.M402 (Dbl)

variable {κ : Type} [DecidableEq κ]

theorem eval_congr (e : Expr) (env env' : Text → Dbl) (h : ∀ n ∈ e.names, env n = env' n) : e.eval env = e.eval env' := by
  induction e with
  | num v => rfl
  | var n => exact h n (by simp [Expr.names])
  | app k f args ih =>
    simp only [Expr.eval]
    congr 1
    funext i
    refine ih i fun n hn => h n ?_
    simp only [Expr.names, List.mem_flatten, List.mem_ofFn]
    exact ⟨_, ⟨i, rfl⟩, hn⟩

omit [DecidableEq κ] in
theorem place_own {S : Setup κ} {c c' : Conv} {n n' : Text} (h : place S c n = .own c' n') : c' = c ∧ n' = n := by
  unfold place at h
  split at h
  · split at h
    · cases h
    · cases h; exact ⟨rfl, rfl⟩
  · split at h
    · cases h
    · cases h; exact ⟨rfl, rfl⟩

omit [DecidableEq κ] in
theorem place_cmd {S : Setup κ} {c : Conv} {n : Text} {k : Kind} (h : place S c n = .cmd k) : c = .toDevice k ∧ n = cmdName k := by
  unfold place at h
  split at h
  · split at h
    · cases h; exact ⟨rfl, by assumption⟩
    · cases h
  · split at h <;> cases h

omit [DecidableEq κ] in
theorem object_iff (S : Setup κ) (n : Text) (key : κ) : objectOf S.parse S.number n = some key ↔ Names S n key := by
  unfold objectOf Names
  constructor
  · intro h
    split at h
    · rename_i hp
      obtain ⟨t, rfl⟩ := hp
      refine ⟨t, rfl, ?_⟩
      have hd : ("obj".toList ++ t).drop 3 = t := rfl
      rw [hd] at h
      rw [Option.filter_eq_some_iff] at h
      exact ⟨h.1, h.2⟩
    · cases h
  · rintro ⟨t, rfl, h1, h2⟩
    have hd : ("obj".toList ++ t).drop 3 = t := rfl
    rw [if_pos ⟨t, rfl⟩, hd, Option.filter_eq_some_iff]
    exact ⟨h1, h2⟩

omit [DecidableEq κ] in
theorem place_obj {S : Setup κ} {c : Conv} {n : Text} {key : κ} : place S c n = .obj key ↔ (∃ k, c = .fromDevice k) ∧ Names S n key := by
  rw [← object_iff]
  unfold place
  cases c with
  | toDevice k =>
    simp only
    constructor
    · intro h; split at h <;> cases h
    · rintro ⟨⟨k', h⟩, -⟩; cases h
  | fromDevice k =>
    simp only
    cases objectOf S.parse S.number n with
    | none => simp
    | some x => simp

/-- what is behind a place can be relied on: an object was copied at least once -/
def St.known (s : St κ) : Place κ → Prop
  | .obj key => (s.obj key).isSome
  | _ => True

theorem look_store (S : Setup κ) (s : St κ) (p q : Place κ) (v : Dbl) : (s.store p v).look S q = if q = p then v else s.look S q := by
  cases p <;> cases q <;> simp only [St.store, St.look, Place.cmd.injEq, Place.obj.injEq, Place.own.injEq, reduceCtorEq, if_false] <;> split <;> simp_all

theorem known_store (s : St κ) (p q : Place κ) (v : Dbl) (h : s.known q) : (s.store p v).known q := by
  cases p <;> cases q <;> simp only [St.store, St.known] at * <;> first | trivial | assumption | (split <;> simp_all)

theorem look_create (S : Setup κ) (s : St κ) (p q : Place κ) : (s.create S p).look S q = s.look S q := by
  cases p <;> cases q <;> simp only [St.create, St.look]
  split <;> simp_all

theorem known_create (S : Setup κ) (s : St κ) (p q : Place κ) (h : s.known q) : (s.create S p).known q := by
  cases p <;> cases q <;> simp only [St.create, St.known] at * <;> first | trivial | assumption | (split <;> simp_all)

theorem known_created (S : Setup κ) (s : St κ) (p : Place κ) : (s.create S p).known p := by
  cases p <;> simp [St.create, St.known]

theorem creates (S : Setup κ) (c : Conv) (ns : List Text) : ∀ s : St κ,
    (∀ q, (ns.foldl (fun s n => s.create S (place S c n)) s).look S q = s.look S q) ∧
    (∀ q, s.known q → (ns.foldl (fun s n => s.create S (place S c n)) s).known q) ∧
    (∀ n ∈ ns, (ns.foldl (fun s n => s.create S (place S c n)) s).known (place S c n)) := by
  induction ns with
  | nil => intro s; simp
  | cons n ns ih =>
    intro s
    obtain ⟨h1, h2, h3⟩ := ih (s.create S (place S c n))
    simp only [List.foldl_cons]
    refine ⟨fun q => (h1 q).trans (look_create S s _ q), fun q hq => h2 q (known_create S s _ q hq), ?_⟩
    intro m hm
    rcases List.mem_cons.1 hm with rfl | hm
    · exact h2 _ (known_created S s _)
    · exact h3 m hm

/-- the items of a conversion only change what they assign -/
theorem items_keep (S : Setup κ) (c : Conv) (q : Place κ) (is : List Item) (hq : ∀ i ∈ is, ∀ n, i.target = some n → place S c n ≠ q) : ∀ s : St κ,
    (is.foldl (fun s i => (s.item S c i).1) s).look S q = s.look S q := by
  induction is with
  | nil => intro s; rfl
  | cons i is ih =>
    intro s
    simp only [List.foldl_cons]
    rw [ih (fun j hj => hq j (List.mem_cons_of_mem _ hj))]
    unfold St.item
    cases ht : i.target with
    | none => rfl
    | some n =>
      simp only
      rw [look_store, if_neg]
      exact fun h => hq i (List.mem_cons_self ..) n ht h.symm

theorem items_known (S : Setup κ) (c : Conv) (q : Place κ) (is : List Item) : ∀ s : St κ, s.known q → (is.foldl (fun s i => (s.item S c i).1) s).known q := by
  induction is with
  | nil => intro s h; exact h
  | cons i is ih =>
    intro s h
    simp only [List.foldl_cons]
    apply ih
    unfold St.item
    cases i.target with
    | none => exact h
    | some n => exact known_store s _ q _ h

theorem evaluate_eq (S : Setup κ) (s : St κ) (c : Conv) : (s.evaluate S c).1 =
    ((S.prog c).first :: (S.prog c).rest).foldl (fun s i => (s.item S c i).1) ((S.prog c).names.foldl (fun s n => s.create S (place S c n)) s) := rfl

theorem evaluate_keep (S : Setup κ) (s : St κ) (c : Conv) (q : Place κ) (hq : ∀ n, Assigns (S.prog c) n → place S c n ≠ q) : (s.evaluate S c).1.look S q = s.look S q := by
  rw [evaluate_eq, items_keep, (creates S c _ s).1]
  intro i hi n hn
  rcases List.mem_cons.1 hi with rfl | hi
  · exact hq n (Or.inl hn)
  · exact hq n (Or.inr ⟨i, hi, hn⟩)

theorem evaluate_known (S : Setup κ) (s : St κ) (c : Conv) (q : Place κ) (h : s.known q) : (s.evaluate S c).1.known q := by
  rw [evaluate_eq]
  exact items_known S c q _ _ ((creates S c _ s).2.1 q h)

theorem evaluate_knows (S : Setup κ) (s : St κ) (c : Conv) (n : Text) (h : n ∈ (S.prog c).names) : (s.evaluate S c).1.known (place S c n) := by
  rw [evaluate_eq]
  exact items_known S c _ _ _ ((creates S c _ s).2.2 n h)

theorem evaluate_value (S : Setup κ) (s : St κ) (c : Conv) : (s.evaluate S c).2 = (S.prog c).first.body.eval (fun n => s.look S (place S c n)) := by
  show (S.prog c).first.body.eval _ = _
  congr 1
  funext n
  exact (creates S c _ s).1 _

/-! ## One conversion among others -/

/-- the two states look alike for the conversion -/
def Alike (S : Setup κ) (c : Conv) (s t : St κ) : Prop := ∀ n ∈ (S.prog c).names,
  s.look S (place S c n) = t.look S (place S c n) ∧ s.known (place S c n) ∧ t.known (place S c n)

/-- the setups are the same for the conversion -/
def Same (S T : Setup κ) (c : Conv) : Prop := T.parse = S.parse ∧ T.number = S.number ∧ T.junk = S.junk ∧ T.prog c = S.prog c

omit [DecidableEq κ] in
theorem Same.place {S T : Setup κ} {c : Conv} (h : Same S T c) (c' : Conv) (n : Text) : place T c' n = Cnv.place S c' n := by
  unfold Cnv.place
  rw [h.1, h.2.1]

omit [DecidableEq κ] in
theorem Same.look {S T : Setup κ} {c : Conv} (h : Same S T c) (s : St κ) (p : Place κ) : s.look T p = s.look S p := by
  cases p <;> simp [St.look, h.2.2.1]

theorem items_alike (S T : Setup κ) (c : Conv) (hS : Same S T c) (ns : List Text) (is : List Item) (hi : ∀ i ∈ is, ∀ n ∈ i.names, n ∈ ns) : ∀ s t : St κ,
    (∀ n ∈ ns, s.look S (place S c n) = t.look S (place S c n)) →
    ∀ n ∈ ns, (is.foldl (fun s i => (s.item S c i).1) s).look S (place S c n) = (is.foldl (fun s i => (s.item T c i).1) t).look S (place S c n) := by
  induction is with
  | nil => intro s t h; exact h
  | cons i is ih =>
    intro s t h
    simp only [List.foldl_cons]
    refine ih (fun j hj => hi j (List.mem_cons_of_mem _ hj)) _ _ fun n hn => ?_
    have hv : i.body.eval (fun n => s.look S (place S c n)) = i.body.eval (fun n => t.look T (place T c n)) := by
      refine eval_congr _ _ _ fun m hm => ?_
      rw [hS.place, hS.look]
      exact h m (hi i (List.mem_cons_self ..) m (by simp [Item.names, hm]))
    unfold St.item
    cases ht : i.target with
    | none => exact h n hn
    | some m =>
      simp only
      rw [look_store, look_store, hS.place, hv, h n hn]

omit [DecidableEq κ] in
theorem names_items (S : Setup κ) (c : Conv) : ∀ i ∈ (S.prog c).first :: (S.prog c).rest, ∀ n ∈ i.names, n ∈ (S.prog c).names := by
  intro i hi n hn
  simp only [Program.names, List.mem_append, List.mem_flatMap]
  rcases List.mem_cons.1 hi with rfl | hi
  · exact Or.inl hn
  · exact Or.inr ⟨i, hi, hn⟩

theorem evaluate_alike (S T : Setup κ) (c : Conv) (hS : Same S T c) (s t : St κ) (h : Alike S c s t) :
    (s.evaluate S c).2 = (t.evaluate T c).2 ∧ Alike S c (s.evaluate S c).1 (t.evaluate T c).1 := by
  constructor
  · rw [evaluate_value, evaluate_value, hS.2.2.2]
    refine eval_congr _ _ _ fun n hn => ?_
    rw [hS.place, hS.look]
    exact (h n (names_items S c _ (List.mem_cons_self ..) n (by simp [Item.names, hn]))).1
  · intro n hn
    refine ⟨?_, evaluate_known S s c _ (h n hn).2.1, ?_⟩
    · rw [evaluate_eq, evaluate_eq, hS.2.2.2]
      refine items_alike S T c hS (S.prog c).names _ (names_items S c) _ _ (fun m hm => ?_) n hn
      rw [(creates S c _ s).1, ← hS.look (s := (List.foldl _ t _)), (creates T c _ t).1, hS.look]
      exact (h m hm).1
    · exact evaluate_known T t c _ (h n hn).2.2

omit [DecidableEq κ] in
theorem look_reset (S : Setup κ) (s : St κ) (c : Conv) (q : Place κ) : (s.reset c).look S q = (match q with | .own c' _ => if c' = c then .nan else s.look S q | _ => s.look S q) := by
  cases q <;> simp [St.reset, St.look]

omit [DecidableEq κ] in
theorem known_reset (s : St κ) (c : Conv) (q : Place κ) : (s.reset c).known q ↔ s.known q := by
  cases q <;> simp [St.reset, St.known]

theorem look_sync (S : Setup κ) (s : St κ) (get : κ → Option Dbl) (q : Place κ) (hq : s.known q) :
    ((s.step S (.sync get)).1).look S q = (match (generalizing := false) q with | .obj key => (get key).getD (s.look S q) | _ => s.look S q) ∧ ((s.step S (.sync get)).1).known q := by
  cases q with
  | obj key =>
    simp only [St.known, Option.isSome_iff_exists] at hq
    obtain ⟨v, hv⟩ := hq
    simp [St.step, St.look, St.known, hv]
  | _ => simp [St.step, St.look, St.known]

/-- a step that concerns the conversion -/
theorem step_alike (S T : Setup κ) (c : Conv) (hS : Same S T c) (s t : St κ) (h : Alike S c s t) (e : Ev κ) (he : Concerns c e = true) :
    results c (s.step S e).2 = results c (t.step T e).2 ∧ Alike S c (s.step S e).1 (t.step T e).1 := by
  cases e with
  | sync get =>
    refine ⟨rfl, fun n hn => ?_⟩
    obtain ⟨h1, h2, h3⟩ := h n hn
    have a := look_sync S s get _ h2
    have b := look_sync S t get _ h3
    refine ⟨?_, a.2, b.2⟩
    rw [a.1]
    show _ = ((t.step S (.sync get)).1).look S _
    rw [b.1, h1]
  | eval c' =>
    have : c' = c := by cases c <;> simpa [Concerns] using he
    subst this
    obtain ⟨h1, h2⟩ := evaluate_alike S T c' hS s t h
    exact ⟨by simp [St.step, results, h1], h2⟩
  | reset c' =>
    refine ⟨rfl, fun n hn => ?_⟩
    obtain ⟨h1, h2, h3⟩ := h n hn
    refine ⟨?_, (known_reset s c' _).2 h2, (known_reset t c' _).2 h3⟩
    show (s.reset c').look S _ = (t.reset c').look S _
    rw [look_reset, look_reset, h1]
  | command k v =>
    refine ⟨rfl, fun n hn => ?_⟩
    obtain ⟨h1, h2, h3⟩ := h n hn
    have key : ∀ u : St κ, (u.step S (.command k v)).1 = u.store (.cmd k) v := fun u => rfl
    refine ⟨?_, ?_, ?_⟩
    · show (s.store (.cmd k) v).look S _ = (t.store (.cmd k) v).look S _
      rw [look_store, look_store, h1]
    · exact known_store s (.cmd k) _ v h2
    · exact known_store t (.cmd k) _ v h3

/-- a step that does not concern the conversion -/
theorem step_other (S : Setup κ) (c : Conv) (hd : Discreet S c) (s : St κ) (e : Ev κ) (he : Concerns c e = false) :
    results c (s.step S e).2 = [] ∧ ∀ n, s.known (place S c n) → ((s.step S e).1).look S (place S c n) = s.look S (place S c n) ∧ ((s.step S e).1).known (place S c n) := by
  cases e with
  | sync get => cases c <;> cases he
  | eval c' =>
    have hne : c' ≠ c := by cases c <;> simpa [Concerns] using he
    refine ⟨by simp [St.step, results, hne], fun n hk => ⟨evaluate_keep S s c' _ ?_, evaluate_known S s c' _ hk⟩⟩
    intro m hm heq
    cases hp : place S c n with
    | own c1 n1 =>
      rw [hp] at heq
      exact hne ((place_own heq).1.symm.trans (place_own hp).1)
    | cmd k =>
      rw [hp] at heq
      exact hne ((place_cmd heq).1.trans (place_cmd hp).1.symm)
    | obj key =>
      rw [hp] at heq
      obtain ⟨h1, h2⟩ := place_obj.1 heq
      exact hd c' hne h1 m key hm h2
  | reset c' =>
    have hne : c' ≠ c := by cases c <;> simpa [Concerns] using he
    refine ⟨rfl, fun n hk => ⟨?_, (known_reset s c' _).2 hk⟩⟩
    show (s.reset c').look S _ = _
    rw [look_reset]
    cases hp : place S c n with
    | own c1 n1 =>
      have := (place_own hp).1
      simp only
      rw [if_neg (by rw [this]; exact fun h => hne h.symm)]
    | _ => rfl
  | command k v =>
    refine ⟨rfl, fun n hk => ⟨?_, known_store s (.cmd k) _ v hk⟩⟩
    show (s.store (.cmd k) v).look S _ = _
    rw [look_store, if_neg]
    intro hp
    obtain ⟨rfl, -⟩ := place_cmd hp
    simp [Concerns] at he

theorem results_append (c : Conv) (a b : List (Conv × Dbl)) : results c (a ++ b) = results c a ++ results c b := by simp [results]

theorem run_alike (S T : Setup κ) (c : Conv) (hS : Same S T c) (hd : Discreet S c) (es : List (Ev κ)) : ∀ s t : St κ, Alike S c s t →
    results c (St.run S s es).2 = results c (St.run T t (es.filter (Concerns c))).2 := by
  induction es with
  | nil => intro s t _; rfl
  | cons e es ih =>
    intro s t h
    simp only [St.run, results_append]
    cases he : Concerns c e with
    | true =>
      obtain ⟨h1, h2⟩ := step_alike S T c hS s t h e he
      rw [List.filter_cons_of_pos he]
      simp only [St.run, results_append]
      rw [h1, ih _ _ h2]
    | false =>
      obtain ⟨h1, h2⟩ := step_other S c hd s e he
      rw [List.filter_cons_of_neg (by simp [he]), h1, List.nil_append]
      refine ih _ _ fun n hn => ?_
      obtain ⟨h3, h4, h5⟩ := h n hn
      exact ⟨(h2 n h4).1.trans h3, (h2 n h4).2, h5⟩

end Verif.Cnv
