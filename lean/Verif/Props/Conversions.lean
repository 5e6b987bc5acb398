import Verif.Lemmas.Conversions

/-! # C124: conversions of a joint depend on their own command and on objects only -/

namespace Verif.Props
open Verif Verif.Cnv Verif.Spec.Cnv
open Verif.Rob (Kind)
open Verif.M402 (Dbl)

deriving instance DecidableEq for M402.Dbl

private def neg124 : Dbl → Dbl
  | .fin q => .fin (-q)
  | x => x
/-- "6064" and "606C" are objects with numbers -/
private def parse124 (t : Text) : Option Nat := if t = "6064".toList then some 0x6064 else if t = "606C".toList then some 0x606C else none
private def one124 (b : Expr) : Program := ⟨⟨none, b⟩, []⟩
/-- position: "old = obj6064", velocity: "-obj606C", commands are passed on -/
private def joint124 : Setup Nat where
  parse := parse124
  number := fun _ => true
  junk := fun _ => .fin 99
  prog := fun c =>
    match c with
    | .fromDevice .pos => ⟨⟨some "old".toList, .var "obj6064".toList⟩, []⟩
    | .fromDevice .vel => one124 (.app 1 (fun x => neg124 (x 0)) fun _ => .var "obj606C".toList)
    | .fromDevice .eff => one124 (.num (.fin 0))
    | .toDevice k => one124 (.var (cmdName k))

private theorem discreet124 (c : Conv) : Discreet joint124 c := by
  rintro c' - ⟨k, rfl⟩ n key h ⟨t, rfl, -⟩
  cases k <;> simp [joint124, Assigns, one124] at h

/-- C124.  From a state in which the objects of a conversion were copied, its results are determined by its own text, its own evaluations and resets, the copies of objects
and, towards the device, its own command: texts and evaluations of the other conversions and the other commands make no difference, unless they assign to objects. -/
theorem C124_independent {κ : Type} [DecidableEq κ] (S T : Setup κ) (c : Conv) (hST : T.parse = S.parse ∧ T.number = S.number ∧ T.junk = S.junk ∧ T.prog c = S.prog c)
    (hS : Discreet S c) (hT : Discreet T c) (s : St κ) (hs : ∀ n ∈ (S.prog c).names, ∀ key, Names S n key → (s.obj key).isSome) (es fs : List (Cnv.Ev κ))
    (h : es.filter (Concerns c) = fs.filter (Concerns c)) : results c (St.run S s es).2 = results c (St.run T s fs).2 := by
  have hk : ∀ n ∈ (S.prog c).names, s.known (place S c n) := by
    intro n hn
    cases hp : place S c n with
    | obj key => exact hs n hn key (place_obj.1 hp).2
    | _ => trivial
  have h1 : Alike S c s s := fun n hn => ⟨rfl, hk n hn, hk n hn⟩
  have hTS : Same T T c := ⟨rfl, rfl, rfl, rfl⟩
  have h2 : Alike T c s s := by
    intro n hn
    rw [hST.2.2.2] at hn
    have := Same.place (S := S) (T := T) (c := c) hST c n
    rw [this]
    exact ⟨rfl, hk n hn, hk n hn⟩
  rw [run_alike S T c hST hS es s s h1, run_alike T T c hTS hT fs s s h2, h]

example : Discreet joint124 (.fromDevice .vel) ∧
    (∀ n ∈ (joint124.prog (.fromDevice .vel)).names, ∀ key, Names joint124 n key →
      ((St.run joint124 (St.fresh fun _ => .nan) [.eval (.fromDevice .vel)]).1.obj key).isSome) ∧
    ([.eval (.fromDevice .pos), .sync fun _ => some (.fin 3), .command .pos (.fin 1), .eval (.fromDevice .vel)] : List (Cnv.Ev Nat)).filter (Concerns (.fromDevice .vel)) =
      [.sync fun _ => some (.fin 3), .eval (.fromDevice .vel)] ∧
    results (.fromDevice .vel) (St.run joint124 (St.fresh fun _ => .nan) [.eval (.fromDevice .vel), .sync fun _ => some (.fin 3), .eval (.fromDevice .vel)]).2 = [.fin (-99), .fin (-3)] := by
  refine ⟨discreet124 _, ?_, rfl, by decide +kernel⟩
  intro n hn key hk
  have h := (place_obj (S := joint124) (c := .fromDevice .vel)).2 ⟨⟨_, rfl⟩, hk⟩
  have := evaluate_knows joint124 (St.fresh fun _ => .nan) (.fromDevice .vel) n hn
  rw [h] at this
  exact this

/-- C124.  A reset, as at every initialisation, makes a conversion forget: afterwards its results do not depend on earlier evaluations. -/
theorem C124_forgets {κ : Type} [DecidableEq κ] (S : Setup κ) (c : Conv) (hS : Discreet S c) (s t : St κ) (hc : ∀ k, c = .toDevice k → s.cmd k = t.cmd k)
    (ho : ∀ n ∈ (S.prog c).names, ∀ key, Names S n key → s.obj key = t.obj key ∧ (s.obj key).isSome) (es : List (Cnv.Ev κ)) :
    results c (St.run S s (.reset c :: es)).2 = results c (St.run S t (.reset c :: es)).2 := by
  have hSS : Same S S c := ⟨rfl, rfl, rfl, rfl⟩
  have ha : Alike S c (s.reset c) (t.reset c) := by
    intro n hn
    rw [known_reset, known_reset, look_reset, look_reset]
    cases hp : place S c n with
    | obj key =>
      obtain ⟨h1, h2⟩ := ho n hn key (place_obj.1 hp).2
      exact ⟨by simp [St.look, h1], h2, by simpa [St.known, ← h1] using h2⟩
    | cmd k => exact ⟨hc k (place_cmd hp).1, trivial, trivial⟩
    | own c' n' =>
      have := (place_own hp).1
      exact ⟨by simp [this], trivial, trivial⟩
  have hb : Alike S c (t.reset c) (t.reset c) := fun n hn => ⟨rfl, (ha n hn).2.2, (ha n hn).2.2⟩
  show results c ([] ++ (St.run S (s.reset c) es).2) = results c ([] ++ (St.run S (t.reset c) es).2)
  rw [List.nil_append, List.nil_append, run_alike S S c hSS hS es _ _ ha, run_alike S S c hSS hS es _ _ hb]

/-- position: the one of the evaluation before, if there is one; then "last = obj6064" -/
private def late124 : Setup Nat := { joint124 with
  prog := fun c => if c = .fromDevice .pos then
    ⟨⟨none, .app 2 (fun x => match x 1 with | .nan => x 0 | y => y) fun i => if i = 0 then .var "obj6064".toList else .var "last".toList⟩, [⟨some "last".toList, .var "obj6064".toList⟩]⟩ else joint124.prog c }

example : results (.fromDevice .pos) (St.run late124 (St.fresh fun _ => .nan) [.eval (.fromDevice .pos), .sync fun _ => some (.fin 3), .eval (.fromDevice .pos), .eval (.fromDevice .pos),
    .reset (.fromDevice .pos), .sync fun _ => some (.fin 5), .eval (.fromDevice .pos)]).2 = [.fin 99, .fin 99, .fin 3, .fin 5] := by decide +kernel

/-- C124.  Conversions never change a command unless the conversion of this command assigns to it: after every history the command is the one written last. -/
theorem C124_command {κ : Type} [DecidableEq κ] (S : Setup κ) (k : Kind) (h : ¬ Assigns (S.prog (.toDevice k)) (cmdName k)) (es : List (Cnv.Ev κ)) :
    ∀ s : St κ, (St.run S s es).1.cmd k = command k (s.cmd k) es := by
  induction es with
  | nil => intro s; rfl
  | cons e es ih =>
    intro s
    show (St.run S (s.step S e).1 es).1.cmd k = _
    rw [ih]
    cases e with
    | sync get => rfl
    | reset c => rfl
    | command k' v =>
      show command k (if k = k' then v else s.cmd k) es = command k (if k' = k then v else s.cmd k) es
      by_cases hk : k' = k
      · simp [hk]
      · rw [if_neg hk, if_neg (fun x => hk x.symm)]
    | eval c =>
      have : ((s.evaluate S c).1).look S (.cmd k) = s.look S (.cmd k) := by
        apply evaluate_keep
        intro n hn hp
        obtain ⟨rfl, rfl⟩ := place_cmd hp
        exact h hn
      show command k ((s.evaluate S c).1.cmd k) es = command k (s.cmd k) es
      exact congrArg (fun v => command k v es) this

example : ¬ Assigns (joint124.prog (.toDevice .pos)) (cmdName .pos) := by simp [joint124, Assigns, one124]

private theorem run_snoc {κ : Type} [DecidableEq κ] (S : Setup κ) (es fs : List (Cnv.Ev κ)) : ∀ s : St κ,
    St.run S s (es ++ fs) = ((St.run S (St.run S s es).1 fs).1, (St.run S s es).2 ++ (St.run S (St.run S s es).1 fs).2) := by
  induction es with
  | nil => intro s; rfl
  | cons e es ih => intro s; simp only [List.cons_append, St.run, ih, List.append_assoc]

private theorem own_nan {κ : Type} [DecidableEq κ] (S : Setup κ) (c : Conv) (n : Text) (h : ¬ Assigns (S.prog c) n) (es : List (Cnv.Ev κ)) :
    ∀ s : St κ, s.own c n = .nan → (St.run S s es).1.own c n = .nan := by
  induction es with
  | nil => intro s h; exact h
  | cons e es ih =>
    intro s hs
    refine ih (s.step S e).1 ?_
    cases e with
    | sync get => exact hs
    | command k' v => exact hs
    | reset c' => simp [St.step, St.reset, hs]
    | eval c' =>
      have : ((s.evaluate S c').1).look S (.own c n) = s.look S (.own c n) := by
        apply evaluate_keep
        intro m hm hp
        obtain ⟨rfl, rfl⟩ := place_own hp
        exact h hm
      exact Eq.trans this hs

private theorem known_run {κ : Type} [DecidableEq κ] (S : Setup κ) (key : κ) (es : List (Cnv.Ev κ)) : ∀ s : St κ, s.known (.obj key) → (St.run S s es).1.known (.obj key) := by
  induction es with
  | nil => intro s h; exact h
  | cons e es ih =>
    intro s hs
    refine ih (s.step S e).1 ?_
    cases e with
    | sync get => exact (look_sync S s get _ hs).2
    | command k' v => exact hs
    | reset c' => exact (known_reset s c' _).2 hs
    | eval c' => exact evaluate_known S s c' _ hs

private theorem kept_run {κ : Type} [DecidableEq κ] (S : Setup κ) (key : κ) (ha : ∀ k n, Assigns (S.prog (.fromDevice k)) n → ¬ Names S n key) (es : List (Cnv.Ev κ))
    (hn : ∀ g, Cnv.Ev.sync g ∈ es → g key = none) : ∀ s : St κ, s.known (.obj key) → (St.run S s es).1.look S (.obj key) = s.look S (.obj key) := by
  induction es with
  | nil => intro s _; rfl
  | cons e es ih =>
    intro s hs
    show (St.run S (s.step S e).1 es).1.look S _ = _
    rw [ih (fun g hg => hn g (List.mem_cons_of_mem _ hg)) (s.step S e).1 (known_run S key [e] s hs)]
    cases e with
    | sync get => rw [(look_sync S s get _ hs).1]; simp [hn get (List.mem_cons_self ..)]
    | command k' v => rfl
    | reset c' => rfl
    | eval c' =>
      apply evaluate_keep
      intro m hm hp
      obtain ⟨⟨k, rfl⟩, h2⟩ := place_obj.1 hp
      exact ha k m hm h2

/-- C124.  What a conversion without assignments gives after any history of a new joint: the value of its first expression, where the name of its own command stands for the
command written last, a name of an object for the value read last since a conversion with this object was first evaluated, and every other name for not-a-number. -/
theorem C124_value {κ : Type} [DecidableEq κ] (S : Setup κ) (cmd : Kind → Dbl) (c : Conv) (hc : ∀ n, ¬ Assigns (S.prog c) n)
    (ha : ∀ k n key, Assigns (S.prog (.fromDevice k)) n → ¬ Names S n key) (es : List (Cnv.Ev κ)) :
    ∃ env, (St.run S (St.fresh cmd) (es ++ [.eval c])).2.getLast? = some (c, (S.prog c).first.body.eval env) ∧
      (∀ k, c = .toDevice k → env (cmdName k) = command k (cmd k) es) ∧
      (∀ k n key a get b v, c = .fromDevice k → Names S n key → es = a ++ .sync get :: b →
        (∃ k' n', Cnv.Ev.eval (.fromDevice k') ∈ a ∧ n' ∈ (S.prog (.fromDevice k')).names ∧ Names S n' key) → get key = some v →
        (∀ g, Cnv.Ev.sync g ∈ b → g key = none) → env n = v) ∧
      (∀ n, (∀ k, c = .toDevice k → n ≠ cmdName k) → (∀ k key, c = .fromDevice k → ¬ Names S n key) → env n = .nan) := by
  refine ⟨fun n => (St.run S (St.fresh cmd) es).1.look S (place S c n), ?_, ?_, ?_, ?_⟩
  · rw [run_snoc]
    simp only [St.run, St.step, evaluate_value, List.append_nil, List.getLast?_append, List.getLast?_singleton, Option.some_or]
  · rintro k rfl
    show (St.run S (St.fresh cmd) es).1.look S (place S (.toDevice k) (cmdName k)) = _
    have : place S (.toDevice k) (cmdName k) = .cmd k := by simp [place]
    rw [this]
    exact C124_command S k (hc _) es (St.fresh cmd)
  · rintro k n key a get b v rfl hn rfl ⟨k', n', h1, h2, h3⟩ hv hb
    show (St.run S (St.fresh cmd) _).1.look S (place S (.fromDevice k) n) = _
    rw [place_obj.2 ⟨⟨k, rfl⟩, hn⟩]
    obtain ⟨a1, a2, rfl⟩ := List.append_of_mem h1
    have hk : (St.run S (St.fresh cmd) (a1 ++ .eval (.fromDevice k') :: a2)).1.known (.obj key) := by
      rw [run_snoc]
      show (St.run S (St.evaluate S _ (.fromDevice k')).1 a2).1.known _
      apply known_run
      have := evaluate_knows S (St.run S (St.fresh cmd) a1).1 (.fromDevice k') n' h2
      rwa [place_obj.2 ⟨⟨k', rfl⟩, h3⟩] at this
    rw [run_snoc]
    generalize (St.run S (St.fresh cmd) (a1 ++ .eval (.fromDevice k') :: a2)).1 = s at *
    show (St.run S (s.step S (.sync get)).1 b).1.look S (.obj key) = v
    have hl := look_sync S s get (.obj key) hk
    rw [kept_run S key (fun k n => ha k n key) b hb _ hl.2, hl.1]
    simp [hv]
  · intro n h1 h2
    show (St.run S (St.fresh cmd) es).1.look S (place S c n) = _
    cases hp : place S c n with
    | cmd k => obtain ⟨h3, h4⟩ := place_cmd hp; exact absurd h4 (h1 k h3)
    | obj key => obtain ⟨⟨k, h3⟩, h4⟩ := place_obj.1 hp; exact absurd h4 (h2 k key h3)
    | own c' n' =>
      obtain ⟨rfl, rfl⟩ := place_own hp
      exact own_nan S _ _ (hc _) es _ rfl

example : (∀ n, ¬ Assigns (joint124.prog (.fromDevice .vel)) n) ∧ (∀ k n key, Assigns (joint124.prog (.fromDevice k)) n → ¬ Names joint124 n key) ∧
    Names joint124 "obj606C".toList 0x606C ∧ "obj606C".toList ∈ (joint124.prog (.fromDevice .vel)).names := by
  refine ⟨by simp [joint124, Assigns, one124], ?_, ⟨"606C".toList, rfl, rfl, rfl⟩, by decide +kernel⟩
  rintro k n key h ⟨t, rfl, -⟩
  cases k <;> simp [joint124, Assigns, one124] at h

/-- C124 needs its conditions: a conversion that assigns to a copy of an object changes what another conversion gives for the same reading of the object. -/
theorem C124_shared_false : ∃ S : Setup Nat, ∃ es : List (Cnv.Ev Nat),
    results (.fromDevice .vel) (St.run S (St.fresh fun _ => .nan) (es ++ [.sync fun _ => some (.fin 3), .eval (.fromDevice .vel)])).2 ≠
    results (.fromDevice .vel) (St.run S (St.fresh fun _ => .nan) (es ++ [.sync fun _ => some (.fin 3), .eval (.fromDevice .pos), .eval (.fromDevice .vel)])).2 :=
  ⟨{ joint124 with prog := fun c => if c = .fromDevice .pos then ⟨⟨some "obj606C".toList, .num (.fin 0)⟩, []⟩ else joint124.prog c }, [.eval (.fromDevice .vel)], by decide +kernel⟩

/-- C124: a conversion that assigns to its command changes the command. -/
theorem C124_command_false : ∃ S : Setup Nat, (St.run S (St.fresh fun _ => .nan) [.command .pos (.fin 2), .eval (.toDevice .pos)]).1.cmd .pos ≠
    command (κ := Nat) .pos .nan [.command .pos (.fin 2), .eval (.toDevice .pos)] :=
  ⟨{ joint124 with prog := fun _ => ⟨⟨some "pos".toList, .app 1 (fun x => neg124 (x 0)) fun _ => .var "pos".toList⟩, []⟩ }, by decide +kernel⟩

end Verif.Props
