import Verif.Spec.Setup
import Verif.Lemmas.Replay

/-! Lemmas about the set-up of a chain. -/

set_option linter.unusedSimpArgs false

namespace Verif.Setup
open Verif Verif.Merge Verif.Spec Verif.Spec.Setup

theorem get_append (fs : Fields) (n k : String) (x : XVal) :
    (fs.append n x).get? k = match fs.get? k with
      | some v => some v
      | none => if k = n then some x else none := by
  match fs with
  | .nil => simp only [Fields.append, Fields.get?]
  | .cons a v rest =>
    have ih := get_append rest n k x
    simp only [Fields.append, Fields.get?]
    split
    · rfl
    · exact ih

theorem withName_get (m : Fields) (v : XVal) (k : String) (h : k ≠ "name") : (withName m v).get? k = m.get? k := by
  unfold withName
  split
  · rfl
  · rw [get_append]
    cases m.get? k with
    | none => simp [h]
    | some _ => rfl

theorem withName_name (m : Fields) (v : XVal) : (withName m v).get? "name" = some ((m.get? "name").getD v) := by
  unfold withName
  split
  · rename_i h
    revert h
    cases m.get? "name" <;> simp
  · rename_i h
    rw [get_append]
    revert h
    cases m.get? "name" <;> simp

theorem bind_ok {α β : Type} (r : Res α) (f : α → Res β) (b : β) : r.bind f = .ok b ↔ ∃ a, r = .ok a ∧ f a = .ok b := by
  cases r <;> simp [Res.bind]

theorem collect_ok {α : Type} (f : String → Res α) (l : List (Option String)) (as : List α) :
    collect f l = .ok as ↔ ∃ ns : List String, l = ns.map some ∧ Pointwise (fun s a => f s = .ok a) ns as := by
  induction l generalizing as with
  | nil =>
    simp only [collect]
    constructor
    · intro h
      cases h
      exact ⟨[], rfl, trivial⟩
    · rintro ⟨ns, h1, h2⟩
      cases ns with
      | nil => cases as with
        | nil => rfl
        | cons _ _ => exact h2.elim
      | cons _ _ => simp at h1
  | cons o l ih =>
    cases o with
    | none =>
      simp only [collect]
      constructor
      · intro h
        cases h
      · rintro ⟨ns, h1, _⟩
        cases ns <;> simp at h1
    | some s =>
      simp only [collect, bind_ok, ih]
      constructor
      · rintro ⟨a, ha, as', ⟨ns, h1, h2⟩, h3⟩
        cases h3
        exact ⟨s :: ns, by simp [h1], ha, h2⟩
      · rintro ⟨ns, h1, h2⟩
        cases ns with
        | nil => simp at h1
        | cons n ns =>
          simp only [List.map_cons, List.cons.injEq, Option.some.injEq] at h1
          cases as with
          | nil => exact h2.elim
          | cons a as => exact ⟨a, by rw [h1.1]; exact h2.1, as, ⟨ns, h1.2, h2.2⟩, rfl⟩

theorem optional_ok {α : Type} (w : World) (m : Fields) (p : String) (f : String → Res α) (as : List α) :
    optional w m p f = .ok as ↔ ∃ l, Listed w m p l ∧ Pointwise (fun s a => f s = .ok a) l as := by
  unfold optional
  have pnil : ∀ as : List α, Pointwise (fun s a => f s = .ok a) [] as ↔ as = [] := by
    intro as
    cases as <;> simp [Pointwise]
  cases hg : m.get? p with
  | none =>
    constructor
    · intro h
      cases h
      exact ⟨[], Or.inl ⟨hg, rfl⟩, trivial⟩
    · rintro ⟨l, hl, hp⟩
      rcases hl with ⟨_, rfl⟩ | ⟨x, hx, _⟩ | ⟨rfl, _⟩
      · rw [pnil] at hp
        rw [hp]
      · rw [hg] at hx
        cases hx
      · rw [pnil] at hp
        rw [hp]
  | some v =>
    cases v with
    | struct fs =>
      cases fs with
      | nil =>
        simp only [elements, collect]
        constructor
        · intro h
          cases h
          exact ⟨[], Or.inr (Or.inr ⟨rfl, Or.inl hg⟩), trivial⟩
        · rintro ⟨l, hl, hp⟩
          rcases hl with ⟨hn, rfl⟩ | ⟨x, hx, _⟩ | ⟨rfl, _⟩
          · rw [pnil] at hp
            rw [hp]
          · rw [hg] at hx
            cases hx
          · rw [pnil] at hp
            rw [hp]
      | cons a b c =>
        simp only [elements]
        constructor
        · intro h
          cases h
        · rintro ⟨l, hl, hp⟩
          rcases hl with ⟨hn, rfl⟩ | ⟨x, hx, _⟩ | ⟨rfl, hn | ⟨x, hx, _⟩⟩
          · rw [hg] at hn
            cases hn
          · rw [hg] at hx
            cases hx
          · rw [hg] at hn
            cases hn
          · rw [hg] at hx
            cases hx
    | leaf x =>
      cases hx : w.leaf x with
      | list l =>
        simp only [elements, hx, collect_ok]
        constructor
        · rintro ⟨ns, h1, h2⟩
          exact ⟨ns, Or.inr (Or.inl ⟨x, hg, by rw [hx, h1]⟩), h2⟩
        · rintro ⟨ns, hl, hp⟩
          rcases hl with ⟨hn, rfl⟩ | ⟨y, hy, hl⟩ | ⟨rfl, hn | ⟨y, hy, hl⟩⟩
          · rw [hg] at hn
            cases hn
          · rw [hg] at hy
            cases hy
            rw [hx] at hl
            cases hl
            exact ⟨ns, rfl, hp⟩
          · rw [hg] at hn
            cases hn
          · rw [hg] at hy
            cases hy
            rw [hx] at hl
            cases hl
      | str s =>
        simp only [elements, hx]
        by_cases hs : s = ""
        · subst hs
          simp only [if_true, collect]
          constructor
          · intro h
            cases h
            exact ⟨[], Or.inr (Or.inr ⟨rfl, Or.inr ⟨x, hg, hx⟩⟩), trivial⟩
          · rintro ⟨l, hl, hp⟩
            rcases hl with ⟨hn, rfl⟩ | ⟨y, hy, hl⟩ | ⟨rfl, _⟩
            · rw [hg] at hn
              cases hn
            · rw [hg] at hy
              cases hy
              rw [hx] at hl
              cases hl
            · rw [pnil] at hp
              rw [hp]
        · simp only [if_neg hs]
          constructor
          · intro h
            cases h
          · rintro ⟨l, hl, hp⟩
            rcases hl with ⟨hn, rfl⟩ | ⟨y, hy, hl⟩ | ⟨rfl, hn | ⟨y, hy, hl⟩⟩
            · rw [hg] at hn
              cases hn
            · rw [hg] at hy
              cases hy
              rw [hx] at hl
              cases hl
            · rw [hg] at hn
              cases hn
            · rw [hg] at hy
              cases hy
              rw [hx] at hl
              cases hl
              exact absurd rfl hs
      | int _ | other =>
        simp only [elements, hx]
        constructor
        · intro h
          cases h
        · rintro ⟨l, hl, hp⟩
          rcases hl with ⟨hn, rfl⟩ | ⟨y, hy, hl⟩ | ⟨rfl, hn | ⟨y, hy, hl⟩⟩
          · rw [hg] at hn
            cases hn
          · rw [hg] at hy
            cases hy
            rw [hx] at hl
            cases hl
          · rw [hg] at hn
            cases hn
          · rw [hg] at hy
            cases hy
            rw [hx] at hl
            cases hl

theorem overlayOf_some (w : World) (fs : Fields) (ov : List (String × String)) : overlayOf w fs = some ov ↔ Strings w fs ov := by
  match fs with
  | .nil => cases ov <;> simp [overlayOf, Strings]
  | .cons k (.struct _) _ => cases ov <;> simp [overlayOf, Strings]
  | .cons k (.leaf n) rest =>
    have ih := overlayOf_some w rest
    cases hn : w.leaf n with
    | str s =>
      cases ov with
      | nil => simp [overlayOf, Strings, hn]
      | cons p l =>
        obtain ⟨k', s'⟩ := p
        simp only [overlayOf, Strings, hn, Option.map_eq_some_iff, ih, Leaf.str.injEq, List.cons.injEq, Prod.mk.injEq]
        constructor
        · rintro ⟨a, ha, ⟨rfl, rfl⟩, rfl⟩
          exact ⟨rfl, rfl, ha⟩
        · rintro ⟨rfl, rfl, h⟩
          exact ⟨l, h, ⟨rfl, rfl⟩, rfl⟩
    | int _ | list _ | other => cases ov <;> simp [overlayOf, Strings, hn]

theorem overlay_ok (w : World) (m : Fields) (ov : List (String × String)) : overlay w m = .ok ov ↔ Overlays w m ov := by
  unfold overlay Overlays
  cases hg : m.get? "dcf_overlay" with
  | none => simp [eq_comm]
  | some v =>
    cases v with
    | leaf _ => simp
    | struct fs =>
      have h := overlayOf_some w fs
      cases ho : overlayOf w fs with
      | none =>
        have := h ov
        rw [ho] at this
        simpa [ho] using this
      | some o =>
        have := h ov
        rw [ho] at this
        simpa [ho] using this

theorem stringOf_some (w : World) (m : Fields) (k s : String) : stringOf w m k = some s ↔ StringIs w m k s := by
  unfold stringOf StringIs
  cases hg : m.get? k with
  | none => simp [eq_comm]
  | some v =>
    cases v with
    | struct _ => simp
    | leaf x => cases hx : w.leaf x <;> simp [hx]

theorem inPackage_path (w : World) (m : Fields) (file path : String) :
    inPackage w m file = path ↔ ((∃ dir, Directory w m dir ∧ path = w.join dir file) ∨ ((¬ ∃ dir, Directory w m dir) ∧ path = file)) := by
  have key : ∀ d, Directory w m d ↔ ∃ x pkg, m.get? "eds_pkg" = some (.leaf x) ∧ w.leaf x = .str pkg ∧ w.pkgPath pkg = some d := fun d => Iff.rfl
  unfold inPackage
  cases hg : m.get? "eds_pkg" with
  | none =>
    have : ¬ ∃ d, Directory w m d := by
      rintro ⟨d, x, pkg, h, _⟩
      rw [hg] at h
      cases h
    constructor
    · intro h
      exact Or.inr ⟨this, h.symm⟩
    · rintro (⟨d, hd, _⟩ | ⟨_, h⟩)
      · exact absurd ⟨d, hd⟩ this
      · exact h.symm
  | some v =>
    cases v with
    | struct _ =>
      have : ¬ ∃ d, Directory w m d := by
        rintro ⟨d, x, pkg, h, _⟩
        rw [hg] at h
        cases h
      constructor
      · intro h
        exact Or.inr ⟨this, h.symm⟩
      · rintro (⟨d, hd, _⟩ | ⟨_, h⟩)
        · exact absurd ⟨d, hd⟩ this
        · exact h.symm
    | leaf x =>
      cases hx : w.leaf x with
      | str pkg =>
        cases hp : w.pkgPath pkg with
        | none =>
          have : ¬ ∃ d, Directory w m d := by
            rintro ⟨d, y, q, h, h2, h3⟩
            rw [hg] at h
            cases h
            rw [hx] at h2
            cases h2
            rw [hp] at h3
            cases h3
          simp only [hx, hp]
          constructor
          · intro h
            exact Or.inr ⟨this, h.symm⟩
          · rintro (⟨d, hd, _⟩ | ⟨_, h⟩)
            · exact absurd ⟨d, hd⟩ this
            · exact h.symm
        | some d =>
          simp only [hx, hp]
          constructor
          · intro h
            exact Or.inl ⟨d, ⟨x, pkg, hg, hx, hp⟩, h.symm⟩
          · rintro (⟨d', ⟨y, q, h, h2, h3⟩, hh⟩ | ⟨hn, _⟩)
            · rw [hg] at h
              cases h
              rw [hx] at h2
              cases h2
              rw [hp] at h3
              cases h3
              exact hh.symm
            · exact absurd ⟨d, x, pkg, hg, hx, hp⟩ hn
      | int _ | list _ | other =>
        have : ¬ ∃ d, Directory w m d := by
          rintro ⟨d, y, q, h, h2, h3⟩
          rw [hg] at h
          cases h
          rw [hx] at h2
          cases h2
        simp only [hx]
        constructor
        · intro h
          exact Or.inr ⟨this, h.symm⟩
        · rintro (⟨d, hd, _⟩ | ⟨_, h⟩)
          · exact absurd ⟨d, hd⟩ this
          · exact h.symm

theorem openObject_ok (w : World) (d : OD.Dict) (id : Byte) (k : OD.Key) (e : OD.Entry) (ty : OD.Ty) :
    openObject w.mem d id k = .ok (e, ty) ↔ Usable w d id k e ty := by
  unfold openObject Usable
  cases hg : d.get k with
  | none => simp
  | some e' =>
    cases ht : OD.typeOf e'.dataType with
    | none =>
      simp only [ht, Option.some.injEq, reduceCtorEq, false_iff, not_and]
      rintro rfl h
      rw [ht] at h
      cases h
    | some ty' =>
      simp only [ht]
      cases hr : ((OD.Storage.fresh d id).entry w.mem k ty').2 with
      | ok h =>
        simp only [Res.ok.injEq, Prod.mk.injEq, Option.some.injEq]
        constructor
        · rintro ⟨rfl, rfl⟩
          exact ⟨rfl, ht, h, hr⟩
        · rintro ⟨rfl, h2, _⟩
          rw [ht] at h2
          cases h2
          exact ⟨rfl, rfl⟩
      | throws x | ub =>
        simp only [reduceCtorEq, Option.some.injEq, false_iff, not_and, not_exists]
        rintro rfl h2 h
        rw [ht] at h2
        cases h2
        rw [hr]
        exact fun h => nomatch h

theorem takeWhile_all (l : Text) (h : '!' ∉ l) : l.takeWhile (· ≠ '!') = l := by
  induction l with
  | nil => rfl
  | cons c l ih =>
    simp only [List.mem_cons, not_or] at h
    have : c ≠ '!' := fun e => h.1 e.symm
    simp only [List.takeWhile_cons, ne_eq, this, not_false_eq_true, decide_true, if_true, List.cons.injEq, true_and]
    exact ih h.2

theorem parse_name (s : String) : (parseObjectName s.toList).1 = bare s := by
  unfold parseObjectName bare
  split
  · rfl
  · rename_i h
    exact (takeWhile_all s.toList h).symm

theorem parse_marked (s : String) : (parseObjectName s.toList).2 = true ↔ Marked s := by
  unfold parseObjectName Marked
  split <;> simp_all

theorem addLog_ok (w : World) (d : OD.Dict) (id : Byte) (lv : Nat) (s : String) (n : NodeSetup) (hd : n.dict = d) (hi : n.id = id) (l : LogEntry) :
    addLog w.mem d id lv s = .ok l ↔ LogOf w n (lv, s) l := by
  subst hd hi
  simp only [addLog, bind_ok, Prod.exists, openObject_ok, parse_name, LogOf]
  have hm := parse_marked s
  constructor
  · rintro ⟨e, ty, hu, h⟩
    cases h
    refine ⟨rfl, rfl, ?_, e, ty, hu, rfl⟩
    simpa using hm
  · rintro ⟨h1, h2, h3, e, ty, hu, h4⟩
    obtain ⟨a, b, c, f⟩ := l
    dsimp only at h1 h2 h3 h4 hu
    subst h1 h2 h4
    refine ⟨e, ty, hu, ?_⟩
    have : (!(parseObjectName s.toList).2) = f := by
      cases hf : f <;> cases hq : (parseObjectName s.toList).2 <;> simp_all
    rw [this]

theorem addPub_ok (w : World) (d : OD.Dict) (id : Byte) (nn : String) (s : String) (n : NodeSetup) (hd : n.dict = d) (hi : n.id = id)
    (hn : n.name = nn) (p : Pub) : addPub w.mem d id nn s = .ok p ↔ PubOf w n s p := by
  subst hd hi hn
  simp only [addPub, bind_ok, Prod.exists, openObject_ok, parse_name, PubOf]
  have hm := parse_marked s
  constructor
  · rintro ⟨e, ty, hu, h⟩
    cases h
    refine ⟨by simp, rfl, ?_, e, hu⟩
    simpa using hm
  · rintro ⟨h1, h2, h3, e, hu⟩
    obtain ⟨a, b, c, f⟩ := p
    dsimp only at h1 h2 h3 hu
    subst h1 h2
    refine ⟨e, c, hu, ?_⟩
    have : (!(parseObjectName s.toList).2) = f := by
      cases hf : f <;> cases hq : (parseObjectName s.toList).2 <;> simp_all
    rw [this]
    simp

theorem pointwise_iff {α β : Type} {R S : α → β → Prop} (h : ∀ a b, R a b ↔ S a b) (l : List α) (m : List β) : Pointwise R l m ↔ Pointwise S l m := by
  induction l generalizing m with
  | nil => cases m <;> simp [Pointwise]
  | cons a l ih => cases m <;> simp [Pointwise, h, ih]

theorem pointwise_split {α β : Type} {R : α → β → Prop} (l l' : List α) (m : List β) :
    Pointwise R (l ++ l') m ↔ ∃ m1 m2, m = m1 ++ m2 ∧ Pointwise R l m1 ∧ Pointwise R l' m2 := by
  induction l generalizing m with
  | nil =>
    constructor
    · intro h
      exact ⟨[], m, rfl, trivial, h⟩
    · rintro ⟨m1, m2, rfl, h1, h2⟩
      cases m1 with
      | nil => exact h2
      | cons _ _ => exact h1.elim
  | cons a l ih =>
    cases m with
    | nil =>
      constructor
      · intro h
        exact h.elim
      · rintro ⟨m1, m2, h, h1, h2⟩
        cases m1 with
        | nil => exact h1.elim
        | cons _ _ => simp at h
    | cons b m =>
      simp only [List.cons_append, Pointwise, ih]
      constructor
      · rintro ⟨h, m1, m2, rfl, h1, h2⟩
        exact ⟨b :: m1, m2, rfl, ⟨h, h1⟩, h2⟩
      · rintro ⟨m1, m2, h, h1, h2⟩
        cases m1 with
        | nil => exact h1.elim
        | cons c m1 =>
          simp only [List.cons_append, List.cons.injEq] at h
          obtain ⟨rfl, rfl⟩ := h
          exact ⟨h1.1, m1, m2, rfl, h1.2, h2⟩

theorem pointwise_mapped {α β γ : Type} {R : γ → β → Prop} (f : α → γ) (l : List α) (m : List β) :
    Pointwise R (l.map f) m ↔ Pointwise (fun a b => R (f a) b) l m := by
  induction l generalizing m with
  | nil => cases m <;> simp [Pointwise]
  | cons a l ih => cases m <;> simp [Pointwise, ih]

theorem idOf_some (w : World) (v : XVal) (i : Int) :
    idOf w v = some i ↔ ∃ x, Spec.Merge.at? v ["id"] = some (.leaf x) ∧ w.leaf x = .int i := by
  cases v with
  | leaf _ => simp [idOf, Spec.Merge.at?]
  | struct a =>
    cases hg : a.get? "id" with
    | none => simp [idOf, Spec.Merge.at?, hg]
    | some v =>
      cases v with
      | struct _ => simp [idOf, Spec.Merge.at?, hg]
      | leaf x =>
        simp only [idOf, Spec.Merge.at?, hg, Option.some.injEq, XVal.leaf.injEq, exists_eq_left']
        cases hx : w.leaf x <;> simp

theorem merge_struct (a b m : XVal) (h : merge a b = some m) : ∃ fs, m = .struct fs := by
  cases a <;> cases b <;> simp [merge] at h
  exact ⟨_, h.symm⟩

theorem name_stringOf (w : World) (m : Fields) (name : Nat) (s : String) :
    stringOf w (withName m (.leaf name)) "name" = some s ↔ NameIs w m name s := by
  rw [stringOf_some]
  unfold StringIs NameIs
  rw [withName_name]
  cases m.get? "name" with
  | none => simp
  | some v => simp

theorem listed_withName (w : World) (m : Fields) (v : XVal) (p : String) (hp : p ≠ "name") (l : List String) :
    Listed w (withName m v) p l ↔ Listed w m p l := by
  unfold Listed
  rw [withName_get m v p hp]

theorem path_withName (w : World) (m : Fields) (v : XVal) (p : String) : Path w (withName m v) p ↔ Path w m p := by
  unfold Path StringIs Directory
  rw [withName_get m v _ (by decide), withName_get m v _ (by decide)]

theorem overlays_withName (w : World) (m : Fields) (v : XVal) (o : List (String × String)) : Overlays w (withName m v) o ↔ Overlays w m o := by
  unfold Overlays
  rw [withName_get m v _ (by decide)]

end Verif.Setup
