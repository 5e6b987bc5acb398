import Verif.Spec.Robot

set_option linter.unusedSimpArgs false
set_option linter.unusedVariables false

namespace Verif.Rob
open Verif.Lay Verif.Spec.Rob

/-! ### the mapping -/

theorem find_mapping (m : Mode) : (mapping.find? (fun p => p.2 = m)).map (·.1) = takes m := by
  match m with
  | 0 | 1 | 2 | 3 | 4 | 5 | 6 | 7 | 8 | 9 | 10 => rfl
  | n + 11 =>
    have : ∀ x ∈ mapping, ¬ (decide (x.2 = n + 11) = true) := by
      intro x hx
      simp [mapping] at hx
      rcases hx with h | h | h | h | h | h | h | h <;> subst h <;> simp <;> omega
    have e : mapping.find? (fun p => p.2 = n + 11) = none := by
      rw [List.find?_eq_none]; exact this
    rw [e]; rfl

theorem hasConflict_iff (i : String) (m : Mode) : hasConflict i m = false ↔ ∀ k, takes m = some k → i = k.iface := by
  have := find_mapping m
  unfold hasConflict
  cases h : mapping.find? (fun p => p.2 = m) with
  | none => rw [h] at this; simp at this; simp [← this]
  | some p =>
    rw [h] at this
    simp at this
    simp [← this]
    exact eq_comm

theorem getMode_iff (p : Params) (j : String) (m : Mode) : p.getMode j = some m ↔ Requires p j m := by
  unfold Params.getMode
  constructor
  · intro h
    cases hl : (p.modes.getD []).lookup j with
    | some x =>
      rw [hl] at h
      simp at h
      subst h
      cases hm : p.modes with
      | none => rw [hm] at hl; simp at hl
      | some l => rw [hm] at hl; exact Requires.listed hm hl
    | none =>
      rw [hl] at h
      refine Requires.common ?_ h
      intro l hm
      rw [hm] at hl
      exact hl
  · intro h
    cases h with
    | listed hm hl => rw [hm]; simp [hl]
    | common hn hd =>
      have : (p.modes.getD []).lookup j = none := by
        cases hm : p.modes with
        | none => rfl
        | some l => exact hn l hm
      rw [this]; exact hd

theorem requires_unique {p : Params} {j : String} {m m' : Mode} (h : Requires p j m) (h' : Requires p j m') : m = m' := by
  rw [← getMode_iff] at h h'
  rw [h] at h'
  exact Option.some.inj h'

theorem requires_hasModes {p : Params} {j : String} {m : Mode} (h : Requires p j m) : p.hasModes = true := by
  cases h with
  | listed hm hl => simp [Params.hasModes, hm]
  | common hn hd => simp [Params.hasModes, hd]

theorem canSwitch_iff (h : Handle) (m : Mode) : (h.canSwitch m = .ready ∨ h.canSwitch m = .noNeed) ↔
    (h.supports m = true ∧ (h.commands.lookup m).isSome ∧ (h.mode = m ∨ h.state = .ready)) := by
  unfold Handle.canSwitch Handle.command
  cases hs : h.supports m <;> cases hc : h.commands.lookup m <;> by_cases hm : h.mode = m <;> by_cases hr : h.state = .ready <;>
    simp [hm, hr]

/-! ### admission -/

theorem admitOne_eq_some (r : Robot) (p : Params) (i j : String) (seen : List String) (acc : List SwitchData)
    (out : List String × List SwitchData) : admitOne r p i j seen acc = some out ↔
    ∃ m, Requires p j m ∧ CanServe r i j m ∧ ((if i ∈ seen then seen else i :: seen).length ≤ 1 ∨ p.hasMixedModes = true) ∧
      out = (if i ∈ seen then seen else i :: seen, acc ++ [⟨j, m, p.enforce.getD true⟩]) := by
  unfold admitOne
  dsimp only
  generalize (if i ∈ seen then seen else i :: seen) = seen'
  constructor
  · intro h
    split at h
    · simp at h
    next hm =>
    split at h
    · simp at h
    next hx =>
    cases hh : r.handles j with
    | none => rw [hh] at h; simp at h
    | some hd =>
      rw [hh] at h
      dsimp only at h
      cases hg : p.getMode j with
      | none => rw [hg] at h; simp at h
      | some m =>
        rw [hg] at h
        dsimp only at h
        split at h
        · simp at h
        next hc =>
        have hcs : (hd.canSwitch m = .ready ∨ hd.canSwitch m = .noNeed) ∧ out = (seen', acc ++ [⟨j, m, p.enforce.getD true⟩]) := by
          cases hw : hd.canSwitch m <;> rw [hw] at h <;> simp at h ⊢ <;> exact h.symm
        refine ⟨m, (getMode_iff _ _ _).1 hg, ⟨⟨hd, hh, (canSwitch_iff _ _).1 hcs.1⟩, (hasConflict_iff _ _).1 (by simpa using hc)⟩, ?_, hcs.2⟩
        by_cases hl : seen'.length ≤ 1
        · exact Or.inl hl
        · right
          cases hmm : p.hasMixedModes
          · exact absurd ⟨by omega, by simp [hmm]⟩ hx
          · rfl
  · rintro ⟨m, hreq, hserve, hmix, rfl⟩
    have hm := requires_hasModes hreq
    rw [if_neg (by simp [hm])]
    rw [if_neg (by rcases hmix with h | h <;> simp [h]; intro; omega)]
    obtain ⟨hd, hh, hs⟩ := hserve.joint
    rw [hh]
    dsimp only
    rw [(getMode_iff _ _ _).2 hreq]
    dsimp only
    rw [if_neg (by simp [(hasConflict_iff _ _).2 hserve.iface])]
    rcases (canSwitch_iff _ _).2 hs with h | h <;> rw [h]

/-- the record for a list of claims -/
def dataFor (p : Params) (fl : List (String × String)) : List SwitchData :=
  fl.map (fun c => ⟨c.2, (p.getMode c.2).getD 0, p.enforce.getD true⟩)

theorem grow_mem (seen : List String) (i a : String) : a ∈ (if i ∈ seen then seen else i :: seen) ↔ a = i ∨ a ∈ seen := by
  by_cases h : i ∈ seen
  · rw [if_pos h]
    constructor
    · exact Or.inr
    · rintro (e | e)
      · subst e; exact h
      · exact e
  · rw [if_neg h]; simp

theorem grow_length (seen : List String) (i : String) (hs : seen.length ≤ 1) :
    (if i ∈ seen then seen else i :: seen).length ≤ 1 ↔ ∀ a ∈ seen, a = i := by
  match seen, hs with
  | [], _ => simp
  | [x], _ =>
    by_cases h : i = x
    · subst h; simp
    · have : i ∉ [x] := by simpa using h
      rw [if_neg this]
      simp
      exact fun e => h e.symm

theorem admitLoop_eq_some (r : Robot) (p : Params) (fl : List (String × String)) : ∀ (seen : List String) (acc out : List SwitchData),
    seen.length ≤ 1 ∨ p.hasMixedModes = true →
    (admitLoop r p fl seen acc = some out ↔
    (∀ c ∈ fl, ∃ m, Requires p c.2 m ∧ CanServe r c.1 c.2 m) ∧
    (p.hasMixedModes = true ∨ ∀ a ∈ seen ++ fl.map (·.1), ∀ b ∈ seen ++ fl.map (·.1), a = b) ∧ out = acc ++ dataFor p fl) := by
  induction fl with
  | nil =>
    intro seen acc out hseen
    simp [admitLoop, dataFor]
    constructor
    · intro h
      refine ⟨?_, h.symm⟩
      rcases hseen with hs | hs
      · right
        intro a ha b hb
        match seen, hs with
        | [], _ => simp at ha
        | [x], _ => simp at ha hb; rw [ha, hb]
      · exact Or.inl hs
    · intro h; exact h.2.symm
  | cons c fl ih =>
    intro seen acc out hseen
    obtain ⟨i, j⟩ := c
    unfold admitLoop
    have hmixiff : (p.hasMixedModes = true ∨ ∀ a ∈ seen ++ ((i, j) :: fl).map (·.1), ∀ b ∈ seen ++ ((i, j) :: fl).map (·.1), a = b) ↔
        (p.hasMixedModes = true ∨ ∀ a ∈ (if i ∈ seen then seen else i :: seen) ++ fl.map (·.1),
          ∀ b ∈ (if i ∈ seen then seen else i :: seen) ++ fl.map (·.1), a = b) := by
      have hm : ∀ a, a ∈ seen ++ ((i, j) :: fl).map (·.1) ↔ a ∈ (if i ∈ seen then seen else i :: seen) ++ fl.map (·.1) := by
        intro a
        rw [List.mem_append, List.mem_append, grow_mem, List.map_cons, List.mem_cons]
        dsimp only
        constructor
        · rintro (h | h | h)
          · exact Or.inl (Or.inr h)
          · exact Or.inl (Or.inl h)
          · exact Or.inr h
        · rintro ((h | h) | h)
          · exact Or.inr (Or.inl h)
          · exact Or.inl h
          · exact Or.inr (Or.inr h)
      constructor
      · rintro (h | h)
        · exact Or.inl h
        · exact Or.inr (fun a ha b hb => h a ((hm a).2 ha) b ((hm b).2 hb))
      · rintro (h | h)
        · exact Or.inl h
        · exact Or.inr (fun a ha b hb => h a ((hm a).1 ha) b ((hm b).1 hb))
    have hlen : ((if i ∈ seen then seen else i :: seen).length ≤ 1 ∨ p.hasMixedModes = true) ∨
        ¬ (p.hasMixedModes = true ∨ ∀ a ∈ seen ++ ((i, j) :: fl).map (·.1), ∀ b ∈ seen ++ ((i, j) :: fl).map (·.1), a = b) := by
      cases hp : p.hasMixedModes with
      | true => exact Or.inl (Or.inr rfl)
      | false =>
        rw [hp] at hseen
        have hs : seen.length ≤ 1 := by simpa using hseen
        by_cases hl : (if i ∈ seen then seen else i :: seen).length ≤ 1
        · exact Or.inl (Or.inl hl)
        · right
          intro hx
          simp only [Bool.false_eq_true, false_or] at hx
          apply hl
          rw [grow_length _ _ hs]
          intro a ha
          exact hx a (by simp [ha]) i (by simp)
    cases ha : admitOne r p i j seen acc with
    | none =>
      dsimp only
      simp only [reduceCtorEq, false_iff]
      rintro ⟨hall, hmix, -⟩
      obtain ⟨m, hm, hs⟩ := hall (i, j) (by simp)
      rcases hlen with hlen | hlen
      · have := (admitOne_eq_some r p i j seen acc (if i ∈ seen then seen else i :: seen, acc ++ [⟨j, m, p.enforce.getD true⟩])).2
          ⟨m, hm, hs, hlen, rfl⟩
        rw [ha] at this
        simp at this
      · exact hlen hmix
    | some o =>
      obtain ⟨m, hm, hs, hl, rfl⟩ := (admitOne_eq_some _ _ _ _ _ _ _).1 ha
      dsimp only
      rw [ih _ _ _ hl, ← hmixiff]
      have hd : acc ++ dataFor p ((i, j) :: fl) = acc ++ [⟨j, m, p.enforce.getD true⟩] ++ dataFor p fl := by
        simp [dataFor, (getMode_iff _ _ _).2 hm]
      rw [hd]
      constructor
      · rintro ⟨h1, h2, h3⟩
        refine ⟨?_, h2, h3⟩
        intro c hc
        rcases List.mem_cons.1 hc with e | e
        · subst e; exact ⟨m, hm, hs⟩
        · exact h1 c e
      · rintro ⟨h1, h2, h3⟩
        exact ⟨fun c hc => h1 c (List.mem_cons_of_mem _ hc), h2, h3⟩

theorem mem_flat (c : Controller) (i j : String) : (i, j) ∈ c.flat ↔ Claims c i j := by
  unfold Controller.flat Claims
  rw [List.mem_flatMap]
  constructor
  · rintro ⟨⟨i', js⟩, h1, h2⟩
    rw [List.mem_map] at h2
    obtain ⟨x, hx, e⟩ := h2
    simp at e
    obtain ⟨rfl, rfl⟩ := e
    exact ⟨js, h1, hx⟩
  · rintro ⟨js, h1, h2⟩
    exact ⟨(i, js), h1, List.mem_map.2 ⟨j, h2, rfl⟩⟩

theorem admit_eq_some (r : Robot) (p : Params) (c : Controller) (out : List SwitchData) :
    admit r p c = some out ↔ Admissible r p c ∧ out = dataFor p c.flat := by
  unfold admit
  rw [admitLoop_eq_some _ _ _ _ _ _ (Or.inl (by simp))]
  simp only [List.nil_append]
  constructor
  · rintro ⟨h1, h2, h3⟩
    refine ⟨⟨fun i j h => h1 (i, j) ((mem_flat _ _ _).2 h), ?_⟩, h3⟩
    intro i j i' j' h h' hne
    rcases h2 with h2 | h2
    · exact h2
    · exact absurd (h2 i (List.mem_map.2 ⟨_, (mem_flat _ _ _).2 h, rfl⟩) i' (List.mem_map.2 ⟨_, (mem_flat _ _ _).2 h', rfl⟩)) hne
  · rintro ⟨⟨h1, h2⟩, h3⟩
    refine ⟨fun x hx => h1 x.1 x.2 ((mem_flat _ _ _).1 hx), ?_, h3⟩
    cases hm : p.hasMixedModes with
    | true => exact Or.inl rfl
    | false =>
      right
      intro a ha b hb
      obtain ⟨⟨a', j⟩, ha2, rfl⟩ := List.mem_map.1 ha
      obtain ⟨⟨b', j'⟩, hb2, rfl⟩ := List.mem_map.1 hb
      by_cases e : a' = b'
      · exact e
      · have := h2 _ _ _ _ ((mem_flat _ _ _).1 ha2) ((mem_flat _ _ _).1 hb2) e
        unfold Params.hasMixedModes at hm
        rw [hm] at this
        simp at this

theorem admit_isSome (r : Robot) (p : Params) (c : Controller) : (admit r p c).isSome ↔ Admissible r p c := by
  cases h : admit r p c with
  | some o => simp; exact ((admit_eq_some _ _ _ _).1 h).1
  | none =>
    simp
    intro ha
    rw [(admit_eq_some r p c (dataFor p c.flat)).2 ⟨ha, rfl⟩] at h
    simp at h

theorem admissible_congr {r r' : Robot} (h : r.handles = r'.handles) (p : Params) (c : Controller) :
    Admissible r p c ↔ Admissible r' p c := by
  have hs : ∀ i j m, CanServe r i j m ↔ CanServe r' i j m := by
    intro i j m
    constructor
    · rintro ⟨a, b⟩; exact ⟨by rw [← h]; exact a, b⟩
    · rintro ⟨a, b⟩; exact ⟨by rw [h]; exact a, b⟩
  constructor
  · rintro ⟨a, b⟩
    exact ⟨fun i j hc => by obtain ⟨m, h1, h2⟩ := a i j hc; exact ⟨m, h1, (hs _ _ _).1 h2⟩, b⟩
  · rintro ⟨a, b⟩
    exact ⟨fun i j hc => by obtain ⟨m, h1, h2⟩ := a i j hc; exact ⟨m, h1, (hs _ _ _).2 h2⟩, b⟩

theorem admitAll_handles (params : String → Params) (cs : List Controller) : ∀ r, (admitAll params r cs).1.handles = r.handles ∧
    (admitAll params r cs).1.asked = r.asked := by
  induction cs with
  | nil => intro r; exact ⟨rfl, rfl⟩
  | cons c cs ih =>
    intro r
    unfold admitAll
    cases admit r (params c.name) c with
    | none => exact ⟨rfl, rfl⟩
    | some sw => exact ih (r.record c.name sw)

theorem admitAll_true (params : String → Params) (cs : List Controller) : ∀ r, (admitAll params r cs).2 = true ↔
    ∀ c ∈ cs, Admissible r (params c.name) c := by
  induction cs with
  | nil => intro r; simp [admitAll]
  | cons c cs ih =>
    intro r
    unfold admitAll
    have hi := admit_isSome r (params c.name) c
    cases h : admit r (params c.name) c with
    | none =>
      rw [h] at hi
      simp at hi
      simp [hi]
    | some sw =>
      rw [h] at hi
      simp at hi
      dsimp only
      rw [ih]
      simp only [List.mem_cons, forall_eq_or_imp, hi, true_and]
      have : (r.record c.name sw).handles = r.handles := rfl
      constructor
      · intro h x hx; exact (admissible_congr this _ _).1 (h x hx)
      · intro h x hx; exact (admissible_congr this _ _).2 (h x hx)

/-- the record after the admission loop -/
theorem admitAll_map (params : String → Params) (cs : List Controller) : ∀ r, (admitAll params r cs).2 = true →
    (∀ n sw, r.switchMap n = some sw → (admitAll params r cs).1.switchMap n = some sw) ∧
    (∀ n, (∀ c ∈ cs, c.name ≠ n) → (admitAll params r cs).1.switchMap n = r.switchMap n) ∧
    (∀ c ∈ cs, ((admitAll params r cs).1.switchMap c.name).isSome) ∧
    ((cs.map (·.name)).Nodup → ∀ c ∈ cs, r.switchMap c.name = none →
      (admitAll params r cs).1.switchMap c.name = some (dataFor (params c.name) c.flat)) := by
  induction cs with
  | nil => intro r _; simp [admitAll]
  | cons c cs ih =>
    intro r
    unfold admitAll
    cases h : admit r (params c.name) c with
    | none => intro hx; simp at hx
    | some sw =>
      dsimp only
      intro hx
      obtain ⟨i1, i2, i3, i4⟩ := ih _ hx
      have hsw := ((admit_eq_some _ _ _ _).1 h).2
      refine ⟨?_, ?_, ?_, ?_⟩
      · intro n s hs
        apply i1
        unfold Robot.record
        dsimp only
        rw [hs]
        simp
      · intro n hn
        rw [i2 n (fun c hc => hn c (List.mem_cons_of_mem _ hc))]
        unfold Robot.record
        dsimp only
        rw [if_neg (fun e => hn c (by simp) e.symm)]
      · intro c' hc'
        rcases List.mem_cons.1 hc' with e | e
        · subst e
          have : ((r.record c'.name sw).switchMap c'.name) = some ((r.switchMap c'.name).getD sw) := by
            simp [Robot.record]
          rw [i1 _ _ this]; rfl
        · exact i3 c' e
      · intro hnd c' hc' hnone
        simp only [List.map_cons, List.nodup_cons] at hnd
        rcases List.mem_cons.1 hc' with e | e
        · subst e
          rw [i2 c'.name (fun x hx e => hnd.1 (List.mem_map.2 ⟨x, hx, e⟩))]
          simp [Robot.record, hnone, hsw]
        · refine i4 hnd.2 c' e ?_
          have : c'.name ≠ c.name := fun e' => hnd.1 (List.mem_map.2 ⟨c', e, e'⟩)
          simp [Robot.record, this, hnone]

theorem prepareSwitch_accepts (params : String → Params) (ans : Nat → Answer) (order : List String → List String)
    (r : Robot) (start stop : List Controller) : (r.prepareSwitch params ans order start stop).2.1 = true ↔
    (∀ c ∈ stop, (r.switchMap c.name).isSome) ∧ ∀ c ∈ start, Admissible r (params c.name) c := by
  unfold Robot.prepareSwitch
  by_cases hs : stop.any (fun c => (r.switchMap c.name).isNone) = true
  · rw [if_pos hs]
    simp only [Bool.false_eq_true, false_iff]
    rintro ⟨h, -⟩
    rw [List.any_eq_true] at hs
    obtain ⟨c, hc, hn⟩ := hs
    have := h c hc
    cases hx : r.switchMap c.name <;> rw [hx] at this hn <;> simp at this hn
  · rw [if_neg hs]
    have hs' : ∀ c ∈ stop, (r.switchMap c.name).isSome := by
      intro c hc
      cases hx : r.switchMap c.name with
      | some _ => rfl
      | none =>
        exfalso
        apply hs
        rw [List.any_eq_true]
        exact ⟨c, hc, by rw [hx]; rfl⟩
    have ht := admitAll_true params start r
    cases ha : admitAll params r start with
    | mk r1 b =>
      rw [ha] at ht
      cases b with
      | false => simp at ht; simp; intro _; exact ht
      | true => simp at ht; simp; exact ⟨hs', ht⟩

/-! ### switching -/

/-- the second robot has the same joints and records as the first -/
def Ext (r r' : Robot) : Prop :=
  r'.switchMap = r.switchMap ∧ ∀ j, (r.handles j = none ∧ r'.handles j = none) ∨
    ∃ h h', r.handles j = some h ∧ r'.handles j = some h' ∧ h'.commands = h.commands ∧ h'.supports = h.supports

theorem Ext.refl (r : Robot) : Ext r r := by
  refine ⟨rfl, fun j => ?_⟩
  cases h : r.handles j with
  | none => exact Or.inl ⟨rfl, rfl⟩
  | some x => exact Or.inr ⟨x, x, rfl, rfl, rfl, rfl⟩

theorem Ext.trans {a b c : Robot} (h : Ext a b) (h' : Ext b c) : Ext a c := by
  refine ⟨h'.1.trans h.1, fun j => ?_⟩
  rcases h.2 j with ⟨x, y⟩ | ⟨x, y, hx, hy, hc, hs⟩
  · rcases h'.2 j with ⟨x', y'⟩ | ⟨x', y', hx', hy', hc', hs'⟩
    · exact Or.inl ⟨x, y'⟩
    · rw [y] at hx'; simp at hx'
  · rcases h'.2 j with ⟨x', y'⟩ | ⟨x', y', hx', hy', hc', hs'⟩
    · rw [hy] at x'; simp at x'
    · rw [hy] at hx'
      have e := Option.some.inj hx'
      subst e
      exact Or.inr ⟨x, y', hx, hy', hc'.trans hc, hs'.trans hs⟩

theorem Ext.sane {r r' : Robot} (h : Ext r r') (hs : Sane r) : Sane r' := by
  intro j x hx
  rcases h.2 j with ⟨_, b⟩ | ⟨y, y', hy, hy', hc, hsup⟩
  · rw [b] at hx; simp at hx
  · rw [hy'] at hx
    have e := Option.some.inj hx
    subst e
    obtain ⟨a, b, c⟩ := hs j y hy
    exact ⟨fun m k hm => a m k (by rw [← hc]; exact hm), by rw [hc]; exact b, by rw [hsup]; exact c⟩

theorem Ext.isSome {r r' : Robot} (h : Ext r r') (j : String) : (r'.handles j).isSome = (r.handles j).isSome := by
  rcases h.2 j with ⟨a, b⟩ | ⟨y, y', hy, hy', _, _⟩
  · rw [a, b]
  · rw [hy, hy']; rfl

theorem Ext.known {r r' : Robot} (h : Ext r r') (hk : Known r) : Known r' := by
  intro n sw hn d hd
  rw [h.1] at hn
  rw [h.isSome]
  exact hk n sw hn d hd

theorem ext_setHandle {r : Robot} {j : String} {h h' : Handle} (hj : r.handles j = some h) (hc : h'.commands = h.commands)
    (hs : h'.supports = h.supports) (n : Nat) : Ext r { r.setHandle j h' with asked := n } := by
  refine ⟨rfl, fun j' => ?_⟩
  by_cases e : j' = j
  · subst e
    exact Or.inr ⟨h, h', hj, by simp [Robot.setHandle], hc, hs⟩
  · cases hx : r.handles j' with
    | none => exact Or.inl ⟨rfl, by simp [Robot.setHandle, e, hx]⟩
    | some x => exact Or.inr ⟨x, x, rfl, by simp [Robot.setHandle, e, hx], rfl, rfl⟩

theorem select_frame (h : Handle) (m : Mode) : (h.select m).1.commands = h.commands ∧ (h.select m).1.supports = h.supports ∧
    (h.select m).1.mode = h.mode ∧ (h.select m).1.forward = h.forward ∧ (h.select m).1.state = h.state := by
  unfold Handle.select
  cases h.command m <;> simp

theorem select_ok (h : Handle) (m : Mode) : (h.select m).2 = true ↔ h.commands.lookup m = some (h.select m).1.jh := by
  unfold Handle.select Handle.command
  cases e : h.commands.lookup m <;> simp

theorem handle_switchMode_frame (h : Handle) (m : Mode) (a : Answer) : (h.switchMode m a).1.commands = h.commands ∧
    (h.switchMode m a).1.supports = h.supports := by
  unfold Handle.switchMode
  by_cases e : h.mode = m
  · rw [if_pos e]; exact ⟨(select_frame _ _).1, (select_frame _ _).2.1⟩
  · rw [if_neg e]
    cases (if m = 0 then Answer.entered else a) with
    | entered =>
      dsimp only
      exact ⟨(select_frame _ _).1, (select_frame _ _).2.1⟩
    | failed l => exact ⟨rfl, rfl⟩

theorem handle_switchMode_true (h : Handle) (m : Mode) (a : Answer) (ht : (h.switchMode m a).2 = true) :
    (h.switchMode m a).1.mode = m ∧ (h.switchMode m a).1.commands.lookup m = some (h.switchMode m a).1.jh := by
  have hfr := (handle_switchMode_frame h m a).1
  rw [hfr]
  unfold Handle.switchMode at ht ⊢
  by_cases e : h.mode = m
  · rw [if_pos e] at ht ⊢
    exact ⟨by rw [(select_frame _ _).2.2.1]; exact e, (select_ok _ _).1 ht⟩
  · rw [if_neg e] at ht ⊢
    generalize (if m = 0 then Answer.entered else a) = b at ht ⊢
    cases b with
    | entered =>
      dsimp only at ht ⊢
      exact ⟨by rw [(select_frame _ _).2.2.1], (select_ok _ _).1 ht⟩
    | failed l => simp at ht

theorem handle_switchMode_zero (h : Handle) (a : Answer) (h0 : h.commands.lookup 0 = some none) :
    (h.switchMode 0 a).2 = true := by
  unfold Handle.switchMode
  by_cases e : h.mode = 0
  · rw [if_pos e, select_ok]
    simp [Handle.select, Handle.command, h0]
  · rw [if_neg e]
    simp [Handle.select, Handle.command, h0]

theorem sends_none_of_jh {h : Handle} (hj : h.jh = none) (s : LayerState) : h.sends s = none := by
  unfold Handle.sends
  rw [hj]
  split <;> simp

theorem robot_switchMode_ext (ans : Nat → Answer) (r : Robot) (j : String) (m : Mode) : Ext r (r.switchMode ans j m).1 := by
  unfold Robot.switchMode
  cases h : r.handles j with
  | none => exact Ext.refl r
  | some x =>
    dsimp only
    have := handle_switchMode_frame x m (ans r.asked)
    exact ext_setHandle h this.1 this.2 _

theorem robot_switchMode_other (ans : Nat → Answer) (r : Robot) (j j' : String) (m : Mode) (h : j' ≠ j) :
    (r.switchMode ans j m).1.handles j' = r.handles j' := by
  unfold Robot.switchMode
  cases r.handles j with
  | none => rfl
  | some x => simp [Robot.setHandle, h]

theorem robot_switchMode_true (ans : Nat → Answer) (r : Robot) (j : String) (m : Mode) (ht : (r.switchMode ans j m).2 = true) :
    InMode (r.switchMode ans j m).1 j m := by
  unfold Robot.switchMode at ht ⊢
  cases h : r.handles j with
  | none => rw [h] at ht; simp at ht
  | some x =>
    rw [h] at ht
    dsimp only at ht ⊢
    obtain ⟨h1, h2⟩ := handle_switchMode_true x m (ans r.asked) ht
    exact ⟨_, by simp [Robot.setHandle], h1, h2⟩

theorem robot_switchMode_zero (ans : Nat → Answer) (r : Robot) (j : String) (hs : Sane r) (hk : (r.handles j).isSome) :
    (r.switchMode ans j 0).2 = true := by
  unfold Robot.switchMode
  cases h : r.handles j with
  | none => rw [h] at hk; simp at hk
  | some x => exact handle_switchMode_zero x _ (hs j x h).2.1

theorem inMode_zero {r : Robot} {j : String} (hs : Sane r) (h : InMode r j 0) : Stopped r j := by
  obtain ⟨x, hx, hm, hc⟩ := h
  have := (hs j x hx).2.1
  rw [this] at hc
  exact ⟨x, hx, hm, sends_none_of_jh (Option.some.inj hc).symm⟩

theorem inMode_congr {r r' : Robot} {j : String} {m : Mode} (h : r'.handles j = r.handles j) : InMode r' j m ↔ InMode r j m := by
  unfold InMode
  rw [h]

theorem enableLimits_ext (r : Robot) (j : String) (b : Bool) : Ext r (r.enableLimits j b) := by
  unfold Robot.enableLimits
  cases h : r.handles j with
  | none => exact Ext.refl r
  | some x => exact ext_setHandle (h' := { x with limits := b }) h rfl rfl r.asked

theorem enableLimits_other (r : Robot) (j j' : String) (b : Bool) (h : j' ≠ j) : (r.enableLimits j b).handles j' = r.handles j' := by
  unfold Robot.enableLimits
  cases r.handles j with
  | none => rfl
  | some x => simp [Robot.setHandle, h]

theorem enableLimits_inMode (r : Robot) (j j' : String) (b : Bool) (m : Mode) (h : InMode r j' m) : InMode (r.enableLimits j b) j' m := by
  by_cases e : j' = j
  · subst e
    obtain ⟨x, hx, hm, hc⟩ := h
    unfold Robot.enableLimits
    rw [hx]
    exact ⟨{ x with limits := b }, by simp [Robot.setHandle], hm, hc⟩
  · exact (inMode_congr (enableLimits_other r j j' b e)).2 h

theorem stopAll_ext (ans : Nat → Answer) (js : List String) : ∀ r, Ext r (stopAll ans r js) := by
  induction js with
  | nil => intro r; exact Ext.refl r
  | cons j js ih => intro r; exact (robot_switchMode_ext ans r j 0).trans (ih _)

theorem stopAll_other (ans : Nat → Answer) (js : List String) : ∀ r (j : String), j ∉ js → (stopAll ans r js).handles j = r.handles j := by
  induction js with
  | nil => intro r j _; rfl
  | cons x js ih =>
    intro r j hj
    simp only [List.mem_cons, not_or] at hj
    unfold stopAll
    rw [ih _ _ hj.2, robot_switchMode_other _ _ _ _ _ hj.1]

theorem stopAll_stopped (ans : Nat → Answer) (js : List String) : ∀ r, Sane r → ∀ j ∈ js, (r.handles j).isSome →
    InMode (stopAll ans r js) j 0 := by
  induction js with
  | nil => intro r _ j hj; simp at hj
  | cons x js ih =>
    intro r hs j hj hk
    unfold stopAll
    have he := robot_switchMode_ext ans r x 0
    by_cases hjs : j ∈ js
    · exact ih _ (he.sane hs) j hjs (by rw [he.isSome]; exact hk)
    · have e : j = x := by simpa [hjs] using hj
      subst e
      rw [inMode_congr (stopAll_other ans js _ j hjs)]
      exact robot_switchMode_true _ _ _ _ (robot_switchMode_zero ans r j hs hk)

theorem mem_insertAll (js : List String) : ∀ s x, x ∈ insertAll s js ↔ x ∈ s ∨ x ∈ js := by
  induction js with
  | nil => intro s x; simp [insertAll]
  | cons j js ih =>
    intro s x
    show x ∈ insertAll (if j ∈ s then s else s ++ [j]) js ↔ _
    rw [ih]
    by_cases h : j ∈ s
    · rw [if_pos h, List.mem_cons]
      constructor
      · rintro (a | a)
        · exact Or.inl a
        · exact Or.inr (Or.inr a)
      · rintro (a | a | a)
        · exact Or.inl a
        · subst a; exact Or.inl h
        · exact Or.inr a
    · rw [if_neg h]; simp [or_assoc]

theorem nodup_insertAll (js : List String) : ∀ s, s.Nodup → (insertAll s js).Nodup := by
  induction js with
  | nil => intro s h; exact h
  | cons j js ih =>
    intro s h
    show (insertAll (if j ∈ s then s else s ++ [j]) js).Nodup
    apply ih
    by_cases hj : j ∈ s
    · rw [if_pos hj]; exact h
    · rw [if_neg hj, List.nodup_append]
      refine ⟨h, by simp, ?_⟩
      intro a ha b hb
      simp at hb
      subst hb
      intro e
      subst e
      exact hj ha

theorem startLoop_spec (ans : Nat → Answer) (all : List String) (ds : List SwitchData) : ∀ r stop,
    let o := startLoop ans all r stop ds
    Ext r o.1 ∧ (stop.Nodup → o.2.1.Nodup) ∧
    (∀ j, (∀ d ∈ ds, d.joint ≠ j) → o.1.handles j = r.handles j ∧ (j ∈ stop → j ∈ o.2.1) ∧ (j ∉ stop → j ∉ all → j ∉ o.2.1)) ∧
    (o.2.2 = false → ∀ j ∈ all, j ∈ o.2.1) ∧
    (o.2.2 = true → stop.Nodup → (∀ d ∈ ds, d.joint ∉ o.2.1) ∧ (∀ j, j ∉ stop → j ∉ o.2.1)) ∧
    (o.2.2 = true → ∀ j m, (∀ d ∈ ds, d.joint = j → d.mode = m) → (InMode r j m ∨ ∃ d ∈ ds, d.joint = j) → InMode o.1 j m) := by
  induction ds with
  | nil =>
    intro r stop
    refine ⟨Ext.refl r, fun h => h, fun j _ => ⟨rfl, fun h => h, fun h _ => h⟩, by simp [startLoop], ?_, ?_⟩
    · intro _ _; exact ⟨by simp, fun j h => h⟩
    · intro _ j m _ h
      rcases h with h | ⟨d, hd, _⟩
      · exact h
      · simp at hd
  | cons d ds ih =>
    intro r stop
    have he := robot_switchMode_ext ans r d.joint d.mode
    have hoth := fun j' => robot_switchMode_other ans r d.joint j' d.mode
    have htr := robot_switchMode_true ans r d.joint d.mode
    unfold startLoop
    generalize r.switchMode ans d.joint d.mode = o1 at he hoth htr ⊢
    obtain ⟨r', b⟩ := o1
    cases b with
    | false =>
      dsimp only at he hoth ⊢
      refine ⟨he, fun h => nodup_insertAll _ _ h, ?_, ?_, by simp, by simp⟩
      · intro j hj
        refine ⟨hoth j (fun e => hj d (by simp) e.symm), fun h => (mem_insertAll _ _ _).2 (Or.inl h), ?_⟩
        intro h1 h2 h3
        rcases (mem_insertAll _ _ _).1 h3 with h | h
        · exact h1 h
        · exact h2 h
      · intro _ j hj
        exact (mem_insertAll _ _ _).2 (Or.inr hj)
    | true =>
      dsimp only at he hoth htr ⊢
      have hel := enableLimits_ext r' d.joint d.enforce
      obtain ⟨i1, i2, i3, i4, i5, i6⟩ := ih (r'.enableLimits d.joint d.enforce) (stop.erase d.joint)
      refine ⟨(he.trans hel).trans i1, fun h => i2 (h.erase _), ?_, i4, ?_, ?_⟩
      · intro j hj
        obtain ⟨a, b, c⟩ := i3 j (fun d hd => hj d (List.mem_cons_of_mem _ hd))
        have hne : j ≠ d.joint := fun e => hj d (by simp) e.symm
        refine ⟨by rw [a, enableLimits_other _ _ _ _ hne, hoth j hne], fun h => b ((List.mem_erase_of_ne hne).2 h), ?_⟩
        intro h1 h2
        exact c (fun h => h1 (List.mem_of_mem_erase h)) h2
      · intro hok hnd
        obtain ⟨a, b⟩ := i5 hok (hnd.erase _)
        refine ⟨?_, fun j hj => b j (fun h => hj (List.mem_of_mem_erase h))⟩
        intro d' hd'
        rcases List.mem_cons.1 hd' with e | e
        · subst e
          exact b _ (fun h => by rw [hnd.mem_erase_iff] at h; exact h.1 rfl)
        · exact a d' e
      · intro hok j m hm hin
        apply i6 hok j m (fun d' hd' => hm d' (List.mem_cons_of_mem _ hd'))
        by_cases e : d.joint = j
        · left
          have hmm := hm d (by simp) e
          subst e
          subst hmm
          exact enableLimits_inMode _ _ _ _ _ (htr rfl)
        · rcases hin with hin | ⟨d', hd', he'⟩
          · left
            apply enableLimits_inMode
            exact (inMode_congr (hoth j (fun e' => e e'.symm))).2 hin
          · right
            rcases List.mem_cons.1 hd' with e2 | e2
            · subst e2; exact absurd he' e
            · exact ⟨d', e2, he'⟩

/-- consistent records: one mode per joint -/
def Consistent (sw : List SwitchData) : Prop := ∀ d ∈ sw, ∀ e ∈ sw, d.joint = e.joint → d.mode = e.mode

theorem startOne_spec (ans : Nat → Answer) (r : Robot) (stop : List String) (sw : List SwitchData) :
    let o := startOne ans r stop sw
    Ext r o.1 ∧ (stop.Nodup → o.2.1.Nodup) ∧
    (∀ j, (∀ d ∈ sw, d.joint ≠ j) → o.1.handles j = r.handles j ∧ (j ∈ o.2.1 ↔ j ∈ stop)) ∧
    (o.2.2 = false → ∀ d ∈ sw, d.joint ∈ o.2.1) ∧
    (o.2.2 = true → stop.Nodup → ∀ d ∈ sw, d.joint ∉ o.2.1) ∧
    (o.2.2 = true → Consistent sw → ∀ d ∈ sw, InMode o.1 d.joint d.mode) := by
  unfold startOne
  dsimp only
  obtain ⟨i1, i2, i3, i4, i5, i6⟩ := startLoop_spec ans (sw.map (·.joint)) sw (stopAll ans r (sw.map (·.joint))) stop
  generalize startLoop ans (sw.map (·.joint)) (stopAll ans r (sw.map (·.joint))) stop sw = o at *
  refine ⟨(stopAll_ext ans _ r).trans i1, i2, ?_, ?_, ?_, ?_⟩
  · intro j hj
    obtain ⟨a, b, c⟩ := i3 j hj
    have hn : j ∉ sw.map (·.joint) := by
      intro h
      obtain ⟨d, hd, e⟩ := List.mem_map.1 h
      exact hj d hd e
    refine ⟨by rw [a, stopAll_other _ _ _ _ hn], ?_, b⟩
    intro h
    by_cases hs : j ∈ stop
    · exact hs
    · exact absurd h (c hs hn)
  · intro h d hd
    exact i4 h _ (List.mem_map.2 ⟨d, hd, rfl⟩)
  · intro h hn d hd
    exact (i5 h hn).1 d hd
  · intro h hc d hd
    exact i6 h d.joint d.mode (fun e he hj => hc e he d hd hj) (Or.inr ⟨d, hd, rfl⟩)

/-- record of a controller -/
def recOf (r : Robot) (c : Controller) : List SwitchData := (r.switchMap c.name).getD []

theorem startAll_cons (ans : Nat → Answer) (r : Robot) (stop failed : List String) (c : Controller) (cs : List Controller) :
    startAll ans r stop failed (c :: cs) =
      startAll ans (startOne ans r stop (recOf r c)).1 (startOne ans r stop (recOf r c)).2.1
        (if (startOne ans r stop (recOf r c)).2.2 then failed else failed ++ [c.name]) cs := rfl

theorem startAll_append (ans : Nat → Answer) (pre post : List Controller) : ∀ r stop failed,
    startAll ans r stop failed (pre ++ post) =
      startAll ans (startAll ans r stop failed pre).1 (startAll ans r stop failed pre).2.1 (startAll ans r stop failed pre).2.2 post := by
  induction pre with
  | nil => intro r stop failed; rfl
  | cons c pre ih =>
    intro r stop failed
    rw [List.cons_append, startAll_cons, startAll_cons, ih]

theorem startAll_spec (ans : Nat → Answer) (cs : List Controller) : ∀ r stop failed,
    let o := startAll ans r stop failed cs
    Ext r o.1 ∧ (stop.Nodup → o.2.1.Nodup) ∧
    (∀ j, (∀ c ∈ cs, ∀ d ∈ recOf r c, d.joint ≠ j) → o.1.handles j = r.handles j ∧ (j ∈ o.2.1 ↔ j ∈ stop)) ∧
    (∀ n, n ∈ failed → n ∈ o.2.2) ∧ (∀ n, n ∈ o.2.2 → n ∈ failed ∨ ∃ c ∈ cs, c.name = n) := by
  induction cs with
  | nil => intro r stop failed; exact ⟨Ext.refl r, fun h => h, fun j _ => ⟨rfl, Iff.rfl⟩, fun n h => h, fun n h => Or.inl h⟩
  | cons c cs ih =>
    intro r stop failed
    rw [startAll_cons]
    obtain ⟨s1, s2, s3, -, -, -⟩ := startOne_spec ans r stop (recOf r c)
    generalize startOne ans r stop (recOf r c) = o1 at *
    obtain ⟨i1, i2, i3, i4, i5⟩ := ih o1.1 o1.2.1 (if o1.2.2 then failed else failed ++ [c.name])
    have hrec : ∀ c, recOf o1.1 c = recOf r c := by intro c; unfold recOf; rw [s1.1]
    refine ⟨s1.trans i1, fun h => i2 (s2 h), ?_, ?_, ?_⟩
    · intro j hj
      obtain ⟨a, b⟩ := i3 j (fun c hc d hd => hj c (List.mem_cons_of_mem _ hc) d (by rw [← hrec]; exact hd))
      obtain ⟨a', b'⟩ := s3 j (fun d hd => hj c (by simp) d hd)
      exact ⟨a.trans a', b.trans b'⟩
    · intro n hn
      apply i4
      split
      · exact hn
      · simp [hn]
    · intro n hn
      rcases i5 n hn with h | ⟨c', hc', e⟩
      · split at h
        · exact Or.inl h
        · rcases List.mem_append.1 h with h | h
          · exact Or.inl h
          · right; exact ⟨c, by simp, (List.mem_singleton.1 h).symm⟩
      · exact Or.inr ⟨c', List.mem_cons_of_mem _ hc', e⟩

theorem stopJoints_mem (r : Robot) (cs : List Controller) (j : String) : j ∈ stopJoints r cs ↔ ∃ c ∈ cs, ∃ d ∈ recOf r c, d.joint = j := by
  have : ∀ (cs : List Controller) (s : List String), j ∈ cs.foldl (fun s c => insertAll s (((r.switchMap c.name).getD []).map (·.joint))) s ↔
      j ∈ s ∨ ∃ c ∈ cs, ∃ d ∈ recOf r c, d.joint = j := by
    intro cs
    induction cs with
    | nil => intro s; simp
    | cons c cs ih =>
      intro s
      rw [List.foldl_cons, ih, mem_insertAll, List.mem_map]
      constructor
      · rintro ((h | ⟨d, hd, e⟩) | ⟨c', hc', d, hd, e⟩)
        · exact Or.inl h
        · exact Or.inr ⟨c, by simp, d, hd, e⟩
        · exact Or.inr ⟨c', List.mem_cons_of_mem _ hc', d, hd, e⟩
      · rintro (h | ⟨c', hc', d, hd, e⟩)
        · exact Or.inl (Or.inl h)
        · rcases List.mem_cons.1 hc' with e' | e'
          · subst e'; exact Or.inl (Or.inr ⟨d, hd, e⟩)
          · exact Or.inr ⟨c', e', d, hd, e⟩
  unfold stopJoints
  rw [this]
  simp

theorem stopJoints_nodup (r : Robot) (cs : List Controller) : (stopJoints r cs).Nodup := by
  have : ∀ (cs : List Controller) (s : List String), s.Nodup →
      (cs.foldl (fun s c => insertAll s (((r.switchMap c.name).getD []).map (·.joint))) s).Nodup := by
    intro cs
    induction cs with
    | nil => intro s h; exact h
    | cons c cs ih => intro s h; exact ih _ (nodup_insertAll _ _ h)
  exact this cs [] (by simp)

/-- the accepting run of `prepareSwitch` -/
theorem prepareSwitch_run (params : String → Params) (ans : Nat → Answer) (order : List String → List String)
    (r : Robot) (start stop : List Controller) (ha : (r.prepareSwitch params ans order start stop).2.1 = true) :
    (admitAll params r start).2 = true ∧
    r.prepareSwitch params ans order start stop =
      (let r1 := (admitAll params r start).1
       let o := startAll ans r1 (stopJoints r1 stop) [] start
       (stopAll ans o.1 (order o.2.1), true, o.2.2)) := by
  have hacc := (prepareSwitch_accepts params ans order r start stop).1 ha
  have ht := (admitAll_true params start r).2 hacc.2
  refine ⟨ht, ?_⟩
  unfold Robot.prepareSwitch
  rw [if_neg]
  · cases he : admitAll params r start with
    | mk r1 b =>
      rw [he] at ht
      simp at ht
      subst ht
      rfl
  · rw [Bool.not_eq_true, List.any_eq_false]
    intro c hc
    have := hacc.1 c hc
    cases hx : r.switchMap c.name <;> rw [hx] at this <;> simp at this ⊢

theorem prepareSwitch_refused (params : String → Params) (ans : Nat → Answer) (order : List String → List String)
    (r : Robot) (start stop : List Controller) (ha : (r.prepareSwitch params ans order start stop).2.1 = false) :
    (r.prepareSwitch params ans order start stop).1.handles = r.handles ∧ (r.prepareSwitch params ans order start stop).2.2 = [] := by
  unfold Robot.prepareSwitch at ha ⊢
  split
  · exact ⟨rfl, rfl⟩
  next h =>
    rw [if_neg h] at ha
    have := admitAll_handles params start r
    cases he : admitAll params r start with
    | mk r1 b =>
      rw [he] at this ha
      cases b with
      | false => exact ⟨this.1, rfl⟩
      | true => simp at ha

theorem admitAll_known (params : String → Params) (cs : List Controller) : ∀ r, Known r → Known (admitAll params r cs).1 := by
  induction cs with
  | nil => intro r h; exact h
  | cons c cs ih =>
    intro r hk
    unfold admitAll
    cases h : admit r (params c.name) c with
    | none => exact hk
    | some sw =>
      apply ih
      intro n s hn d hd
      show (r.handles d.joint).isSome
      unfold Robot.record at hn
      dsimp only at hn
      by_cases e : n = c.name
      · rw [if_pos e] at hn
        cases hx : r.switchMap n with
        | some s' =>
          rw [hx] at hn
          simp at hn
          subst hn
          exact hk n s' hx d hd
        | none =>
          rw [hx] at hn
          simp at hn
          subst hn
          obtain ⟨hadm, rfl⟩ := (admit_eq_some _ _ _ _).1 h
          unfold dataFor at hd
          obtain ⟨⟨i, j⟩, hij, rfl⟩ := List.mem_map.1 hd
          obtain ⟨m, _, hs⟩ := hadm.serve i j ((mem_flat _ _ _).1 hij)
          obtain ⟨x, hx, _⟩ := hs.joint
          simp [hx]
      · rw [if_neg e] at hn
        exact hk n s hn d hd

/-! ### forwarding -/

/-- the second robot differs from the first only in the forward flags that were set -/
def Fwd (r r' : Robot) : Prop :=
  r'.switchMap = r.switchMap ∧ ∀ j, (r.handles j = none ∧ r'.handles j = none) ∨
    ∃ h b, r.handles j = some h ∧ r'.handles j = some { h with forward := b } ∧ (h.forward = true → b = true)

theorem Fwd.refl (r : Robot) : Fwd r r := by
  refine ⟨rfl, fun j => ?_⟩
  cases h : r.handles j with
  | none => exact Or.inl ⟨rfl, rfl⟩
  | some x => exact Or.inr ⟨x, x.forward, rfl, rfl, fun h => h⟩

theorem Fwd.trans {a b c : Robot} (h : Fwd a b) (h' : Fwd b c) : Fwd a c := by
  refine ⟨h'.1.trans h.1, fun j => ?_⟩
  rcases h.2 j with ⟨x, y⟩ | ⟨x, f, hx, hy, hf⟩
  · rcases h'.2 j with ⟨x', y'⟩ | ⟨x', f', hx', hy', hf'⟩
    · exact Or.inl ⟨x, y'⟩
    · rw [y] at hx'; simp at hx'
  · rcases h'.2 j with ⟨x', y'⟩ | ⟨x', f', hx', hy', hf'⟩
    · rw [hy] at x'; simp at x'
    · rw [hy] at hx'
      have e := Option.some.inj hx'
      subst e
      exact Or.inr ⟨x, f', hx, hy', fun h => hf' (hf h)⟩

theorem Fwd.ext {r r' : Robot} (h : Fwd r r') : Ext r r' := by
  refine ⟨h.1, fun j => ?_⟩
  rcases h.2 j with ⟨a, b⟩ | ⟨x, f, hx, hy, hf⟩
  · exact Or.inl ⟨a, b⟩
  · exact Or.inr ⟨x, _, hx, hy, rfl, rfl⟩

theorem Fwd.inMode {r r' : Robot} (h : Fwd r r') {j : String} {m : Mode} (hm : InMode r j m) : InMode r' j m := by
  obtain ⟨x, hx, h1, h2⟩ := hm
  rcases h.2 j with ⟨a, b⟩ | ⟨y, f, hy, hy', hf⟩
  · rw [a] at hx; simp at hx
  · rw [hx] at hy
    have e := Option.some.inj hy
    subst e
    exact ⟨_, hy', h1, h2⟩

/-- the joint is in the mode and commands are forwarded -/
def Forwards (r : Robot) (d : SwitchData) : Prop := ∃ h, r.handles d.joint = some h ∧ h.mode = d.mode ∧ h.forward = true

theorem Fwd.forwards {r r' : Robot} (h : Fwd r r') {d : SwitchData} (hm : Forwards r d) : Forwards r' d := by
  obtain ⟨x, hx, h1, h2⟩ := hm
  rcases h.2 d.joint with ⟨a, b⟩ | ⟨y, f, hy, hy', hf⟩
  · rw [a] at hx; simp at hx
  · rw [hx] at hy
    have e := Option.some.inj hy
    subst e
    exact ⟨_, hy', h1, hf h2⟩

theorem fwd_setHandle {r : Robot} {j : String} {h : Handle} (hj : r.handles j = some h) : Fwd r (r.setHandle j { h with forward := true }) := by
  refine ⟨rfl, fun j' => ?_⟩
  by_cases e : j' = j
  · subst e
    exact Or.inr ⟨h, true, hj, by simp [Robot.setHandle], fun _ => rfl⟩
  · cases hx : r.handles j' with
    | none => exact Or.inl ⟨rfl, by simp [Robot.setHandle, e, hx]⟩
    | some x => exact Or.inr ⟨x, x.forward, rfl, by simp [Robot.setHandle, e, hx], fun h => h⟩

theorem forwardLoop_cons (ans : Nat → Answer) (n : Nat) (r : Robot) (d : SwitchData) (ds : List SwitchData) (h : Handle)
    (hj : r.handles d.joint = some h) : forwardLoop ans n r (d :: ds) =
      if h.mode = d.mode then forwardLoop ans n (r.setHandle d.joint { h with forward := true }) ds
      else (stopSame ans r d.joint n, false) := by
  rw [forwardLoop, hj]
  dsimp only
  unfold Handle.forwardForMode
  split
  next h1 e1 => split at e1 <;> simp_all
  next h1 e1 => split at e1 <;> simp_all

theorem stopSame_ext (ans : Nat → Answer) (j : String) (n : Nat) : ∀ r, Ext r (stopSame ans r j n) := by
  induction n with
  | zero => intro r; exact Ext.refl r
  | succ n ih => intro r; exact (robot_switchMode_ext ans r j 0).trans (ih _)

theorem stopSame_other (ans : Nat → Answer) (j j' : String) (hne : j' ≠ j) (n : Nat) : ∀ r, (stopSame ans r j n).handles j' = r.handles j' := by
  induction n with
  | zero => intro r; rfl
  | succ n ih => intro r; unfold stopSame; rw [ih, robot_switchMode_other _ _ _ _ _ hne]

theorem stopSame_stopped (ans : Nat → Answer) (j : String) (n : Nat) : ∀ r, Sane r → (r.handles j).isSome →
    InMode (stopSame ans r j (n + 1)) j 0 := by
  induction n with
  | zero =>
    intro r hs hk
    exact robot_switchMode_true _ _ _ _ (robot_switchMode_zero ans r j hs hk)
  | succ n ih =>
    intro r hs hk
    have he := robot_switchMode_ext ans r j 0
    unfold stopSame
    exact ih _ (he.sane hs) (by rw [he.isSome]; exact hk)

theorem forwardLoop_true (ans : Nat → Answer) (n : Nat) (ds : List SwitchData) : ∀ r, (forwardLoop ans n r ds).2 = true →
    Fwd r (forwardLoop ans n r ds).1 ∧ ∀ d ∈ ds, Forwards (forwardLoop ans n r ds).1 d := by
  induction ds with
  | nil => intro r _; exact ⟨Fwd.refl r, by simp⟩
  | cons d ds ih =>
    intro r ht
    cases h : r.handles d.joint with
    | none => rw [forwardLoop, h] at ht; simp at ht
    | some x =>
      rw [forwardLoop_cons _ _ _ _ _ _ h] at ht ⊢
      by_cases hm : x.mode = d.mode
      · rw [if_pos hm] at ht ⊢
        obtain ⟨a, b⟩ := ih _ ht
        refine ⟨(fwd_setHandle h).trans a, ?_⟩
        intro d' hd'
        rcases List.mem_cons.1 hd' with e | e
        · subst e
          exact a.forwards ⟨{ x with forward := true }, by simp [Robot.setHandle], hm, rfl⟩
        · exact b d' e
      · rw [if_neg hm] at ht; simp at ht

theorem forwardLoop_ok (ans : Nat → Answer) (n : Nat) (ds : List SwitchData) : ∀ r,
    (∀ d ∈ ds, ∃ h, r.handles d.joint = some h ∧ h.mode = d.mode) → (forwardLoop ans n r ds).2 = true := by
  induction ds with
  | nil => intro r _; rfl
  | cons d ds ih =>
    intro r hall
    obtain ⟨x, hx, hm⟩ := hall d (by simp)
    rw [forwardLoop_cons _ _ _ _ _ _ hx, if_pos hm]
    apply ih
    intro d' hd'
    obtain ⟨y, hy, hm'⟩ := hall d' (List.mem_cons_of_mem _ hd')
    by_cases e : d'.joint = d.joint
    · rw [e, hx] at hy
      have e' := Option.some.inj hy
      subst e'
      exact ⟨{ x with forward := true }, by simp [Robot.setHandle, e], hm'⟩
    · exact ⟨y, by simp [Robot.setHandle, e, hy], hm'⟩

theorem forwardLoop_false (ans : Nat → Answer) (n : Nat) (ds : List SwitchData) : ∀ r, Sane r → (∀ d ∈ ds, (r.handles d.joint).isSome) →
    (forwardLoop ans (n + 1) r ds).2 = false →
    Ext r (forwardLoop ans (n + 1) r ds).1 ∧ ∃ d ∈ ds, InMode (forwardLoop ans (n + 1) r ds).1 d.joint 0 := by
  induction ds with
  | nil => intro r _ _ h; simp [forwardLoop] at h
  | cons d ds ih =>
    intro r hs hk hf
    cases h : r.handles d.joint with
    | none => have := hk d (by simp); rw [h] at this; simp at this
    | some x =>
      rw [forwardLoop_cons _ _ _ _ _ _ h] at hf ⊢
      by_cases hm : x.mode = d.mode
      · rw [if_pos hm] at hf ⊢
        have he := (fwd_setHandle h).ext
        obtain ⟨a, d', hd', b⟩ := ih _ (he.sane hs) (fun d' hd' => by rw [he.isSome]; exact hk d' (List.mem_cons_of_mem _ hd')) hf
        exact ⟨he.trans a, d', List.mem_cons_of_mem _ hd', b⟩
      · rw [if_neg hm] at hf ⊢
        refine ⟨stopSame_ext _ _ _ _, d, by simp, ?_⟩
        exact stopSame_stopped ans d.joint n r hs (by rw [h]; rfl)

theorem forwardLoop_ext (ans : Nat → Answer) (n : Nat) (ds : List SwitchData) : ∀ r, Ext r (forwardLoop ans n r ds).1 := by
  induction ds with
  | nil => intro r; exact Ext.refl r
  | cons d ds ih =>
    intro r
    cases h : r.handles d.joint with
    | none => rw [forwardLoop, h]; exact Ext.refl r
    | some x =>
      rw [forwardLoop_cons _ _ _ _ _ _ h]
      split
      · exact (fwd_setHandle h).ext.trans (ih _)
      · exact stopSame_ext _ _ _ _

theorem doSwitch_ext (ans : Nat → Answer) (cs : List Controller) : ∀ r failed, Ext r (Robot.doSwitch ans r failed cs).1 := by
  induction cs with
  | nil => intro r failed; exact Ext.refl r
  | cons c cs ih =>
    intro r failed
    unfold Robot.doSwitch
    cases h : r.switchMap c.name with
    | none => exact ih _ _
    | some sw =>
      dsimp only
      have := forwardLoop_ext ans sw.length sw r
      generalize forwardLoop ans sw.length r sw = o at this ⊢
      obtain ⟨r', b⟩ := o
      cases b <;> exact this.trans (ih _ _)

theorem doSwitch_failed (ans : Nat → Answer) (cs : List Controller) : ∀ r failed, ∃ l, (Robot.doSwitch ans r failed cs).2 = failed ++ l := by
  induction cs with
  | nil => intro r failed; exact ⟨[], by simp [Robot.doSwitch]⟩
  | cons c cs ih =>
    intro r failed
    unfold Robot.doSwitch
    cases h : r.switchMap c.name with
    | none =>
      obtain ⟨l, hl⟩ := ih r (failed ++ [c.name])
      exact ⟨[c.name] ++ l, by simp [hl]⟩
    | some sw =>
      dsimp only
      generalize forwardLoop ans sw.length r sw = o
      obtain ⟨r', b⟩ := o
      cases b with
      | true => exact ih _ _
      | false =>
        obtain ⟨l, hl⟩ := ih r' (failed ++ [c.name])
        exact ⟨[c.name] ++ l, by simp [hl]⟩

theorem doSwitch_none_failed (ans : Nat → Answer) (cs : List Controller) : ∀ r failed, (Robot.doSwitch ans r failed cs).2 = failed →
    Fwd r (Robot.doSwitch ans r failed cs).1 ∧
    ∀ c ∈ cs, ∃ sw, r.switchMap c.name = some sw ∧ ∀ d ∈ sw, Forwards (Robot.doSwitch ans r failed cs).1 d := by
  induction cs with
  | nil => intro r failed _; exact ⟨Fwd.refl r, by simp⟩
  | cons c cs ih =>
    intro r failed hf
    unfold Robot.doSwitch at hf ⊢
    cases h : r.switchMap c.name with
    | none =>
      rw [h] at hf
      dsimp only at hf
      obtain ⟨l, hl⟩ := doSwitch_failed ans cs r (failed ++ [c.name])
      rw [hl, List.append_assoc] at hf
      have := congrArg List.length hf
      simp at this
    | some sw =>
      rw [h] at hf
      dsimp only at hf ⊢
      have htr := forwardLoop_true ans sw.length sw r
      generalize forwardLoop ans sw.length r sw = o at htr hf ⊢
      obtain ⟨r', b⟩ := o
      cases b with
      | false =>
        dsimp only at hf
        obtain ⟨l, hl⟩ := doSwitch_failed ans cs r' (failed ++ [c.name])
        rw [hl, List.append_assoc] at hf
        have := congrArg List.length hf
        simp at this
      | true =>
        dsimp only at hf htr ⊢
        obtain ⟨a, b⟩ := htr rfl
        obtain ⟨a', b'⟩ := ih r' failed hf
        refine ⟨a.trans a', ?_⟩
        intro c' hc'
        rcases List.mem_cons.1 hc' with e | e
        · subst e
          exact ⟨sw, h, fun d hd => a'.forwards (b d hd)⟩
        · obtain ⟨sw', hs, hd⟩ := b' c' e
          exact ⟨sw', by rw [← a.1]; exact hs, hd⟩

theorem doSwitch_ok (ans : Nat → Answer) (cs : List Controller) : ∀ r failed,
    (∀ c ∈ cs, ∃ sw, r.switchMap c.name = some sw ∧ ∀ d ∈ sw, ∃ h, r.handles d.joint = some h ∧ h.mode = d.mode) →
    (Robot.doSwitch ans r failed cs).2 = failed := by
  induction cs with
  | nil => intro r failed _; rfl
  | cons c cs ih =>
    intro r failed hall
    obtain ⟨sw, hsw, hd⟩ := hall c (by simp)
    unfold Robot.doSwitch
    rw [hsw]
    dsimp only
    have hok := forwardLoop_ok ans sw.length sw r hd
    have htr := forwardLoop_true ans sw.length sw r hok
    generalize forwardLoop ans sw.length r sw = o at hok htr ⊢
    obtain ⟨r', b⟩ := o
    simp at hok
    subst hok
    dsimp only at htr ⊢
    apply ih
    intro c' hc'
    obtain ⟨sw', hsw', hd'⟩ := hall c' (List.mem_cons_of_mem _ hc')
    refine ⟨sw', by rw [htr.1.1]; exact hsw', ?_⟩
    intro d hd2
    obtain ⟨x, hx, hm⟩ := hd' d hd2
    rcases htr.1.2 d.joint with ⟨a, b⟩ | ⟨y, f, hy, hy', hf⟩
    · rw [a] at hx; simp at hx
    · rw [hx] at hy
      have e := Option.some.inj hy
      subst e
      exact ⟨_, hy', hm⟩

/-! ### invariants of all robots -/

theorem lookup_interface (k : Kind) (m : Mode) (l : List (Mode × Option Kind)) :
    ((interfaceModes k).map (fun m => (m, some k)) ++ l).lookup m = if takes m = some k then some (some k) else l.lookup m := by
  have hl : ∀ (a : Mode) (b : Option Kind) (t : List (Mode × Option Kind)), ((a, b) :: t).lookup m = if m = a then some b else t.lookup m := by
    intro a b t
    rw [List.lookup_cons]
    by_cases e : m = a
    · subst e; simp
    · rw [beq_eq_false_iff_ne.2 e, if_neg e]
  cases k with
  | pos =>
    have : (interfaceModes .pos).map (fun m => (m, some Kind.pos)) = [(1, some .pos), (7, some .pos), (8, some .pos)] := rfl
    rw [this]
    simp only [List.cons_append, List.nil_append, hl]
    match m with
    | 0 | 1 | 2 | 3 | 4 | 5 | 6 | 7 | 8 | 9 | 10 => simp [takes]
    | n + 11 => simp [takes]
  | vel =>
    have : (interfaceModes .vel).map (fun m => (m, some Kind.vel)) = [(2, some .vel), (3, some .vel), (9, some .vel)] := rfl
    rw [this]
    simp only [List.cons_append, List.nil_append, hl]
    match m with
    | 0 | 1 | 2 | 3 | 4 | 5 | 6 | 7 | 8 | 9 | 10 => simp [takes]
    | n + 11 => simp [takes]
  | eff =>
    have : (interfaceModes .eff).map (fun m => (m, some Kind.eff)) = [(4, some .eff), (10, some .eff)] := rfl
    rw [this]
    simp only [List.cons_append, List.nil_append, hl]
    match m with
    | 0 | 1 | 2 | 3 | 4 | 5 | 6 | 7 | 8 | 9 | 10 => simp [takes]
    | n + 11 => simp [takes]

theorem addHandle_regular {h : Handle} (hr : Regular h) (k : Kind) : Regular (h.addHandle k) := by
  unfold Handle.addHandle
  split
  · intro m j hj
    dsimp only at hj
    rw [lookup_interface] at hj
    split at hj
    next ht =>
      have := Option.some.inj hj
      subst this
      exact ⟨ht, by simp⟩
    · exact hr m j hj
  · exact hr

theorem addHandle_zero {h : Handle} (h0 : h.commands.lookup 0 = some none) (k : Kind) : (h.addHandle k).commands.lookup 0 = some none := by
  unfold Handle.addHandle
  split
  · dsimp only
    rw [lookup_interface]
    cases k <;> simp [takes, h0]
  · exact h0

theorem addHandle_frame (h : Handle) (k : Kind) : (h.addHandle k).supports = h.supports ∧ (h.addHandle k).mode = h.mode ∧
    (h.addHandle k).jh = h.jh ∧ (h.addHandle k).forward = h.forward := by
  unfold Handle.addHandle
  split <;> exact ⟨rfl, rfl, rfl, rfl⟩

theorem registerAll_regular {h : Handle} (hr : Regular h) (h0 : h.commands.lookup 0 = some none) :
    Regular h.registerAll ∧ h.registerAll.commands.lookup 0 = some none :=
  ⟨addHandle_regular (addHandle_regular (addHandle_regular hr _) _) _, addHandle_zero (addHandle_zero (addHandle_zero h0 _) _) _⟩

theorem registerAll_frame (h : Handle) : h.registerAll.supports = h.supports ∧ h.registerAll.mode = h.mode ∧
    h.registerAll.jh = h.jh ∧ h.registerAll.forward = h.forward := by
  unfold Handle.registerAll
  have a := addHandle_frame h .pos
  have b := addHandle_frame (h.addHandle .pos) .vel
  have c := addHandle_frame ((h.addHandle .pos).addHandle .vel) .eff
  exact ⟨c.1.trans (b.1.trans a.1), c.2.1.trans (b.2.1.trans a.2.1), c.2.2.1.trans (b.2.2.1.trans a.2.2.1),
    c.2.2.2.trans (b.2.2.2.trans a.2.2.2)⟩

theorem construct_regular (m : Mode) (s : LayerState) (f : Mode → Bool) :
    Regular (Handle.construct m s f) ∧ (Handle.construct m s f).commands.lookup 0 = some none := by
  refine ⟨?_, rfl⟩
  intro m k hk
  simp only [Handle.construct, List.lookup_cons] at hk
  by_cases e : m = 0
  · subst e
    simp at hk
    subst hk
    exact ⟨rfl, fun _ => rfl⟩
  · rw [beq_eq_false_iff_ne.2 e] at hk
    simp at hk

theorem dataFor_consistent (p : Params) (fl : List (String × String)) : Consistent (dataFor p fl) := by
  intro d hd e he hj
  unfold dataFor at hd he
  obtain ⟨x, _, rfl⟩ := List.mem_map.1 hd
  obtain ⟨y, _, rfl⟩ := List.mem_map.1 he
  dsimp only at hj ⊢
  rw [hj]

/-- all records are consistent -/
def AllConsistent (r : Robot) : Prop := ∀ n sw, r.switchMap n = some sw → Consistent sw

theorem admitAll_consistent (params : String → Params) (cs : List Controller) : ∀ r, AllConsistent r →
    AllConsistent (admitAll params r cs).1 := by
  induction cs with
  | nil => intro r h; exact h
  | cons c cs ih =>
    intro r hk
    unfold admitAll
    cases h : admit r (params c.name) c with
    | none => exact hk
    | some sw =>
      apply ih
      intro n s hn
      unfold Robot.record at hn
      dsimp only at hn
      by_cases e : n = c.name
      · rw [if_pos e] at hn
        cases hx : r.switchMap n with
        | some s' =>
          rw [hx] at hn
          simp at hn
          subst hn
          exact hk n s' hx
        | none =>
          rw [hx] at hn
          simp at hn
          subst hn
          obtain ⟨hadm, rfl⟩ := (admit_eq_some _ _ _ _).1 h
          exact dataFor_consistent _ _
      · rw [if_neg e] at hn
        exact hk n s hn

/-- `prepareSwitch` is the admission followed by mode switches -/
theorem prepareSwitch_ext (params : String → Params) (ans : Nat → Answer) (order : List String → List String)
    (r : Robot) (start stop : List Controller) :
    Ext r (r.prepareSwitch params ans order start stop).1 ∨
    Ext (admitAll params r start).1 (r.prepareSwitch params ans order start stop).1 := by
  unfold Robot.prepareSwitch
  split
  · exact Or.inl (Ext.refl r)
  · right
    cases he : admitAll params r start with
    | mk r1 b =>
      cases b with
      | false => exact Ext.refl _
      | true =>
        dsimp only
        have := (startAll_spec ans start r1 (stopJoints r1 stop) []).1
        generalize startAll ans r1 (stopJoints r1 stop) [] start = o at this ⊢
        exact this.trans (stopAll_ext _ _ _)

theorem built_inv {r : Robot} (h : Built r) : Sane r ∧ Known r ∧ AllConsistent r := by
  induction h with
  | empty =>
    refine ⟨?_, ?_, ?_⟩
    · intro j h hj; simp at hj
    · intro n sw hn; simp at hn
    · intro n sw hn; simp at hn
  | @add r n m s f hr h0 ih =>
    obtain ⟨i1, i2, i3⟩ := ih
    refine ⟨?_, ?_, i3⟩
    · intro j h hj
      unfold Robot.add at hj
      dsimp only at hj
      by_cases e : j = n
      · rw [if_pos e] at hj
        cases hx : r.handles j with
        | some y =>
          rw [hx] at hj
          simp at hj
          subst hj
          exact i1 j y hx
        | none =>
          rw [hx] at hj
          simp at hj
          subst hj
          have := registerAll_regular (construct_regular m s f).1 (construct_regular m s f).2
          exact ⟨this.1, this.2, by rw [(registerAll_frame _).1]; exact h0⟩
      · rw [if_neg e] at hj
        exact i1 j h hj
    · intro n' sw hn d hd
      have := i2 n' sw hn d hd
      unfold Robot.add
      dsimp only
      split
      · rfl
      · exact this
  | @prepare r params ans order start stop hr ih =>
    obtain ⟨i1, i2, i3⟩ := ih
    have hh := (admitAll_handles params start r).1
    rcases prepareSwitch_ext params ans order r start stop with h | h
    · exact ⟨h.sane i1, h.known i2, fun n sw hn => i3 n sw (by rw [← h.1]; exact hn)⟩
    · have hs : Sane (admitAll params r start).1 := by
        intro j x hx; rw [hh] at hx; exact i1 j x hx
      have hc := admitAll_consistent params start r i3
      exact ⟨h.sane hs, h.known (admitAll_known params start r i2), fun n sw hn => hc n sw (by rw [← h.1]; exact hn)⟩
  | @switch r ans start hr ih =>
    obtain ⟨i1, i2, i3⟩ := ih
    have h := doSwitch_ext ans start r []
    exact ⟨h.sane i1, h.known i2, fun n sw hn => i3 n sw (by rw [← h.1]; exact hn)⟩
  | @motor r j h m s hr hj ih =>
    obtain ⟨i1, i2, i3⟩ := ih
    have he : Ext r (r.setHandle j { h with mode := m, state := s }) := ext_setHandle (h' := { h with mode := m, state := s }) hj rfl rfl r.asked
    exact ⟨he.sane i1, he.known i2, i3⟩

/-! ### histories of one handle layer -/

/-- only fitting commands are connected -/
def HInv (s : HState) : Prop :=
  Regular s.h ∧ s.h.commands.lookup 0 = some none ∧ (s.pending.isSome → s.h.jh = none) ∧
  (∀ k, s.h.jh = some k → takes s.h.mode = some k ∨ s.h.mode = 0 ∨ s.h.mode = 6)

theorem select_inv {h : Handle} (hr : Regular h) {m : Mode} (hm : h.mode = m) (hj : ∀ k, h.jh = some k → takes h.mode = some k ∨ h.mode = 0 ∨ h.mode = 6) :
    ∀ k, (h.select m).1.jh = some k → takes m = some k ∨ m = 0 ∨ m = 6 := by
  intro k hk
  unfold Handle.select Handle.command at hk
  cases hl : h.commands.lookup m with
  | none => rw [hl] at hk; rw [← hm]; exact hj k hk
  | some x =>
    rw [hl] at hk
    dsimp only at hk
    subst hk
    exact Or.inl (hr m _ hl).1

theorem hinv_step (s : HState) (e : HEv) (h : HInv s) : HInv (hstep s e).1 := by
  obtain ⟨h1, h2, h3, h4⟩ := h
  cases e with
  | register =>
    have f := registerAll_frame s.h
    have g := registerAll_regular h1 h2
    refine ⟨g.1, g.2, ?_, ?_⟩
    · intro hp; show s.h.registerAll.jh = none; rw [f.2.2.1]; exact h3 hp
    · intro k hk
      have hk : s.h.registerAll.jh = some k := hk
      show takes s.h.registerAll.mode = some k ∨ s.h.registerAll.mode = 0 ∨ s.h.registerAll.mode = 6
      rw [f.2.1]
      rw [f.2.2.1] at hk
      exact h4 k hk
  | begin m =>
    unfold hstep
    cases hp : s.pending with
    | some x => exact ⟨h1, h2, h3, h4⟩
    | none =>
      dsimp only
      split
      next hm =>
        have f := select_frame s.h m
        refine ⟨?_, ?_, ?_, ?_⟩
        · intro m' k hk; exact h1 m' k (by rw [← f.1]; exact hk)
        · show (s.h.select m).1.commands.lookup 0 = some none; rw [f.1]; exact h2
        · intro hs; simp [hp] at hs
        · intro k hk
          show takes (s.h.select m).1.mode = some k ∨ _
          rw [f.2.2.1, hm]
          exact select_inv h1 hm h4 k hk
      · exact ⟨h1, h2, fun _ => rfl, fun k hk => by simp at hk⟩
  | finish a =>
    unfold hstep
    cases hp : s.pending with
    | none => exact ⟨h1, h2, h3, h4⟩
    | some m =>
      dsimp only
      have hjn := h3 (by rw [hp]; rfl)
      cases (if m = 0 then Answer.entered else a) with
      | entered =>
        dsimp only
        have f := select_frame { s.h with mode := m } m
        refine ⟨?_, ?_, ?_, ?_⟩
        · intro m' k hk
          dsimp only at hk
          rw [f.1] at hk
          exact h1 m' k hk
        · dsimp only; rw [f.1]; exact h2
        · intro hs; simp at hs
        · intro k hk
          dsimp only at hk ⊢
          rw [f.2.2.1]
          exact select_inv (h := { s.h with mode := m }) h1 rfl (by intro k hk; rw [show ({ s.h with mode := m } : Handle).jh = s.h.jh from rfl, hjn] at hk; simp at hk) k hk
      | failed l => exact ⟨h1, h2, fun hs => by simp at hs, fun k hk => by dsimp only at hk; rw [hjn] at hk; simp at hk⟩
  | forward m =>
    unfold hstep Handle.forwardForMode
    dsimp only
    split <;> exact ⟨h1, h2, h3, h4⟩
  | drop b =>
    refine ⟨h1, h2, h3, ?_⟩
    intro k _
    cases b
    · exact Or.inr (Or.inl rfl)
    · exact Or.inr (Or.inr rfl)
  | write st => exact ⟨h1, h2, h3, h4⟩

theorem hinv_run (es : List HEv) : ∀ s, HInv s → HInv (hrun s es) := by
  induction es with
  | nil => intro s h; exact h
  | cons e es ih => intro s h; exact ih _ (hinv_step s e h)

/-- The position of a controller in the start list. -/
theorem split_start {start : List Controller} {c : Controller} (hc : c ∈ start) : ∃ pre post, start = pre ++ c :: post :=
  List.append_of_mem hc

/-- what happened to the controller at its turn -/
theorem turn (params : String → Params) (ans : Nat → Answer) (order : List String → List String)
    (r : Robot) (start stop : List Controller) (hacc : (r.prepareSwitch params ans order start stop).2.1 = true)
    (hnames : (start.map (·.name)).Nodup) (hord : ∀ l, (order l).Perm l) (c : Controller) (hc : c ∈ start) (hb : Built r)
    (hap : ∀ c' ∈ start, c'.name ≠ c.name → Apart (recOf (r.prepareSwitch params ans order start stop).1 c')
      (recOf (r.prepareSwitch params ans order start stop).1 c)) :
    let r' := (r.prepareSwitch params ans order start stop).1
    (c.name ∈ (r.prepareSwitch params ans order start stop).2.2 → ∀ d ∈ recOf r' c, Stopped r' d.joint) ∧
    (c.name ∉ (r.prepareSwitch params ans order start stop).2.2 → ∀ d ∈ recOf r' c, InMode r' d.joint d.mode) := by
  obtain ⟨ht, he⟩ := prepareSwitch_run params ans order r start stop hacc
  have hb' : Built (r.prepareSwitch params ans order start stop).1 := Built.prepare hb
  obtain ⟨pre, post, rfl⟩ := split_start hc
  have hcons := admitAll_consistent params (pre ++ c :: post) r (built_inv hb).2.2
  have hknown := admitAll_known params (pre ++ c :: post) r (built_inv hb).2.1
  have hsane : Sane (admitAll params r (pre ++ c :: post)).1 := by
    intro j x hx
    rw [(admitAll_handles params _ r).1] at hx
    exact (built_inv hb).1 j x hx
  generalize hr1 : (admitAll params r (pre ++ c :: post)).1 = r1 at *
  dsimp only at he
  have hmap : (r.prepareSwitch params ans order (pre ++ c :: post) stop).1.switchMap = r1.switchMap := by
    rw [he]
    dsimp only
    rw [(stopAll_ext ans _ _).1, (startAll_spec ans (pre ++ c :: post) _ _ _).1.1]
  have hrec : ∀ x, recOf (r.prepareSwitch params ans order (pre ++ c :: post) stop).1 x = recOf r1 x := by
    intro x; unfold recOf; rw [hmap]
  simp only [hrec] at hap ⊢
  generalize hr' : (r.prepareSwitch params ans order (pre ++ c :: post) stop).1 = r' at *
  generalize hfl : (r.prepareSwitch params ans order (pre ++ c :: post) stop).2.2 = fl at *
  rw [startAll_append, startAll_cons] at he
  obtain ⟨p1, p2, -, -, p5⟩ := startAll_spec ans pre r1 (stopJoints r1 stop) []
  generalize startAll ans r1 (stopJoints r1 stop) [] pre = o1 at *
  have hc1 : recOf o1.1 c = recOf r1 c := by unfold recOf; rw [p1.1]
  rw [hc1] at he
  obtain ⟨s1, s2, -, s4, s5, s6⟩ := startOne_spec ans o1.1 o1.2.1 (recOf r1 c)
  generalize startOne ans o1.1 o1.2.1 (recOf r1 c) = o2 at *
  obtain ⟨q1, q2, q3, q4, q5⟩ := startAll_spec ans post o2.1 o2.2.1 (if o2.2.2 then o1.2.2 else o1.2.2 ++ [c.name])
  generalize startAll ans o2.1 o2.2.1 (if o2.2.2 then o1.2.2 else o1.2.2 ++ [c.name]) post = o3 at *
  have hE : r' = stopAll ans o3.1 (order o3.2.1) := by rw [← hr', he]
  have hF : fl = o3.2.2 := by rw [← hfl, he]
  have hext13 : Ext r1 o3.1 := (p1.trans s1).trans q1
  -- names
  rw [List.map_append, List.map_cons, List.nodup_append] at hnames
  obtain ⟨hn1, hn2, hn3⟩ := hnames
  rw [List.nodup_cons] at hn2
  have hpost : ∀ x ∈ post, x.name ≠ c.name := fun x hx e => hn2.1 (List.mem_map.2 ⟨x, hx, e⟩)
  have hpre : ∀ x ∈ pre, x.name ≠ c.name := fun x hx e => hn3 _ (List.mem_map.2 ⟨x, hx, rfl⟩) _ (by simp) e
  have hrec2 : ∀ x, recOf o2.1 x = recOf r1 x := by
    intro x; unfold recOf; rw [(p1.trans s1).1]
  have hfail : c.name ∈ fl ↔ o2.2.2 = false := by
    rw [hF]
    constructor
    · intro h
      rcases q5 _ h with h | ⟨x, hx, e⟩
      · cases hb2 : o2.2.2 with
        | false => rfl
        | true =>
          rw [hb2, if_pos rfl] at h
          rcases p5 _ h with h | ⟨x, hx, e⟩
          · simp at h
          · exact absurd e (hpre x hx)
      · exact absurd e (hpost x hx)
    · intro h
      apply q4
      rw [h]
      simp
  have hjn : ∀ d ∈ recOf r1 c, ∀ x ∈ post, ∀ e ∈ recOf o2.1 x, e.joint ≠ d.joint := by
    intro d hd x hx e hx2
    rw [hrec2] at hx2
    exact hap x (by simp [hx]) (hpost x hx) e hx2 d hd
  have hmemo : ∀ j, j ∈ order o3.2.1 ↔ j ∈ o3.2.1 := fun j => (hord o3.2.1).mem_iff
  constructor
  · intro h d hd
    have hfl := hfail.1 h
    have hin2 := s4 hfl d hd
    have hin3 := (q3 d.joint (hjn d hd)).2.2 hin2
    rw [hE]
    have hk : (o3.1.handles d.joint).isSome := by
      rw [hext13.isSome]
      unfold recOf at hd
      cases hsw : r1.switchMap c.name with
      | none => rw [hsw] at hd; simp at hd
      | some sw => rw [hsw] at hd; exact hknown c.name sw hsw d hd
    have hs3 := hext13.sane hsane
    apply inMode_zero ((stopAll_ext ans _ _).sane hs3)
    exact stopAll_stopped ans _ _ hs3 _ ((hmemo _).2 hin3) hk
  · intro h d hd
    have hok : o2.2.2 = true := by
      cases hb2 : o2.2.2 with
      | true => rfl
      | false => exact absurd (hfail.2 hb2) h
    have hc' : Consistent (recOf r1 c) := by
      unfold recOf
      cases hsw : r1.switchMap c.name with
      | none => intro x hx; simp at hx
      | some sw => exact hcons c.name sw hsw
    have hin := s6 hok hc' d hd
    have hnot := s5 hok (p2 (stopJoints_nodup _ _)) d hd
    obtain ⟨hh, hmm⟩ := q3 d.joint (hjn d hd)
    rw [hE]
    rw [inMode_congr (stopAll_other ans _ _ _ (fun hx => hnot (hmm.1 ((hmemo _).1 hx)))), inMode_congr hh]
    exact hin

end Verif.Rob
