import Verif.Lemmas.PdoInit
import Verif.Spec.PdoSetup

/-!
# Lemmas: buffers of a PDO and what the set-up loops keep
-/

set_option linter.unusedSimpArgs false

namespace Verif.PdoInit
open Verif Verif.OD Verif.Pdo Verif.Spec

variable {D : Type} {α β : Type}

theorem bind_ok {m : Act D α} {f : α → Act D β} {e e' : Env D} {b : β} (h : (m >>= f) e = (e', .ok b)) :
    ∃ e1 a, m e = (e1, .ok a) ∧ f a e1 = (e', .ok b) := by
  rw [bind_run] at h
  revert h
  generalize m e = r
  obtain ⟨e1, o⟩ := r
  cases o with
  | ok a => exact fun h => ⟨e1, a, rfl, h⟩
  | throws x => intro h; simp at h
  | ub => intro h; simp at h

/-- takes the first step of a normally ending sequence apart -/
macro "bnd" h:ident " with " e:ident a:ident h1:ident : tactic =>
  `(tactic| (have hx := bind_ok $h; clear $h; refine Exists.elim hx (fun $e hx => Exists.elim hx (fun $a hx => And.elim (fun $h1 $h => ?_) hx))))

theorem read_ok {f : Env D → Outcome Err α} {e e' : Env D} {a : α} (h : (e, f e) = (e', Outcome.ok a)) : e' = e ∧ f e = .ok a := by
  injection h with h1 h2
  exact ⟨h1.symm, h2⟩

theorem pure_ok {a b : α} {e e' : Env D} (h : (pure a : Act D α) e = (e', .ok b)) : e' = e ∧ b = a := by
  have h1 : (e, Outcome.ok a) = (e', (Outcome.ok b : Outcome Err α)) := h
  injection h1 with h1 h2
  injection h2 with h2
  exact ⟨h1.symm, h2.symm⟩

theorem dictAt_ok {i : BitVec 16} {s : BitVec 8} {e e' : Env D} {x : Entry} (h : (dictAt i s : Act D Entry) e = (e', .ok x)) :
    e' = e ∧ e.s.dict.get (Key.ofSub i s) = some x := by
  unfold dictAt at h
  split at h
  · rename_i y hy; cases h; exact ⟨rfl, hy⟩
  · cases h

theorem descOf_ok {k : Key} {e e' : Env D} {x : Entry} (h : (descOf k : Act D Entry) e = (e', .ok x)) :
    e' = e ∧ ∃ d, e.s.data k = some d ∧ d.entry = x := by
  unfold descOf at h
  split at h
  · rename_i y hy; cases h; exact ⟨rfl, y, hy, rfl⟩
  · cases h

theorem lift_ok {o : Outcome Err α} {e e' : Env D} {a : α} (h : (lift o : Act D α) e = (e', .ok a)) : e' = e ∧ o = .ok a := by
  unfold lift at h
  injection h with h1 h2
  exact ⟨h1.symm, h2⟩

theorem keep_ok {I : Env D → Prop} {m : Act D α} (hk : Keep I m) {e e' : Env D} {a : α} (h : m e = (e', .ok a)) (he : I e) : I e' := by
  have := hk e he
  rw [h] at this
  exact this

/-! ## Numbers of buffers -/

theorem next_stable (dv : Dev D) (n : Nat) : StableOne dv (fun e : Env D => e.c.w.next = n) where
  one k e e' h h' := by
    cases h' with
    | none h' => subst h'; exact h
    | change d d' hd hs c' hc he => subst he; exact (calls_next hc).trans h

theorem mapOne_next (dv : Dev D) (mem : Mem) (p : PdoMap) (n : Nat) (read write : Bool) (e : Env D) :
    (mapOne dv mem p n read write e).1.c.w.next = e.c.w.next := by
  unfold mapOne
  split
  · rfl
  · split
    · rw [bind_run]
      have h := mapEntry_mapped dv mem p.index p.subIndex (if read then some n else none) n e
      revert h
      generalize mapEntry dv mem p.index p.subIndex (if read then some n else none) (some n) e = r
      obtain ⟨e', o⟩ := r
      intro h
      have h2 : e'.c.w.next = e.c.w.next := by
        cases h with
        | none h => dsimp only at h; rw [h]
        | change k d d' hd hen hty hrd hwr hpd c' hc h => dsimp only at h; rw [h]; exact calls_next hc
      cases o <;> exact h2
    · rfl

theorem mapLoop_bufs (dv : Dev D) (mem : Mem) (map : BitVec 16) (read write : Bool) (subs : List Nat) :
    ∀ dlc bufs e e' r, mapLoop dv mem map read write subs dlc bufs e = (e', .ok r) →
      e'.c.w.next = e.c.w.next + subs.length ∧ r.2 = bufs ++ List.range' e.c.w.next subs.length := by
  induction subs with
  | nil =>
    intro dlc bufs e e' r h
    obtain ⟨rfl, rfl⟩ := pure_ok h
    simp
  | cons s ss ih =>
    intro dlc bufs e e' r h
    unfold mapLoop at h
    bnd h with e1 u1 h1
    bnd h with e2 x h2
    bnd h with e3 u2 h3
    bnd h with e4 v h4
    bnd h with e5 n h5
    bnd h with e6 u3 h6
    bnd h with e7 u4 h7
    have n1 := keep_ok (keep_open (next_stable dv e.c.w.next) _ _ _) h1 rfl
    obtain ⟨rfl, -⟩ := dictAt_ok h2
    have n3 := keep_ok (keep_setConfigured (next_stable dv e.c.w.next) _ _) h3 n1
    have n4 := keep_ok (keep_get (next_stable dv e.c.w.next) _ _) h4 n3
    have n5 : e5.c.w.next = e4.c.w.next + 1 ∧ n = e4.c.w.next := by
      unfold newBuf at h5
      injection h5 with a b
      injection b with b
      rw [← a]
      exact ⟨rfl, b.symm⟩
    have n6 : e6.c.w.next = e5.c.w.next := by
      have := mapOne_next dv mem (PdoMap.ofWord (word32 v)) n read write e5
      rw [h6] at this
      exact this
    have n7 : e7.c.w.next = e6.c.w.next := by
      unfold cleanBuf at h7
      injection h7 with a b
      rw [← a]; rfl
    obtain ⟨i1, i2⟩ := ih _ _ _ _ _ h
    refine ⟨by rw [i1, n7, n6, n5.1, n4, List.length_cons]; omega, ?_⟩
    rw [i2, n7, n6, n5.1, n5.2, n4, List.length_cons, List.range'_succ]
    simp

theorem setMapping_bufs (dv : Dev D) (mem : Mem) (map : BitVec 16) (read write : Bool) (num : Nat) (ch : Bool) (e e' : Env D) (r : Byte × List Nat)
    (h : setMapping dv mem map read write num ch e = (e', .ok r)) :
    r.2 = List.range' e.c.w.next (if 0 < num ∧ num ≤ 0x40 then num else 0) ∧
    e'.c.w.next = e.c.w.next + (if 0 < num ∧ num ≤ 0x40 then num else 0) := by
  unfold setMapping at h
  by_cases hc : 0 < num ∧ num ≤ 0x40
  · rw [if_pos hc] at h
    rw [if_pos hc]
    bnd h with e1 u5 h1
    have n1 := keep_ok (keep_onlyIf _ (keep_set (next_stable dv e.c.w.next) _ _)) h1 rfl
    obtain ⟨a, b⟩ := mapLoop_bufs dv mem map read write _ _ _ _ _ _ h
    rw [a, b, n1, List.length_range']
    simp
  · rw [if_neg hc] at h
    rw [if_neg hc]
    obtain ⟨rfl, rfl⟩ := pure_ok h
    simp

/-- a change of one object keeps the data in line with the dictionary -/
theorem cons_stable (dv : Dev D) : Stable dv (fun e : Env D => Consistent e.s) where
  one k e e' h h' := by
    cases h' with
    | none h' => subst h'; exact h
    | change d d' hd hs c' hc he =>
      subst he
      refine put_consistent h ?_
      rw [hs.entry]
      rcases hd with hd | hd
      · exact h k d hd
      · exact hd.2.1
  map r w e e' h _ _ h' := by
    cases h' with
    | none h' => subst h'; exact h
    | change k d d' hd hen hty hrd hwr hpd c' hc he =>
      subst he
      refine put_consistent h ?_
      rw [hen]
      rcases hd with hd | hd
      · exact h k d hd
      · exact hd.2
  new _ _ h := h
  clean _ _ h := h

theorem parse_bufs (dv : Dev D) (mem : Mem) (com map : BitVec 16) (read write : Bool) (e e' : Env D) (r : Byte × List Nat) (hc : Consistent e.s)
    (h : parseAndSet dv mem com map read write e = (e', .ok r)) :
    r.2 = List.range' e.c.w.next (mappingCount e.s.dict map) ∧ e'.c.w.next = e.c.w.next + mappingCount e.s.dict map := by
  unfold parseAndSet at h
  bnd h with e1 u6 h1
  bnd h with e2 x h2
  bnd h with e3 mc h3
  bnd h with e4 di h4
  bnd h with e5 u7 h5
  obtain ⟨e6, r', h6, h⟩ := bind_ok h
  bnd h with e7 u8 h7
  bnd h with e8 u9 h8
  obtain ⟨rfl, rfl⟩ := pure_ok h
  have n1 := keep_ok (keep_open (next_stable dv e.c.w.next) _ _ _) h1 rfl
  have c1 := keep_ok (keep_open (cons_stable dv).toStableOne _ _ _) h1 hc
  have d1 := keep_ok (keep_open (kept_stable dv e).toStableOne _ _ _) h1 (.refl e)
  obtain ⟨rfl, d, hd, hx⟩ := descOf_ok h2
  have hdict := c1 _ _ hd
  rw [d1.dict] at hdict
  have n3 := keep_ok (keep_mapChanged (I := fun e' => e'.c.w.next = e.c.w.next) _ _) h3 n1
  have n4 : e4.c.w.next = e.c.w.next := by injection h4 with a b; rw [← a]; exact n3
  have n5 := keep_ok (keep_disable (next_stable dv e.c.w.next) mem com _) h5 n4
  obtain ⟨b1, b2⟩ := setMapping_bufs dv mem map read write _ _ _ _ _ h6
  have n7 := keep_ok (keep_setCom (next_stable dv e6.c.w.next) mem com _) h7 rfl
  have n8 := keep_ok (keep_enable (next_stable dv e6.c.w.next) mem com map _ _ _) h8 n7
  have hent : mappingCount e.s.dict map = if 0 < mapNum x ∧ mapNum x ≤ 0x40 then mapNum x else 0 := by
    unfold mappingCount mapNum
    rw [hdict, hx]
    dsimp only
    cases x.value.getInt .u8 <;> rfl
  rw [hent, b1, n8, b2, n5]
  exact ⟨rfl, rfl⟩

/-! ## One PDO -/

theorem freeBufs_nil (e : Env D) : freeBufs [] e = e := by
  unfold freeBufs
  simp

theorem cobWord_ok {com : BitVec 16} {e e' : Env D} {w : BitVec 32} (h : (cobWord com : Act D _) e = (e', .ok w)) :
    e' = e ∧ ∃ y, e.s.dict.get (sub com 1) = some y ∧ applyOffset .u32 y.value e.s.nodeId = .ok w := by
  unfold cobWord at h
  bnd h with e1 y h1
  obtain ⟨rfl, hy⟩ := dictAt_ok h1
  injection h with a b
  exact ⟨a.symm, y, hy, b⟩

theorem invalid_msb (w : BitVec 32) : (PdoId.mk w).isInvalid = w.msb := by
  unfold PdoId.isInvalid
  dsimp only
  have h : (w &&& 0x80000000#32 = 0#32) ↔ w.msb = false := by
    constructor
    · intro h
      have := congrArg BitVec.msb h
      rw [BitVec.msb_and, show (0x80000000#32).msb = true from rfl, Bool.and_true] at this
      exact this
    · intro h
      apply BitVec.eq_of_getLsbD_eq
      intro i hi
      have h31 : w.getLsbD 31 = false := by
        rw [BitVec.msb_eq_getLsbD_last] at h; exact h
      by_cases h3 : i = 31
      · subst h3; rw [BitVec.getLsbD_and, h31]; simp
      · have : (0x80000000#32).getLsbD i = false := by
          have : ∀ j : Fin 32, j.val ≠ 31 → (0x80000000#32).getLsbD j.val = false := by decide
          exact this ⟨i, hi⟩ h3
        simp [this]
  cases hm : w.msb with
  | false => rw [h.2 hm]; rfl
  | true =>
    have : w &&& 0x80000000#32 ≠ 0#32 := fun hc => by rw [h.1 hc] at hm; cases hm
    simp [this]

theorem rpdoInit_bufs (dv : Dev D) (mem : Mem) (junk : Vector Byte 8) (com map : BitVec 16) (e e' : Env D) (o : Option Rec) (hc : Consistent e.s)
    (hn : NotDisabled e.s.dict e.s.nodeId com map) (h : rpdoInit dv mem junk com map e = (e', .ok o)) :
    (o = none → e'.c.w.next = e.c.w.next) ∧ (∀ x, o = some x → x.bufs = List.range' e.c.w.next (mappingCount e.s.dict map) ∧ mappingCount e.s.dict map ≠ 0 ∧
      e'.c.w.next = e.c.w.next + mappingCount e.s.dict map) := by
  unfold rpdoInit at h
  bnd h with e1 r h1
  bnd h with e2 w h2
  obtain ⟨b1, b2⟩ := parse_bufs dv mem com map _ _ _ _ _ hc h1
  have k1 := keep_ok (keep_parse (kept_stable dv e) mem com map _ _) h1 (.refl e)
  obtain ⟨rfl, y, hy, hw⟩ := cobWord_ok h2
  rw [k1.dict] at hy
  rw [k1.node] at hw
  have hempty : r.2.isEmpty = true ↔ mappingCount e.s.dict map = 0 := by rw [b1]; simp
  split at h
  · rename_i hcond
    obtain ⟨rfl, rfl⟩ := pure_ok h
    refine ⟨fun _ => ?_, fun x hx => by cases hx⟩
    have h0 : mappingCount e.s.dict map = 0 := by
      rcases hn with h0 | hv
      · exact h0
      · have := hv y w hy hw
        rw [invalid_msb, this, Bool.or_false] at hcond
        exact hempty.1 hcond
    rw [b2, h0]; rfl
  · rename_i hcond
    bnd h with e3 z h3
    bnd h with e4 t h4
    obtain ⟨rfl, rfl⟩ := pure_ok h
    obtain ⟨rfl, -⟩ := dictAt_ok h3
    obtain ⟨rfl, -⟩ := lift_ok h4
    refine ⟨fun hx => by (cases hx), fun x hx => ?_⟩
    cases hx
    refine ⟨b1, fun h0 => hcond ?_, b2⟩
    rw [hempty.2 h0]; rfl

theorem tpdoInit_bufs (dv : Dev D) (mem : Mem) (junk : Vector Byte 8) (com map : BitVec 16) (e e' : Env D) (o : Option Rec) (hc : Consistent e.s)
    (hn : NotDisabled e.s.dict e.s.nodeId com map) (h : tpdoInit dv mem junk com map e = (e', .ok o)) :
    (o = none → e'.c.w.next = e.c.w.next) ∧ (∀ x, o = some x → x.bufs = List.range' e.c.w.next (mappingCount e.s.dict map) ∧ mappingCount e.s.dict map ≠ 0 ∧
      e'.c.w.next = e.c.w.next + mappingCount e.s.dict map) := by
  unfold tpdoInit at h
  bnd h with e1 w h1
  bnd h with e2 r h2
  obtain ⟨rfl, y, hy, hw⟩ := cobWord_ok h1
  obtain ⟨b1, b2⟩ := parse_bufs dv mem com map _ _ _ _ _ hc h2
  have hempty : r.2.isEmpty = true ↔ mappingCount e1.s.dict map = 0 := by rw [b1]; simp
  split at h
  · rename_i hcond
    obtain ⟨rfl, rfl⟩ := pure_ok h
    refine ⟨fun _ => ?_, fun x hx => by cases hx⟩
    have h0 : mappingCount e1.s.dict map = 0 := by
      rcases hn with h0 | hv
      · exact h0
      · have := hv y w hy hw
        rw [invalid_msb, this, Bool.or_false] at hcond
        exact hempty.1 hcond
    rw [b2, h0]; rfl
  · rename_i hcond
    bnd h with e3 u10 h3
    bnd h with e4 z h4
    bnd h with e5 t h5
    bnd h with e6 u11 h6
    obtain ⟨rfl, rfl⟩ := pure_ok h
    have n3 := keep_ok (keep_open (next_stable dv e2.c.w.next) _ _ _) h3 rfl
    obtain ⟨rfl, -⟩ := descOf_ok h4
    obtain ⟨rfl, -⟩ := lift_ok h5
    have n6 : e'.c.w.next = e2.c.w.next := by
      unfold enforceType at h6
      exact keep_ok (keep_ite (fun _ => keep_set (next_stable dv e2.c.w.next) _ _) (fun _ => keep_pure _)) h6 n3
    refine ⟨fun hx => by (cases hx), fun x hx => ?_⟩
    cases hx
    refine ⟨b1, fun h0 => hcond ?_, by rw [n6]; exact b2⟩
    rw [hempty.2 h0]; rfl

/-! ## The loops -/

/-- what the loops keep: delegates are alive, data in line with the dictionary, dictionary and node id as given -/
structure Good (dict : Dict) (node : BitVec 8) (e : Env D) : Prop where
  live : Live e
  cons : Consistent e.s
  dict : e.s.dict = dict
  node : e.s.nodeId = node

theorem good_stable (dv : Dev D) (dict : Dict) (node : BitVec 8) : Stable dv (Good (D := D) dict node) where
  one k e e' h h' := ⟨(live_stable dv).one k e e' h.live h', (cons_stable dv).one k e e' h.cons h', (one_kept h').dict.trans h.dict, (one_kept h').node.trans h.node⟩
  map r w e e' h hw hr h' := ⟨(live_stable dv).map r w e e' h.live hw hr h', (cons_stable dv).map r w e e' h.cons hw hr h',
    (mapped_kept h').dict.trans h.dict, (mapped_kept h').node.trans h.node⟩
  new n e h := ⟨(live_stable dv).new n e h.live, h.cons, h.dict, h.node⟩
  clean n e h := ⟨(live_stable dv).clean n e h.live, h.cons, h.dict, h.node⟩

theorem create_good {dict : Dict} {node : BitVec 8} {m : Act D (Option Rec)} {e e' : Env D} {o : Option Rec} (hk : Keep (Good dict node) m)
    (hb : ∀ e1, m e = (e1, .ok none) → e1.c.w.next = e.c.w.next) (he : Good dict node e) (h : create m e = (e', .ok o)) : Good dict node e' := by
  unfold create at h
  dsimp only at h
  have hg := hk e he
  cases hm : m e with
  | mk e1 o1 =>
    rw [hm] at h hg
    cases o1 with
    | ok x =>
      cases x with
      | some x => cases h; exact hg
      | none =>
        rw [hb e1 hm] at h
        simp only [Nat.sub_self, List.range'_zero, freeBufs_nil] at h
        cases h
        exact hg
    | throws x => cases h
    | ub => cases h

theorem good_rpdos {dict : Dict} {node : BitVec 8} {e : Env D} (h : Good dict node e) (l : List Rec) : Good dict node { e with rpdos := l } :=
  ⟨⟨h.live.bad, h.live.fresh, h.live.dlg⟩, h.cons, h.dict, h.node⟩
theorem good_tpdos {dict : Dict} {node : BitVec 8} {e : Env D} (h : Good dict node e) (l : List Rec) : Good dict node { e with tpdos := l } :=
  ⟨⟨h.live.bad, h.live.fresh, h.live.dlg⟩, h.cons, h.dict, h.node⟩

theorem rpdoLoop_good (dv : Dev D) (mem : Mem) (junk : Vector Byte 8) (nr : Nat) (dict : Dict) (node : BitVec 8) (is : List Nat)
    (hn : ∀ i ∈ is, present dict (0x1800#16 + BitVec.ofNat 16 i) (0x1A00#16 + BitVec.ofNat 16 i) = true →
      NotDisabled dict node (0x1800#16 + BitVec.ofNat 16 i) (0x1A00#16 + BitVec.ofNat 16 i)) :
    ∀ e e' u, Good dict node e → rpdoLoop dv mem junk nr is e = (e', .ok u) → Good dict node e' ∧ e'.tpdos = e.tpdos := by
  induction is with
  | nil =>
    intro e e' u he h
    obtain ⟨rfl, -⟩ := pure_ok h
    exact ⟨he, rfl⟩
  | cons i is ih =>
    intro e e' u he h
    have ih := ih (fun j hj => hn j (List.mem_cons_of_mem _ hj))
    unfold rpdoLoop at h
    dsimp only at h
    split at h
    · split at h
      · exact ih _ _ _ he h
      · rename_i hp
        have hp : present dict (0x1800#16 + BitVec.ofNat 16 i) (0x1A00#16 + BitVec.ofNat 16 i) = true := by
          rw [← he.dict]; simpa using hp
        have hnd := hn i List.mem_cons_self hp
        have hk : Keep (Good dict node) (rpdoInit dv mem junk (0x1800#16 + BitVec.ofNat 16 i) (0x1A00#16 + BitVec.ofNat 16 i)) :=
          keep_rpdoInit (good_stable dv dict node) mem junk _ _
        have ht : (create (rpdoInit dv mem junk (0x1800#16 + BitVec.ofNat 16 i) (0x1A00#16 + BitVec.ofNat 16 i)) e).1.tpdos = e.tpdos := by
          have := (keep_rpdoInit (kept_stable dv e) mem junk (0x1800#16 + BitVec.ofNat 16 i) (0x1A00#16 + BitVec.ofNat 16 i) e (.refl e)).tpdos
          unfold create
          dsimp only
          split <;> exact this
        cases hq : create (rpdoInit dv mem junk (0x1800#16 + BitVec.ofNat 16 i) (0x1A00#16 + BitVec.ofNat 16 i)) e with
        | mk e1 o =>
          rw [hq] at h ht
          cases o with
          | ok o =>
            have hg := create_good hk (fun e1 h1 => (rpdoInit_bufs dv mem junk _ _ e e1 none he.cons (by rw [he.dict, he.node]; exact hnd) h1).1 rfl) he hq
            cases o with
            | some x =>
              obtain ⟨a, b⟩ := ih _ _ _ (good_rpdos hg _) h
              exact ⟨a, b.trans ht⟩
            | none =>
              obtain ⟨a, b⟩ := ih _ _ _ hg h
              exact ⟨a, b.trans ht⟩
          | throws x => cases h
          | ub => cases h
    · cases h; exact ⟨he, rfl⟩

theorem tpdoLoop_good (dv : Dev D) (mem : Mem) (junk : Vector Byte 8) (nr : Nat) (dict : Dict) (node : BitVec 8) (is : List Nat)
    (hn : ∀ i ∈ is, present dict (0x1400#16 + BitVec.ofNat 16 i) (0x1600#16 + BitVec.ofNat 16 i) = true →
      NotDisabled dict node (0x1400#16 + BitVec.ofNat 16 i) (0x1600#16 + BitVec.ofNat 16 i)) :
    ∀ e e' u, Good dict node e → tpdoLoop dv mem junk nr is e = (e', .ok u) → Good dict node e' := by
  induction is with
  | nil =>
    intro e e' u he h
    obtain ⟨rfl, -⟩ := pure_ok h
    exact he
  | cons i is ih =>
    intro e e' u he h
    have ih := ih (fun j hj => hn j (List.mem_cons_of_mem _ hj))
    unfold tpdoLoop at h
    dsimp only at h
    split at h
    · split at h
      · exact ih _ _ _ he h
      · rename_i hp
        have hp : present dict (0x1400#16 + BitVec.ofNat 16 i) (0x1600#16 + BitVec.ofNat 16 i) = true := by
          rw [← he.dict]; simpa using hp
        have hnd := hn i List.mem_cons_self hp
        have hk : Keep (Good dict node) (tpdoInit dv mem junk (0x1400#16 + BitVec.ofNat 16 i) (0x1600#16 + BitVec.ofNat 16 i)) :=
          keep_tpdoInit (good_stable dv dict node) mem junk _ _
        cases hq : create (tpdoInit dv mem junk (0x1400#16 + BitVec.ofNat 16 i) (0x1600#16 + BitVec.ofNat 16 i)) e with
        | mk e1 o =>
          rw [hq] at h
          cases o with
          | ok o =>
            have hg := create_good hk (fun e1 h1 => (tpdoInit_bufs dv mem junk _ _ e e1 none he.cons (by rw [he.dict, he.node]; exact hnd) h1).1 rfl) he hq
            cases o with
            | some x => exact ih _ _ _ (good_tpdos hg _) h
            | none => exact ih _ _ _ hg h
          | throws x => cases h
          | ub => cases h
    · cases h; exact he

theorem clear_none (e : Env D) (h : e.rpdos = []) : (clearRpdos e).1 = e := by
  unfold clearRpdos
  rw [h]
  show ({ freeBufs [] e with rpdos := [] } : Env D) = e
  rw [freeBufs_nil, ← h]

theorem clear_none' (e : Env D) (h : e.tpdos = []) : (clearTpdos e).1 = e := by
  unfold clearTpdos
  rw [h]
  show ({ freeBufs [] e with tpdos := [] } : Env D) = e
  rw [freeBufs_nil, ← h]

/-- a first set-up that succeeds leaves only delegates whose buffers are alive -/
theorem mapperInit_good (dv : Dev D) (mem : Mem) (junk : Vector Byte 8) (nrTx nrRx : Nat) (e e' : Env D) (he : Good e.s.dict e.s.nodeId e)
    (hr : e.rpdos = []) (ht : e.tpdos = [])
    (h1 : ∀ i < 512, present e.s.dict (0x1800#16 + BitVec.ofNat 16 i) (0x1A00#16 + BitVec.ofNat 16 i) = true →
      NotDisabled e.s.dict e.s.nodeId (0x1800#16 + BitVec.ofNat 16 i) (0x1A00#16 + BitVec.ofNat 16 i))
    (h2 : ∀ i < 512, present e.s.dict (0x1400#16 + BitVec.ofNat 16 i) (0x1600#16 + BitVec.ofNat 16 i) = true →
      NotDisabled e.s.dict e.s.nodeId (0x1400#16 + BitVec.ofNat 16 i) (0x1600#16 + BitVec.ofNat 16 i))
    (h : mapperInit dv mem junk nrTx nrRx e = (e', .ok true)) : Good e.s.dict e.s.nodeId e' := by
  unfold mapperInit at h
  cases hb : initBody dv mem junk nrTx nrRx e with
  | mk e1 o =>
    rw [hb] at h
    cases o with
    | ub => cases h
    | throws x => cases x <;> cases h
    | ok u =>
      cases h
      unfold initBody at hb
      bnd hb with e2 u12 a1
      bnd hb with e3 u13 a2
      bnd hb with e4 u14 a3
      have : e2 = e := by
        have := clear_none e hr
        rw [a1] at this
        exact this
      subst this
      obtain ⟨g3, t3⟩ := rpdoLoop_good dv mem junk nrTx _ _ _ (fun i hi => h1 i (List.mem_range.1 hi)) _ _ _ he a2
      have : e4 = e3 := by
        have := clear_none' e3 (t3.trans ht)
        rw [a3] at this
        exact this
      subst this
      exact tpdoLoop_good dv mem junk nrRx _ _ _ (fun i hi => h2 i (List.mem_range.1 hi)) _ _ _ g3 hb

/-! ## Use of the storage afterwards -/

theorem initAll_live (dv : Dev D) (mem : Mem) (l : Dict) : ∀ (e : Env D), Live e →
    Live { e with s := (Storage.initAllFrom (pdoBus dv) mem l e.s e.c).1, c := (Storage.initAllFrom (pdoBus dv) mem l e.s e.c).2.1 } := by
  induction l with
  | nil => intro e he; exact he
  | cons p l ih =>
    intro e he
    obtain ⟨k, en⟩ := p
    have h1 : Live { e with s := (e.s.initNolock (pdoBus dv) mem k en e.c).1, c := (e.s.initNolock (pdoBus dv) mem k en e.c).2.1 } := by
      rcases initNolock_calls (pdoBus dv) mem e.s e.c k en with ⟨h1, h2⟩ | ⟨d, d', hd, hs, h1, h2⟩
      · rw [h1, h2]; exact he
      · rw [h1]
        have hl : DLive e.c.w d.rd ∧ DLive e.c.w d.wr := by
          rcases hd with hd | ⟨_, _, h1, h2⟩
          · exact he.dlg k d hd
          · rw [h1, h2]; exact ⟨dlive_dev _, dlive_dev _⟩
        have hst := calls_step h2 hl.1 hl.2
        exact live_put he hst (by rw [hs.rd]; exact hst.live hl.1) (by rw [hs.wr]; exact hst.live hl.2)
    have ih1 := ih _ h1
    unfold Storage.initAllFrom
    dsimp only
    split
    · exact ih1
    · exact h1

theorem step_live (dv : Dev D) (mem : Mem) (o : SOp) (ho : IsUse o) (e : Env D) (he : Live e) :
    Live { e with s := (e.s.step (pdoBus dv) mem e.c o).1, c := (e.s.step (pdoBus dv) mem e.c o).2.1 } := by
  cases o with
  | map => exact ho.elim
  | «open» k ty => exact (live_stable dv).one k e _ he (openEntry_one dv mem k ty e)
  | init k => exact (live_stable dv).one k e _ he (initEntry_one dv mem k e)
  | initAll => exact initAll_live dv mem _ e he
  | reset =>
    refine ⟨he.bad, he.fresh, fun k d hd => ?_⟩
    have : ∃ d0, e.s.data k = some d0 ∧ d0.reset mem = d := by
      unfold Storage.step Storage.reset at hd
      simpa using hd
    obtain ⟨d0, h0, rfl⟩ := this
    rw [(reset_same mem d0).rd, (reset_same mem d0).wr]
    exact he.dlg k d0 h0
  | get k cached =>
    have h := (live_stable dv).one k e _ he (getEntry_one dv k cached e)
    unfold getEntry at h
    cases hd : e.s.data k with
    | none => simp only [Storage.step, hd]; exact he
    | some d => rw [hd] at h; simp only [Storage.step, hd]; exact h
  | set k v =>
    have h := (live_stable dv).one k e _ he (setEntry_one dv k v e)
    unfold setEntry at h
    cases hd : e.s.data k with
    | none => simp only [Storage.step, hd]; exact he
    | some d => rw [hd] at h; simp only [Storage.step, hd]; exact h
  | setCached k v =>
    cases hd : e.s.data k with
    | none => simp only [Storage.step, hd]; exact he
    | some d =>
      simp only [Storage.step, hd]
      obtain ⟨hs, hc⟩ := setCached_calls (pdoBus dv) d e.c v
      exact (live_stable dv).one k e _ he (.change d _ (.inl hd) hs _ hc rfl)

theorem run_live (dv : Dev D) (mem : Mem) (ops : List SOp) (ho : ∀ o ∈ ops, IsUse o) : ∀ (e : Env D), Live e →
    Live { e with s := (e.s.run (pdoBus dv) mem e.c ops).1, c := (e.s.run (pdoBus dv) mem e.c ops).2.1 } := by
  induction ops with
  | nil => intro e he; exact he
  | cons o ops ih =>
    intro e he
    exact ih (fun x hx => ho x (List.mem_cons_of_mem _ hx)) _ (step_live dv mem o (ho o List.mem_cons_self) e he)

end Verif.PdoInit
