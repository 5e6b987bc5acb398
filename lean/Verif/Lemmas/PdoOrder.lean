import Verif.Lemmas.PdoBufs
import Verif.Lemmas.Dict

/-!
# Lemmas: the order of the writes when a PDO is set up
-/

set_option linter.unusedSimpArgs false

namespace Verif.PdoInit
open Verif Verif.OD Verif.Pdo Verif.Spec

variable {D : Type} {α β : Type}

/-! ## Records of accesses -/

theorem lastWrite_append (i : BitVec 16) (s : BitVec 8) (l m : List Acc) :
    lastWrite i s (l ++ m) = match lastWrite i s m with | some v => some v | none => lastWrite i s l := by
  induction l with
  | nil => simp only [List.nil_append]; cases lastWrite i s m <;> rfl
  | cons a l ih =>
    simp only [List.cons_append, lastWrite]
    rw [ih]
    cases lastWrite i s m <;> rfl

/-- accesses that are no writes of object `i`, `s` of the device -/
def NoWrite (i : BitVec 16) (s : BitVec 8) (l : List Acc) : Prop := ∀ v, Acc.write .dev i s v ∉ l

theorem lastWrite_none {i : BitVec 16} {s : BitVec 8} {l : List Acc} (h : NoWrite i s l) : lastWrite i s l = none := by
  induction l with
  | nil => rfl
  | cons a l ih =>
    have h1 : NoWrite i s l := fun v hv => h v (List.mem_cons_of_mem _ hv)
    unfold lastWrite
    rw [ih h1]
    dsimp only
    cases a with
    | read => rfl
    | write d j t v =>
      cases d with
      | pdo n => rfl
      | dev =>
        dsimp only
        by_cases hc : j = i ∧ t = s
        · exact absurd List.mem_cons_self (by rw [hc.1, hc.2] at h; exact h v)
        · rw [if_neg hc]

theorem lastWrite_skip {i : BitVec 16} {s : BitVec 8} (l : List Acc) {m : List Acc} (h : NoWrite i s m) : lastWrite i s (l ++ m) = lastWrite i s l := by
  rw [lastWrite_append, lastWrite_none h]

theorem lastWrite_snoc (i : BitVec 16) (s : BitVec 8) (v : List Byte) (l : List Acc) : lastWrite i s (l ++ [.write .dev i s v]) = some v := by
  rw [lastWrite_append]
  simp [lastWrite]

theorem off_skip {com : BitVec 16} {l m : List Acc} (h : SwitchedOff com l) (hm : NoWrite com 1 m) : SwitchedOff com (l ++ m) := by
  obtain ⟨v, h1, h2⟩ := h
  exact ⟨v, by rw [lastWrite_skip l hm]; exact h1, h2⟩

theorem zero_skip {map : BitVec 16} {l m : List Acc} (h : CountZero map l) (hm : NoWrite map 0 m) : CountZero map (l ++ m) := by
  obtain ⟨v, h1, h2⟩ := h
  exact ⟨v, by rw [lastWrite_skip l hm]; exact h1, h2⟩

/-- accesses whose writes to the device all go to object `i`, `s` -/
def Only (i : BitVec 16) (s : BitVec 8) (m : List Acc) : Prop := ∀ j t v, Acc.write .dev j t v ∈ m → j = i ∧ t = s

theorem only_noWrite {i j : BitVec 16} {s t : BitVec 8} {m : List Acc} (h : Only i s m) (hne : ¬ (j = i ∧ t = s)) : NoWrite j t m :=
  fun v hv => hne (h j t v hv)

theorem split_app {l m pre post : List Acc} {a : Acc} (h : l ++ m = pre ++ a :: post) :
    (∃ q, l = pre ++ a :: q) ∨ ∃ m1, pre = l ++ m1 ∧ m = m1 ++ a :: post := by
  induction l generalizing pre with
  | nil => exact .inr ⟨pre, rfl, h⟩
  | cons x l ih =>
    cases pre with
    | nil =>
      simp only [List.cons_append, List.nil_append, List.cons.injEq] at h
      exact .inl ⟨l, by rw [h.1]; rfl⟩
    | cons y pre =>
      simp only [List.cons_append, List.cons.injEq] at h
      rcases ih h.2 with ⟨q, hq⟩ | ⟨m1, h1, h2⟩
      · exact .inl ⟨q, by rw [hq, h.1]; rfl⟩
      · exact .inr ⟨m1, by rw [h1, h.1]; rfl, h2⟩

theorem disc_append {com map : BitVec 16} {l m : List Acc} (h : Disciplined com map l)
    (hm : ∀ pre s v post, m = pre ++ Acc.write .dev map s v :: post → SwitchedOff com (l ++ pre) ∧ (s ≠ 0 → CountZero map (l ++ pre))) :
    Disciplined com map (l ++ m) := by
  intro pre s v post heq
  rcases split_app heq with ⟨q, hq⟩ | ⟨m1, h1, h2⟩
  · exact h pre s v q hq
  · rw [h1]; exact hm m1 s v post h2

theorem disc_skip {com map : BitVec 16} {l m : List Acc} (h : Disciplined com map l) (hm : ∀ s, NoWrite map s m) : Disciplined com map (l ++ m) := by
  refine disc_append h fun pre s v post heq => ?_
  exact absurd (by rw [heq]; simp) (hm s v)

theorem disc_nil (com map : BitVec 16) : Disciplined com map [] := by
  intro pre s v post h
  cases pre <;> cases h

/-! ## The accesses of the operations -/

theorem calls_log {W : Type} {bus : Bus W} {en : Entry} {rd wr : Dlg} {c c' : Ctx W} (h : Calls bus en rd wr c c') :
    ∃ m, c'.log = c.log ++ m ∧ Only en.index en.subIndex m ∧ (wr ≠ .dev → ∀ i s, NoWrite i s m) := by
  induction h with
  | refl => exact ⟨[], by simp, fun j t v hv => by simp at hv, fun _ i s v hv => by simp at hv⟩
  | read b _ ih =>
    obtain ⟨m, h1, h2, h3⟩ := ih
    refine ⟨m ++ [.read rd en.index en.subIndex], by rw [← List.append_assoc, ← h1], fun j t v hv => ?_, fun hw i s v hv => ?_⟩
    · rw [List.mem_append] at hv
      rcases hv with hv | hv
      · exact h2 j t v hv
      · simp at hv
    · rw [List.mem_append] at hv
      rcases hv with hv | hv
      · exact h3 hw i s v hv
      · simp at hv
  | write b _ ih =>
    obtain ⟨m, h1, h2, h3⟩ := ih
    refine ⟨m ++ [.write wr en.index en.subIndex b], by rw [← List.append_assoc, ← h1], fun j t v hv => ?_, fun hw i s v hv => ?_⟩
    · rw [List.mem_append] at hv
      rcases hv with hv | hv
      · exact h2 j t v hv
      · simp at hv; exact ⟨hv.2.1, hv.2.2.1⟩
    · rw [List.mem_append] at hv
      rcases hv with hv | hv
      · exact h3 hw i s v hv
      · simp at hv; exact hw hv.1.symm

/-- `e` continued the record `L0` by `new` -/
def Grown (L0 : List Acc) (P : List Acc → Prop) (e : Env D) : Prop := ∃ new, e.c.log = L0 ++ new ∧ P new

/-- what holds in between: the discipline so far; whether the PDO is switched off; whether the count is 0 -/
structure Stage (com map : BitVec 16) (off zero : Prop) (new : List Acc) : Prop where
  disc : Disciplined com map new
  off : off → SwitchedOff com new
  zero : zero → CountZero map new

theorem Stage.weaken {com map : BitVec 16} {o z o' z' : Prop} {new : List Acc} (h : Stage com map o z new) (ho : o' → o) (hz : z' → z) :
    Stage com map o' z' new := ⟨h.disc, fun x => h.off (ho x), fun x => h.zero (hz x)⟩

/-- an access that concerns neither the identifier nor the mapping -/
theorem stage_other {com map : BitVec 16} {o z : Prop} {new m : List Acc} (h : Stage com map o z new) (h1 : NoWrite com 1 m) (h2 : ∀ s, NoWrite map s m) :
    Stage com map o z (new ++ m) :=
  ⟨disc_skip h.disc h2, fun x => off_skip (h.off x) h1, fun x => zero_skip (h.zero x) (h2 0)⟩

/-- prefix of accesses to one object -/
theorem only_prefix {i : BitVec 16} {s : BitVec 8} {m pre post : List Acc} {a : Acc} (h : Only i s m) (he : m = pre ++ a :: post) : Only i s pre :=
  fun j t v hv => h j t v (by rw [he]; simp [hv])

/-- a mapping entry is accessed while everything is prepared -/
theorem stage_entry {com map : BitVec 16} {s : BitVec 8} {new m : List Acc} (hne : com ≠ map) (hs : s ≠ 0) (h : Stage com map True True new) (hm : Only map s m) :
    Stage com map True True (new ++ m) := by
  refine ⟨disc_append h.disc fun pre t v post heq => ?_, fun _ => off_skip (h.off trivial) (only_noWrite hm (fun hc => hne hc.1)),
    fun _ => zero_skip (h.zero trivial) (only_noWrite hm (fun hc => hs hc.2.symm))⟩
  have hp := only_prefix hm heq
  exact ⟨off_skip (h.off trivial) (only_noWrite hp (fun hc => hne hc.1)), fun _ => zero_skip (h.zero trivial) (only_noWrite hp (fun hc => hs hc.2.symm))⟩

/-- the number of entries is accessed while the PDO is switched off -/
theorem stage_count {com map : BitVec 16} {z : Prop} {new m : List Acc} (hne : com ≠ map) (h : Stage com map True z new) (hm : Only map 0 m) :
    Stage com map True False (new ++ m) := by
  refine ⟨disc_append h.disc fun pre t v post heq => ?_, fun _ => off_skip (h.off trivial) (only_noWrite hm (fun hc => hne hc.1)), fun x => x.elim⟩
  have hp := only_prefix hm heq
  have ht : t = 0 := (hm map t v (by rw [heq]; simp)).2
  exact ⟨off_skip (h.off trivial) (only_noWrite hp (fun hc => hne hc.1)), fun hc => (hc ht).elim⟩

/-- the identifier is accessed -/
theorem stage_cob {com map : BitVec 16} {o z : Prop} {new m : List Acc} (hne : com ≠ map) (h : Stage com map o z new) (hm : Only com 1 m) :
    Stage com map False z (new ++ m) :=
  ⟨disc_skip h.disc (fun s => only_noWrite hm (fun hc => hne hc.1.symm)), fun x => x.elim,
    fun x => zero_skip (h.zero x) (only_noWrite hm (fun hc => hne hc.1.symm))⟩

/-! ## Keys and entries -/

/-- data in line with a dictionary whose keys name their entries -/
structure Sound (dict : Dict) (e : Env D) : Prop where
  cons : Consistent e.s
  isDict : e.s.dict = dict
  keys : KeysMatch dict

theorem sound_stable (dv : Dev D) (dict : Dict) : Stable dv (Sound (D := D) dict) where
  one k e e' h h' := ⟨(cons_stable dv).one k e e' h.cons h', (one_kept h').dict.trans h.isDict, h.keys⟩
  map r w e e' h hw hr h' := ⟨(cons_stable dv).map r w e e' h.cons hw hr h', (mapped_kept h').dict.trans h.isDict, h.keys⟩
  new n e h := ⟨h.cons, h.isDict, h.keys⟩
  clean n e h := ⟨h.cons, h.isDict, h.keys⟩

theorem sound_entry {dict : Dict} (hk : KeysMatch dict) {i : BitVec 16} {s : BitVec 8} {en : Entry} (h : dict.get (Key.ofSub i s) = some en) :
    en.index = i ∧ en.subIndex = s := by
  obtain ⟨h1, h2⟩ := hk _ _ h
  rw [Key.ofSub_index] at h1
  have h2 := h2 (Key.ofSub_hasSub i s)
  rw [Key.ofSub_sub] at h2
  exact ⟨h1.symm, h2.symm⟩

/-- the accesses of an operation on one sub-object go to that sub-object -/
theorem one_log {dv : Dev D} {dict : Dict} {i : BitVec 16} {s : BitVec 8} {e e' : Env D} (hs : Sound dict e) (h : One dv (Key.ofSub i s) e e') :
    ∃ m, e'.c.log = e.c.log ++ m ∧ Only i s m := by
  cases h with
  | none h => subst h; exact ⟨[], by simp, fun j t v hv => by simp at hv⟩
  | change d d' hd hsm c' hc he =>
    subst he
    obtain ⟨m, h1, h2, -⟩ := calls_log hc
    have hen : e.s.dict.get (Key.ofSub i s) = some d.entry := by
      rcases hd with hd | hd
      · exact hs.cons _ _ hd
      · exact hd.2.1
    rw [hs.isDict] at hen
    obtain ⟨h3, h4⟩ := sound_entry hs.keys hen
    rw [h3, h4] at h2
    exact ⟨m, h1, h2⟩

/-- mapping an object writes nothing to the device -/
theorem mapped_log {dv : Dev D} {r : Option Nat} {w : Nat} {e e' : Env D} (h : Mapped dv r w e e') :
    ∃ m, e'.c.log = e.c.log ++ m ∧ ∀ i s, NoWrite i s m := by
  cases h with
  | none h => subst h; exact ⟨[], by simp, fun i s v hv => by simp at hv⟩
  | change k d d' hd hen hty hrd hwr hpd c' hc he =>
    subst he
    obtain ⟨m, h1, -, h3⟩ := calls_log hc
    exact ⟨m, h1, h3 (by simp)⟩

/-- in stage -/
def At (dict : Dict) (L0 : List Acc) (com map : BitVec 16) (off zero : Prop) (e : Env D) : Prop :=
  Sound dict e ∧ Grown L0 (Stage com map off zero) e

section
variable {dv : Dev D} {dict : Dict} {L0 : List Acc} {com map : BitVec 16} (hne : com ≠ map)
include hne

theorem at_weaken {o z o' z' : Prop} {e : Env D} (h : At dict L0 com map o z e) (ho : o' → o) (hz : z' → z) : At dict L0 com map o' z' e := by
  obtain ⟨h1, new, h2, h3⟩ := h
  exact ⟨h1, new, h2, h3.weaken ho hz⟩

theorem at_one {o z o' z' : Prop} {i : BitVec 16} {s : BitVec 8} {e e' : Env D} (h : At dict L0 com map o z e) (h1 : One dv (Key.ofSub i s) e e')
    (hst : ∀ new m, Stage com map o z new → Only i s m → Stage com map o' z' (new ++ m)) : At dict L0 com map o' z' e' := by
  obtain ⟨hs, new, h2, h3⟩ := h
  obtain ⟨m, h4, h5⟩ := one_log hs h1
  exact ⟨(sound_stable dv dict).one _ _ _ hs h1, new ++ m, by rw [h4, h2, List.append_assoc], hst new m h3 h5⟩

theorem at_other {o z : Prop} {i : BitVec 16} {s : BitVec 8} {e e' : Env D} (hi : i ≠ map) (hc : ¬ (i = com ∧ s = 1))
    (h : At dict L0 com map o z e) (h1 : One dv (Key.ofSub i s) e e') : At dict L0 com map o z e' := by
  refine at_one hne h h1 fun new m h3 h5 => ?_
  exact stage_other h3 (only_noWrite h5 (fun hx => hc ⟨hx.1.symm, hx.2.symm⟩)) (fun t => only_noWrite h5 (fun hx => hi hx.1.symm))

theorem at_entry {s : BitVec 8} {e e' : Env D} (hs : s ≠ 0) (h : At dict L0 com map True True e) (h1 : One dv (Key.ofSub map s) e e') :
    At dict L0 com map True True e' :=
  at_one hne h h1 fun _ _ h3 h5 => stage_entry hne hs h3 h5

theorem at_count {z : Prop} {e e' : Env D} (h : At dict L0 com map True z e) (h1 : One dv (Key.ofSub map 0) e e') :
    At dict L0 com map True False e' :=
  at_one hne h h1 fun _ _ h3 h5 => stage_count hne h3 h5

theorem at_cob {o z : Prop} {e e' : Env D} (h : At dict L0 com map o z e) (h1 : One dv (Key.ofSub com 1) e e') :
    At dict L0 com map False z e' :=
  at_one hne h h1 fun _ _ h3 h5 => stage_cob hne h3 h5

theorem at_silent {o z : Prop} {e e' : Env D} (h : At dict L0 com map o z e) (hs : Sound dict e') {m : List Acc} (h4 : e'.c.log = e.c.log ++ m)
    (h5 : ∀ i s, NoWrite i s m) : At dict L0 com map o z e' := by
  obtain ⟨-, new, h2, h3⟩ := h
  exact ⟨hs, new ++ m, by rw [h4, h2, List.append_assoc], stage_other h3 (h5 _ _) (h5 _)⟩

theorem keep_at_open {o z : Prop} (mem : Mem) (k : Key) (ty : Ty) : Keep (At dict L0 com map o z) (openEntry mem k ty : Act D Unit) := by
  intro e h
  refine at_silent hne h (keep_open (sound_stable ⟨fun _ _ d => (d, [], none), fun _ _ d => (d, none)⟩ dict).toStableOne mem k ty e h.1) (m := []) ?_ (fun i s v hv => by simp at hv)
  simp [openEntry]

theorem keep_at_get {o z : Prop} (k : Key) (cached : Bool) : Keep (At dict L0 com map o z) (getEntry dv k cached) := by
  intro e h
  have hs := keep_get (sound_stable dv dict).toStableOne k cached e h.1
  revert hs
  unfold getEntry
  cases hd : e.s.data k with
  | none => intro _; exact h
  | some d =>
    intro hs
    obtain ⟨m, h1, -, h3⟩ := calls_log (get_calls (pdoBus dv) d e.c cached (.pdo 0)).2
    exact at_silent hne h hs h1 (h3 (by simp))

theorem keep_at_mapOne {o z : Prop} (mem : Mem) (p : PdoMap) (n : Nat) (read write : Bool) :
    Keep (At dict L0 com map o z) (mapOne dv mem p n read write) := by
  intro e h
  unfold mapOne
  split
  · exact h
  · split
    · have hm := mapEntry_mapped dv mem p.index p.subIndex (if read then some n else none) n e
      obtain ⟨m, h4, h5⟩ := mapped_log hm
      have hs : Sound dict (mapEntry dv mem p.index p.subIndex (if read then some n else none) (some n) e).1 := by
        refine ⟨?_, (mapped_kept hm).dict.trans h.1.isDict, h.1.keys⟩
        cases hm with
        | none h' => rw [h']; exact h.1.cons
        | change k d d' hd hen hty hrd hwr hpd c' hc he =>
          rw [he]
          refine put_consistent h.1.cons ?_
          rw [hen]
          rcases hd with hd | hd
          · exact h.1.cons k d hd
          · exact hd.2
      have hat := at_silent hne h hs h4 h5
      rw [bind_run]
      revert hat
      generalize mapEntry dv mem p.index p.subIndex (if read then some n else none) (some n) e = r
      obtain ⟨e', ou⟩ := r
      cases ou <;> exact id
    · exact h

theorem keep_at_new {o z : Prop} (n : Nat) : Keep (At dict L0 com map o z) (newBuf n : Act D Nat) := fun _ h => ⟨⟨h.1.cons, h.1.isDict, h.1.keys⟩, h.2⟩
theorem keep_at_clean {o z : Prop} (n : Nat) : Keep (At dict L0 com map o z) (cleanBuf n : Act D Unit) := fun _ h => ⟨⟨h.1.cons, h.1.isDict, h.1.keys⟩, h.2⟩

theorem keep_at_mapLoop {o z : Prop} (mem : Mem) (read write : Bool) (subs : List Nat) (hsub : ∀ s ∈ subs, BitVec.ofNat 8 s ≠ 0)
    (hoz : ∀ s ∈ subs, hasInit dict map s = true → o ∧ z) :
    ∀ dlc bufs, Keep (At dict L0 com map o z) (mapLoop dv mem map read write subs dlc bufs) := by
  induction subs with
  | nil => intro dlc bufs; exact keep_pure _
  | cons s ss ih =>
    intro dlc bufs
    have ih := ih (fun t ht => hsub t (List.mem_cons_of_mem _ ht)) (fun t ht => hoz t (List.mem_cons_of_mem _ ht))
    unfold mapLoop
    refine keep_bind (keep_at_open hne _ _ _) fun _ => ?_
    intro e h
    rw [bind_run]
    unfold dictAt
    cases hg : e.s.dict.get (Key.ofSub map (BitVec.ofNat 8 s)) with
    | none => exact h
    | some x =>
      dsimp only
      refine keep_bind (I := At dict L0 com map o z) ?_ (fun _ => keep_bind (keep_at_get hne _ _) fun v => keep_bind (keep_at_new hne _) fun n =>
        keep_bind (keep_at_mapOne hne _ _ _ _ _) fun _ => keep_bind (keep_at_clean hne _) fun _ => ih _ _) e h
      intro e1 h1
      unfold setConfigured
      cases hx : x.initVal with
      | val p =>
        dsimp only
        have hi : hasInit dict map s = true := by
          unfold hasInit sub
          rw [← h.1.isDict, hg]
          dsimp only
          rw [hx]; rfl
        obtain ⟨ho, hz⟩ := hoz s List.mem_cons_self hi
        refine keep_bind (I := At dict L0 com map o z) (keep_lift _) (fun v => ?_) e1 h1
        intro e2 h2
        exact at_weaken hne (at_entry hne (hsub s List.mem_cons_self) (at_weaken hne h2 (fun _ => ho) (fun _ => hz)) (setEntry_one dv _ _ e2)) (fun _ => trivial) (fun _ => trivial)
      | empty t => exact h1
      | none => exact h1

theorem keep_at_comLoop {o z : Prop} (mem : Mem) (subs : List Nat) (hsub : ∀ s ∈ subs, s < 256) : Keep (At dict L0 com map o z) (comLoop dv mem com subs) := by
  induction subs with
  | nil => exact keep_pure _
  | cons s ss ih =>
    have ih := ih (fun t ht => hsub t (List.mem_cons_of_mem _ ht))
    intro e he
    unfold comLoop
    split
    · exact ih e he
    · rename_i hs
      have h := at_other hne hne (by
        intro hc
        have := congrArg BitVec.toNat hc.2
        have h256 := hsub s List.mem_cons_self
        rw [BitVec.toNat_ofNat] at this
        apply hs
        left
        have h1 : (1#8).toNat = 1 := rfl
        have : s % 2 ^ 8 = 1 := this
        omega) he (initEntry_one dv mem (sub com s) e)
      cases hq : initEntry dv mem (sub com s) e with
      | mk e' ou =>
        rw [hq] at h
        cases ou with
        | ok _ => exact ih e' h
        | ub => exact h
        | throws x => cases x <;> first | exact ih e' h | exact h

theorem keep_at_setCom {o z : Prop} (mem : Mem) (ch : Bool) : Keep (At dict L0 com map o z) (setCom dv mem com ch) := by
  unfold setCom
  refine keep_ite (fun _ => ?_) (fun _ => keep_pure _)
  refine keep_bind (keep_dictAt _ _) fun x => keep_bind (keep_lift _) fun v => keep_ite (fun _ => keep_lift _) (fun _ => keep_at_comLoop hne mem _ ?_)
  intro s hs
  rw [List.mem_range'] at hs
  obtain ⟨i, h1, h2⟩ := hs
  have : v.toNat < 256 := v.isLt
  omega

end

/-! ## A write that ends normally -/

theorem word32_bytes32 (w : BitVec 32) (rest : List Byte) : word32 ((bytes32 w ++ rest).take 4) = w := by
  have hl : (bytes32 w).length = 4 := by simp [bytes32, leBytes]
  have ht : (bytes32 w ++ rest).take 4 = bytes32 w := by rw [← hl, List.take_left]
  rw [ht]
  apply BitVec.eq_of_toNat_eq
  unfold word32 bytes32 leBytes
  have hw := w.isLt
  rw [show List.range 4 = [0, 1, 2, 3] from rfl]
  simp only [List.map_cons, List.map_nil, leValue, BitVec.toNat_ofNat, BitVec.toNat_setWidth, BitVec.toNat_ushiftRight, Nat.shiftRight_eq_div_pow]
  omega

theorem off_word (w : BitVec 32) (rest : List Byte) : (word32 ((bytes32 (w ||| 0x80000000#32) ++ rest).take 4)).msb = true := by
  rw [word32_bytes32, BitVec.msb_or, show (0x80000000#32).msb = true from rfl, Bool.or_true]

theorem direct_stable (dv : Dev D) (k : Key) : StableOne dv (Direct (D := D) k) where
  one k' e e' h h' := by
    cases h' with
    | none h' => subst h'; exact h
    | change d d' hd hs c' hc he =>
      subst he
      intro d2 h2
      by_cases hk : k = k'
      · subst hk
        rw [put_same] at h2
        cases h2
        rw [hs.wr]
        rcases hd with hd | hd
        · exact h d hd
        · exact hd.2.2.2
      · rw [put_other _ _ hk] at h2
        exact h d2 h2

theorem setEntry_ok {dv : Dev D} {k : Key} {v : List Byte} {e e' : Env D} {u : Unit} {d : Data} (h : setEntry dv k v e = (e', .ok u))
    (hd : e.s.data k = some d) (hw : d.entry.writable = true) :
    (∃ rest, e'.c.log = e.c.log ++ [.write d.wr d.entry.index d.entry.subIndex (v ++ rest)]) ∧ ∃ d', e'.s.data k = some d' ∧ Same d d' := by
  unfold setEntry at h
  rw [hd] at h
  dsimp only at h
  injection h with h1 h2
  obtain ⟨a, b⟩ := set_calls (pdoBus dv) d e.c v
  refine ⟨?_, ?_⟩
  · rcases b with ⟨-, hub⟩ | ⟨rest, hr⟩
    · rw [hub hw] at h2; cases h2
    · exact ⟨rest, by rw [← h1]; dsimp only; rw [hr]⟩
  · rw [← h1]
    exact ⟨_, put_same _ _ _, a⟩

section
variable {dv : Dev D} {dict : Dict} {L0 : List Acc} {com map : BitVec 16} (hne : com ≠ map)
include hne

/-- the identifier is written and the write succeeds -/
theorem at_cob_ok {o z : Prop} {v : List Byte} {e e' : Env D} {u : Unit} {en : Entry} (h : At dict L0 com map o z e) (hg : dict.get (sub com 1) = some en)
    (hw : en.writable = true) (hdir : Direct (sub com 1) e) (hs : setEntry dv (sub com 1) v e = (e', .ok u))
    (hv : ∀ rest, (word32 ((v ++ rest).take 4)).msb = true) : At dict L0 com map True z e' := by
  have h1 := at_cob hne h (by have := setEntry_one dv (sub com 1) v e; rw [hs] at this; exact this)
  cases hd : e.s.data (sub com 1) with
  | none => unfold setEntry at hs; rw [hd] at hs; cases hs
  | some d =>
    have hen := h.1.cons _ _ hd
    rw [h.1.isDict, hg] at hen
    have hen : en = d.entry := by injection hen
    obtain ⟨⟨rest, hl⟩, -⟩ := setEntry_ok hs hd (by rw [← hen]; exact hw)
    obtain ⟨hi, hsi⟩ := sound_entry h.1.keys hg
    rw [hdir d hd, ← hen, hi, hsi] at hl
    obtain ⟨hsound, new, h2, h3⟩ := h
    refine ⟨h1.1, new ++ [.write .dev com 1 (v ++ rest)], by rw [hl, h2, List.append_assoc]; rfl, ?_⟩
    have hm : Only com 1 [Acc.write .dev com 1 (v ++ rest)] := fun j t w hw => by simp at hw; exact ⟨hw.1, hw.2.1⟩
    have := stage_cob hne h3 hm
    exact ⟨this.disc, fun _ => ⟨v ++ rest, lastWrite_snoc _ _ _ _, hv rest⟩, this.zero⟩

/-- the count is set to 0 and the write succeeds -/
theorem at_zero_ok {z : Prop} {e e' : Env D} {u : Unit} {en : Entry} (h : At dict L0 com map True z e) (hg : dict.get (sub map 0) = some en)
    (hw : en.writable = true) (hdir : Direct (sub map 0) e) (hs : setEntry dv (sub map 0) [0#8] e = (e', .ok u)) : At dict L0 com map True True e' := by
  have h1 := at_count hne h (by have := setEntry_one dv (sub map 0) [0#8] e; rw [hs] at this; exact this)
  cases hd : e.s.data (sub map 0) with
  | none => unfold setEntry at hs; rw [hd] at hs; cases hs
  | some d =>
    have hen := h.1.cons _ _ hd
    rw [h.1.isDict, hg] at hen
    have hen : en = d.entry := by injection hen
    obtain ⟨⟨rest, hl⟩, -⟩ := setEntry_ok hs hd (by rw [← hen]; exact hw)
    obtain ⟨hi, hsi⟩ := sound_entry h.1.keys hg
    rw [hdir d hd, ← hen, hi, hsi] at hl
    obtain ⟨hsound, new, h2, h3⟩ := h
    refine ⟨h1.1, new ++ [.write .dev map 0 ([0#8] ++ rest)], by rw [hl, h2, List.append_assoc]; rfl, ?_⟩
    have hm : Only map 0 [Acc.write .dev map 0 ([0#8] ++ rest)] := fun j t w hw => by simp at hw; exact ⟨hw.1, hw.2.1⟩
    have := stage_count hne h3 hm
    exact ⟨this.disc, this.off, fun _ => ⟨[0#8] ++ rest, lastWrite_snoc _ _ _ _, rfl⟩⟩

theorem disable_post (mem : Mem) {o z : Prop} (ch : Bool) {e : Env D} {en : Entry} (h : At dict L0 com map o z e) (hg : dict.get (sub com 1) = some en)
    (hw : en.writable = true) (hdir : Direct (sub com 1) e) :
    Post (fun _ => At dict L0 com map (ch = true) False) (At dict L0 com map False False) (disable dv mem com ch e) := by
  have weak : ∀ {o z : Prop} {e : Env D}, At dict L0 com map o z e → At dict L0 com map False False e :=
    fun h => at_weaken hne h (fun x => x.elim) (fun x => x.elim)
  have hz : ∀ {e : Env D}, At dict L0 com map False z e → At dict L0 com map False False e := fun h => weak h
  unfold disable
  refine post_bind (Q := fun _ e' => At dict L0 com map o z e' ∧ Direct (sub com 1) e') ?_ fun _ e1 h1 => ?_
  · have a := keep_at_open hne mem (sub com 1) (.int .u32) e h
    have b := keep_open (direct_stable dv (sub com 1)) mem (sub com 1) (.int .u32) e hdir
    revert a b
    generalize openEntry mem (sub com 1) (.int .u32) e = r
    obtain ⟨e', ou⟩ := r
    cases ou <;> intro a b
    · exact ⟨a, b⟩
    · exact weak a
    · exact weak a
  · refine post_bind (Q := fun x e' => e' = e1 ∧ ∃ d, e1.s.data (sub com 1) = some d ∧ d.entry = x) ?_ fun x e2 h2 => ?_
    · unfold descOf
      cases hd : e1.s.data (sub com 1) with
      | none => exact weak h1.1
      | some d => exact ⟨rfl, d, rfl, rfl⟩
    · obtain ⟨rfl, d, hd, hx⟩ := h2
      have hen := h1.1.1.cons _ _ hd
      rw [h1.1.1.isDict, hg] at hen
      have hen : en = x := by rw [← hx]; injection hen
      by_cases hc : ch = true
      · rw [if_pos (by rw [hc, ← hen, hw]; rfl)]
        refine post_bind (Q := fun _ e' => At dict L0 com map o z e' ∧ Direct (sub com 1) e') ?_ fun v e3 h3 => ?_
        · have a := keep_at_get (dv := dv) hne (sub com 1) false e2 h1.1
          have b := keep_get (direct_stable dv (sub com 1)) (sub com 1) false e2 h1.2
          revert a b
          generalize getEntry dv (sub com 1) false e2 = r
          obtain ⟨e', ou⟩ := r
          cases ou <;> intro a b
          · exact ⟨a, b⟩
          · exact weak a
          · exact weak a
        · cases hq : setEntry dv (sub com 1) (bytes32 (word32 v ||| 0x80000000#32)) e3 with
          | mk e' ou =>
            cases ou with
            | ok u => exact at_weaken hne (at_cob_ok hne h3.1 hg hw h3.2 hq (fun rest => off_word _ rest)) (fun _ => trivial) (fun x => x.elim)
            | throws x => exact weak (at_cob hne h3.1 (by have := setEntry_one dv (sub com 1) (bytes32 (word32 v ||| 0x80000000#32)) e3; rw [hq] at this; exact this))
            | ub => exact weak (at_cob hne h3.1 (by have := setEntry_one dv (sub com 1) (bytes32 (word32 v ||| 0x80000000#32)) e3; rw [hq] at this; exact this))
      · rw [if_neg (by simp [hc])]
        exact at_weaken hne h1.1 (fun x => (hc x).elim) (fun x => x.elim)

theorem setMapping_post (mem : Mem) (read write : Bool) (num : Nat) (mapCh : Bool) {ch : Prop} {e : Env D} {en : Entry} (h : At dict L0 com map ch False e)
    (hg : dict.get (sub map 0) = some en) (hw : en.writable = true) (hdir : Direct (sub map 0) e) (hch : mapCh = true → ch)
    (hinit : num ≤ 64 → mapCh = (List.range' 1 num).any fun s => hasInit dict map s) :
    Post (fun _ => At dict L0 com map ch False) (At dict L0 com map False False) (setMapping dv mem map read write num mapCh e) := by
  have weak : ∀ {o z : Prop} {e : Env D}, At dict L0 com map o z e → At dict L0 com map False False e :=
    fun h => at_weaken hne h (fun x => x.elim) (fun x => x.elim)
  unfold setMapping
  by_cases hn : 0 < num ∧ num ≤ 0x40
  · rw [if_pos hn]
    refine post_bind (Q := fun _ => At dict L0 com map ch (mapCh = true)) ?_ fun _ e1 h1 => ?_
    · unfold onlyIf
      by_cases hm : mapCh = true
      · rw [if_pos hm]
        have h' : At dict L0 com map True False e := at_weaken hne h (fun _ => hch hm) id
        cases hq : setEntry dv (sub map 0) [0#8] e with
        | mk e' ou =>
          cases ou with
          | ok u => exact at_weaken hne (at_zero_ok hne h' hg hw hdir hq) (fun _ => trivial) (fun _ => trivial)
          | throws x => exact weak (at_count hne h' (by have := setEntry_one dv (sub map 0) [0#8] e; rw [hq] at this; exact this))
          | ub => exact weak (at_count hne h' (by have := setEntry_one dv (sub map 0) [0#8] e; rw [hq] at this; exact this))
      · rw [if_neg hm]
        exact at_weaken hne h id (fun x => (hm x).elim)
    · have hk := keep_at_mapLoop (dv := dv) (dict := dict) (L0 := L0) (o := ch) (z := mapCh = true) hne mem read write (List.range' 1 num) (by
        intro s hs
        rw [List.mem_range'] at hs
        obtain ⟨i, h1, h2⟩ := hs
        intro hc
        have := congrArg BitVec.toNat hc
        rw [BitVec.toNat_ofNat] at this
        have : s % 2 ^ 8 = 0 := this
        omega) (by
        intro s hs hi
        have : mapCh = true := by rw [hinit hn.2, List.any_eq_true]; exact ⟨s, hs, hi⟩
        exact ⟨hch this, this⟩) 0 [] e1 h1
      revert hk
      generalize mapLoop dv mem map read write (List.range' 1 num) 0 [] e1 = r
      obtain ⟨e', ou⟩ := r
      cases ou <;> intro hk
      · exact at_weaken hne hk id (fun x => x.elim)
      · exact weak hk
      · exact weak hk
  · rw [if_neg hn]
    exact h

theorem enable_at (mem : Mem) (num : Nat) (mapCh comCh : Bool) {ch : Prop} {e : Env D} (h : At dict L0 com map ch False e) (hch : mapCh = true → ch) :
    At dict L0 com map False False (enable dv mem com map num mapCh comCh e).1 := by
  have weak : ∀ {o z : Prop} {e : Env D}, At dict L0 com map o z e → At dict L0 com map False False e :=
    fun h => at_weaken hne h (fun x => x.elim) (fun x => x.elim)
  unfold enable
  have h1 : At dict L0 com map False False (onlyIf mapCh (setEntry dv (sub map 0) [BitVec.ofNat 8 num]) e).1 := by
    unfold onlyIf
    by_cases hm : mapCh = true
    · rw [if_pos hm]
      exact weak (at_count hne (at_weaken hne h (fun _ => hch hm) id) (setEntry_one dv (sub map 0) _ e))
    · rw [if_neg hm]; exact weak h
  have hcob : ∀ v, Keep (At dict L0 com map False False) (setEntry dv (sub com 1) v) :=
    fun v e' h' => at_cob hne h' (setEntry_one dv (sub com 1) v e')
  have hini : Keep (At dict L0 com map False False) (initEntry dv mem (sub com 1)) :=
    fun e' h' => at_cob hne h' (initEntry_one dv mem (sub com 1) e')
  rw [bind_run]
  revert h1
  generalize onlyIf mapCh (setEntry dv (sub map 0) [BitVec.ofNat 8 num]) e = r
  obtain ⟨e1, ou⟩ := r
  cases ou with
  | throws x => exact id
  | ub => exact id
  | ok u =>
    intro h1
    exact keep_bind (keep_descOf _) (fun x => keep_ite (fun _ => keep_bind hini fun _ => keep_bind (keep_dictAt _ _) fun y =>
      keep_bind (keep_read _) fun v => hcob _) (fun _ => keep_pure _)) e1 h1

/-- the whole set-up of one PDO, whatever its outcome -/
theorem parse_at (mem : Mem) (read write : Bool) {e : Env D} {c m : Entry} (hs : Sound dict e) (hL : e.c.log = L0)
    (hc : dict.get (sub com 1) = some c) (hcw : c.writable = true) (hcd : Direct (sub com 1) e)
    (hm : dict.get (sub map 0) = some m) (hmw : m.writable = true) (hmd : Direct (sub map 0) e) :
    At dict L0 com map False False (parseAndSet dv mem com map read write e).1 := by
  have weak : ∀ {o z : Prop} {e : Env D}, At dict L0 com map o z e → At dict L0 com map False False e :=
    fun h => at_weaken hne h (fun x => x.elim) (fun x => x.elim)
  have h0 : At dict L0 com map False False e := ⟨hs, [], by rw [hL]; simp, disc_nil _ _, fun x => x.elim, fun x => x.elim⟩
  refine (post_all (I := At dict L0 com map False False)).1 ?_
  unfold parseAndSet
  refine post_bind (Q := fun _ e' => At dict L0 com map False False e' ∧ Direct (sub com 1) e' ∧ Direct (sub map 0) e') ?_ fun _ e1 h1 => ?_
  · have a := keep_at_open hne mem (sub map 0) (.int .u8) e h0
    have b := keep_open (direct_stable dv (sub com 1)) mem (sub map 0) (.int .u8) e hcd
    have c := keep_open (direct_stable dv (sub map 0)) mem (sub map 0) (.int .u8) e hmd
    revert a b c
    generalize openEntry mem (sub map 0) (.int .u8) e = r
    obtain ⟨e', ou⟩ := r
    cases ou <;> intro a b c
    · exact ⟨a, b, c⟩
    · exact weak a
    · exact weak a
  · refine post_bind (Q := fun _ e' => e' = e1) ?_ fun x e2 h2 => ?_
    · unfold descOf
      cases hd : e1.s.data (sub map 0) with
      | none => exact h1.1
      | some d => rfl
    · subst h2
      dsimp only
      refine post_bind (Q := fun mc e' => e' = e2 ∧ (mapNum x ≤ 64 → mc = (List.range' 1 (mapNum x)).any fun s => hasInit dict map s)) ?_ fun mc e3 h3 => ?_
      · unfold mapChanged
        by_cases hn : mapNum x ≤ 0x40
        · rw [if_pos hn]
          exact ⟨rfl, fun _ => by rw [h1.1.1.isDict]⟩
        · rw [if_neg hn]
          cases hq : e2.s.dict.get (sub map 0) with
          | none => exact h1.1
          | some y => exact ⟨rfl, fun hx => (hn hx).elim⟩
      · obtain ⟨rfl, hmc⟩ := h3
        refine post_bind (Q := fun di e' => e' = e3) rfl fun di e4 h4 => ?_
        subst h4
        refine post_bind (Q := fun _ e' => At dict L0 com map ((mc || comChanged di map) = true) False e' ∧ Direct (sub map 0) e') ?_ fun _ e5 h5 => ?_
        · have a := disable_post (dv := dv) hne mem (mc || comChanged di map) h1.1 hc hcw h1.2.1
          have b := keep_disable (direct_stable dv (sub map 0)) mem com (mc || comChanged di map) e4 h1.2.2
          revert a b
          generalize disable dv mem com (mc || comChanged di map) e4 = r
          obtain ⟨e', ou⟩ := r
          cases ou <;> intro a b
          · exact ⟨a, b⟩
          · exact a
          · exact a
        · refine post_bind (setMapping_post (dv := dv) hne mem read write (mapNum x) mc h5.1 hm hmw h5.2 (fun hx => by rw [hx]; rfl) hmc) fun r e6 h6 => ?_
          refine post_bind (Q := fun _ => At dict L0 com map ((mc || comChanged di map) = true) False) ?_ fun _ e7 h7 => ?_
          · have a := keep_at_setCom (dv := dv) hne mem (comChanged di map) e6 h6
            revert a
            generalize setCom dv mem com (comChanged di map) e6 = r
            obtain ⟨e', ou⟩ := r
            cases ou <;> intro a
            · exact a
            · exact weak a
            · exact weak a
          · refine post_bind (Q := fun _ => At dict L0 com map False False) ?_ fun _ e8 h8 => h8
            rw [post_all]
            exact enable_at hne mem (mapNum x) mc (comChanged di map) h7 (fun hx => by rw [hx]; rfl)

/-- what a set-up that ends normally leaves on the device -/
theorem enable_ok (mem : Mem) (num : Nat) (mapCh comCh : Bool) {e e' : Env D} {u : Unit} {c m : Entry} (hs : Sound dict e)
    (h : enable dv mem com map num mapCh comCh e = (e', .ok u))
    (hc : dict.get (sub com 1) = some c) (hcw : c.writable = true) (hm : dict.get (sub map 0) = some m) (hmw : m.writable = true)
    (hcd : Direct (sub com 1) e') (hmd : Direct (sub map 0) e') :
    ((comCh || mapCh) = true → ∃ v rest, applyOffset .u32 c.value e.s.nodeId = .ok v ∧ lastWrite com 1 e'.c.log = some (bytes32 v ++ rest)) ∧
    (mapCh = true → ∃ rest, lastWrite map 0 e'.c.log = some (BitVec.ofNat 8 num :: rest)) := by
  unfold enable at h
  bnd h with e1 u1 h1
  bnd h with e2 x h2
  obtain ⟨rfl, d, hd, hx⟩ := descOf_ok h2
  have k1 : Kept e e2 ∧ Sound dict e2 := by
    refine keep_ok (I := fun e' => Kept e e' ∧ Sound dict e') ?_ h1 ⟨.refl e, hs⟩
    refine keep_onlyIf _ ?_
    intro e3 h3
    exact ⟨keep_set (kept_stable dv e).toStableOne _ _ e3 h3.1, keep_set (sound_stable dv dict).toStableOne _ _ e3 h3.2⟩
  have hxc : x = c := by
    have := k1.2.cons _ _ hd
    rw [k1.2.isDict, hc] at this
    rw [← hx]; injection this with this; exact this.symm
  -- writes of the count
  have hcount : mapCh = true → (Direct (sub map 0) e2) → ∃ rest, lastWrite map 0 e2.c.log = some (BitVec.ofNat 8 num :: rest) := by
    intro hmc hdir
    unfold onlyIf at h1
    rw [if_pos hmc] at h1
    cases hd0 : e.s.data (sub map 0) with
    | none => unfold setEntry at h1; rw [hd0] at h1; cases h1
    | some d0 =>
      have hen := hs.cons _ _ hd0
      rw [hs.isDict, hm] at hen
      have hen : m = d0.entry := by injection hen
      obtain ⟨⟨rest, hl⟩, d', hd', hsame⟩ := setEntry_ok h1 hd0 (by rw [← hen]; exact hmw)
      obtain ⟨hi, hsi⟩ := sound_entry hs.keys hm
      have hwr := hdir d' hd'
      rw [hsame.wr] at hwr
      rw [hwr, ← hen, hi, hsi] at hl
      exact ⟨rest, by rw [hl]; exact lastWrite_snoc _ _ _ _⟩
  by_cases hch : (comCh || mapCh) = true
  · rw [if_pos (by rw [hch, hxc, hcw]; rfl)] at h
    bnd h with e3 u3 h3
    bnd h with e4 y h4
    bnd h with e5 v h5
    obtain ⟨rfl, hy⟩ := dictAt_ok h4
    have hs3 := keep_ok (keep_init (sound_stable dv dict).toStableOne _ _) h3 k1.2
    have hyc : y = c := by
      have : dict.get (sub com 1) = some y := by rw [← hs3.isDict]; exact hy
      rw [hc] at this
      injection this with this; exact this.symm
    have hn3 := (keep_ok (keep_init (kept_stable dv e).toStableOne _ _) h3 k1.1).node
    have h5' : e5 = e4 ∧ applyOffset .u32 y.value e4.s.nodeId = .ok v := by
      injection h5 with a b
      exact ⟨a.symm, b⟩
    obtain ⟨rfl, hv⟩ := h5'
    have o3 : ∃ m3, e5.c.log = e2.c.log ++ m3 ∧ Only com 1 m3 := by
      refine one_log k1.2 (dv := dv) ?_
      have := initEntry_one dv mem (sub com 1) e2
      rw [h3] at this
      exact this
    have o6 : ∃ m6, e'.c.log = e5.c.log ++ m6 ∧ Only com 1 m6 := by
      refine one_log hs3 (dv := dv) ?_
      have := setEntry_one dv (sub com 1) (bytes32 v) e5
      rw [h] at this
      exact this
    obtain ⟨m3, l3, w3⟩ := o3
    obtain ⟨m6, l6, w6⟩ := o6
    refine ⟨fun _ => ?_, fun hmc => ?_⟩
    · cases hd0 : e5.s.data (sub com 1) with
      | none => unfold setEntry at h; rw [hd0] at h; cases h
      | some d0 =>
        have hen := hs3.cons _ _ hd0
        rw [hs3.isDict, hc] at hen
        have hen : c = d0.entry := by injection hen
        obtain ⟨⟨rest, hl⟩, d', hd', hsame⟩ := setEntry_ok h hd0 (by rw [← hen]; exact hcw)
        obtain ⟨hi, hsi⟩ := sound_entry hs3.keys hc
        have hwr := hcd d' hd'
        rw [hsame.wr] at hwr
        rw [hwr, ← hen, hi, hsi] at hl
        rw [hyc, hn3] at hv
        exact ⟨v, rest, hv, by rw [hl]; exact lastWrite_snoc _ _ _ _⟩
    · have hdir : Direct (sub map 0) e2 := by
        intro d2 hd2
        have hk : sub map 0 ≠ sub com 1 := by
          intro hk
          have := congrArg Key.index hk
          rw [Key.ofSub_index, Key.ofSub_index] at this
          exact hne this.symm
        have f3 : e5.s.data (sub map 0) = e2.s.data (sub map 0) := by
          have := initEntry_one dv mem (sub com 1) e2
          rw [h3] at this
          cases this with
          | none hh => exact congrArg (fun e => e.s.data (sub map 0)) hh
          | change a b _ _ _ _ hh => 
            have : e5.s.data (sub map 0) = (e2.s.put (sub com 1) b).data (sub map 0) := congrArg (fun e => e.s.data (sub map 0)) hh
            rw [this, put_other _ _ hk]
        have f6 : e'.s.data (sub map 0) = e5.s.data (sub map 0) := by
          have := setEntry_one dv (sub com 1) (bytes32 v) e5
          rw [h] at this
          cases this with
          | none hh => exact congrArg (fun e => e.s.data (sub map 0)) hh
          | change a b _ _ _ _ hh =>
            have : e'.s.data (sub map 0) = (e5.s.put (sub com 1) b).data (sub map 0) := congrArg (fun e => e.s.data (sub map 0)) hh
            rw [this, put_other _ _ hk]
        exact hmd d2 (by rw [f6, f3]; exact hd2)
      obtain ⟨rest, hr⟩ := hcount hmc hdir
      refine ⟨rest, ?_⟩
      rw [l6, lastWrite_skip _ (only_noWrite w6 (fun hx => hne hx.1.symm)), l3, lastWrite_skip _ (only_noWrite w3 (fun hx => hne hx.1.symm))]
      exact hr
  · rw [if_neg (by simp [hch])] at h
    obtain ⟨rfl, -⟩ := pure_ok h
    refine ⟨fun hx => (hch hx).elim, fun hmc => (hch (by rw [hmc, Bool.or_true])).elim⟩

end

end Verif.PdoInit
