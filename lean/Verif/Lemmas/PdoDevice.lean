import Verif.Lemmas.PdoReach
import Verif.Spec.PdoDevice

/-!
# Lemmas: set-up of a PDO on a device that insists on the procedure of CiA 301
-/

set_option linter.unusedSimpArgs false

namespace Verif.PdoInit
open Verif Verif.OD Verif.Pdo Verif.Spec

theorem pair_facts {com map : BitVec 16} (h : IsPair com map) :
    isCom com = true ∧ isMap map = true ∧ isMap com = false ∧ isCom map = false ∧ map - 0x200#16 = com ∧ com ≠ map := by
  obtain ⟨i, hi, h | h⟩ := h
  all_goals
    simp only [sends, receives, Prod.mk.injEq] at h
    obtain ⟨rfl, rfl⟩ := h
    have e1 : i % 65536 = i := Nat.mod_eq_of_lt (by omega)
    refine ⟨?_, ?_, ?_, ?_, ?_, ?_⟩
    · simp [isCom, BitVec.toNat_add, e1]; omega
    · simp [isMap, BitVec.toNat_add, e1]; omega
    · simp [isMap, BitVec.toNat_add, e1]; omega
    · simp [isCom, BitVec.toNat_add, e1]; omega
    · apply BitVec.eq_of_toNat_eq; simp [BitVec.toNat_sub, BitVec.toNat_add, e1]; omega
    · intro hc
      have := congrArg BitVec.toNat hc
      simp [BitVec.toNat_add, e1] at this
      omega

section
variable {nr nw : Entry → List Byte → Contents → Option Nat}

/-- calls for one object on the device: what allows all writes of it and survives them holds on -/
theorem calls_strict {en : Entry} {rd wr : Dlg} {c c' : Ctx (PW Strict)} (P : Contents → Prop)
    (hP : ∀ m b, P m → m.forbids en.index en.subIndex b = false ∧ P (m.write en.index en.subIndex b))
    (h : Calls (pdoBus (strictDev nr nw)) en rd wr c c') (h0 : P c.w.dev.store ∧ c.w.dev.broken = false) :
    P c'.w.dev.store ∧ c'.w.dev.broken = false := by
  induction h with
  | refl => exact h0
  | read b _ ih =>
    refine (?_ : ∀ w : PW Strict, (P w.dev.store ∧ w.dev.broken = false) → P ((pdoBus (strictDev nr nw)).read rd en b w).1.dev.store ∧ ((pdoBus (strictDev nr nw)).read rd en b w).1.dev.broken = false) _ ih
    intro w hw
    simp only [pdoBus, busRead]
    cases rd with
    | dev =>
      simp only [strictDev]
      split
      · exact hw
      · split <;> exact hw
    | pdo n =>
      dsimp only
      split
      · exact hw
      · split <;> exact hw
  | write b _ ih =>
    refine (?_ : ∀ w : PW Strict, (P w.dev.store ∧ w.dev.broken = false) → P ((pdoBus (strictDev nr nw)).write wr en b w).1.dev.store ∧ ((pdoBus (strictDev nr nw)).write wr en b w).1.dev.broken = false) _ ih
    intro w hw
    simp only [pdoBus, busWrite]
    cases wr with
    | dev =>
      simp only [strictDev]
      obtain ⟨h1, h2⟩ := hP _ b hw.1
      rw [h1]
      simp only [Bool.false_eq_true, if_false]
      split
      · exact hw
      · exact ⟨h2, hw.2⟩
    | pdo n =>
      dsimp only
      split
      · exact hw
      · split <;> exact hw

/-- calls that do not write to the device leave it alone -/
theorem calls_pdo {en : Entry} {rd wr : Dlg} {c c' : Ctx (PW Strict)} (h : Calls (pdoBus (strictDev nr nw)) en rd wr c c') (hw : wr ≠ .dev) :
    c'.w.dev = c.w.dev := by
  induction h with
  | refl => rfl
  | read b _ ih =>
    rw [← ih]
    refine (?_ : ∀ w : PW Strict, ((pdoBus (strictDev nr nw)).read rd en b w).1.dev = w.dev) _
    intro w
    simp only [pdoBus, busRead]
    cases rd with
    | dev =>
      simp only [strictDev]
      split
      · rfl
      · split <;> rfl
    | pdo n =>
      dsimp only
      split
      · rfl
      · split <;> rfl
  | write b _ ih =>
    rw [← ih]
    refine (?_ : ∀ w : PW Strict, ((pdoBus (strictDev nr nw)).write wr en b w).1.dev = w.dev) _
    intro w
    simp only [pdoBus, busWrite]
    cases wr with
    | dev => exact absurd rfl hw
    | pdo n =>
      dsimp only
      split
      · rfl
      · split <;> rfl

theorem mapped_dev {r : Option Nat} {w : Nat} {e e' : Env Strict} (h : Mapped (strictDev nr nw) r w e e') : e'.c.w.dev = e.c.w.dev := by
  cases h with
  | none h => rw [h]
  | change k d d' hd hen hty hrd hwr hpd c' hc he => rw [he]; exact calls_pdo hc (by simp)

/-- an operation on one object of the device -/
theorem one_strict {dict : Dict} {i : BitVec 16} {s : BitVec 8} {e e' : Env Strict} (P : Contents → Prop)
    (hP : ∀ m b, P m → m.forbids i s b = false ∧ P (m.write i s b)) (hs : Sound dict e) (h : One (strictDev nr nw) (Key.ofSub i s) e e')
    (h0 : P e.c.w.dev.store ∧ e.c.w.dev.broken = false) : P e'.c.w.dev.store ∧ e'.c.w.dev.broken = false := by
  cases h with
  | none h => subst h; exact h0
  | change d d' hd hsm c' hc he =>
    subst he
    have hen : e.s.dict.get (Key.ofSub i s) = some d.entry := by
      rcases hd with hd | hd
      · exact hs.cons _ _ hd
      · exact hd.2.1
    rw [hs.isDict] at hen
    obtain ⟨h3, h4⟩ := sound_entry hs.keys hen
    exact calls_strict P (by rw [h3, h4]; exact hP) hc h0

end

/-- in between: nothing forbidden was tried; whether the PDO is switched off; whether the count is 0 -/
structure Stg (dict : Dict) (com map : BitVec 16) (off zero : Prop) (e : Env Strict) : Prop where
  sound : Sound dict e
  fine : e.c.w.dev.broken = false
  off : off → e.c.w.dev.store.on com = false
  zero : zero → e.c.w.dev.store.unmapped map = true

theorem Stg.weaken {dict : Dict} {com map : BitVec 16} {o z o' z' : Prop} {e : Env Strict} (h : Stg dict com map o z e) (ho : o' → o) (hz : z' → z) :
    Stg dict com map o' z' e := ⟨h.sound, h.fine, fun x => h.off (ho x), fun x => h.zero (hz x)⟩

theorem on_write {m : Contents} {com i : BitVec 16} {s : BitVec 8} {b : List Byte} (h : ¬ (i = com ∧ s = 1)) : (m.write i s b).on com = m.on com := by
  unfold Contents.on Contents.cob Contents.write
  rw [if_neg (fun hc => h ⟨hc.1.symm, hc.2.symm⟩)]

theorem unmapped_write {m : Contents} {map i : BitVec 16} {s : BitVec 8} {b : List Byte} (h : ¬ (i = map ∧ s = 0)) : (m.write i s b).unmapped map = m.unmapped map := by
  unfold Contents.unmapped Contents.write
  rw [if_neg (fun hc => h ⟨hc.1.symm, hc.2.symm⟩)]

section
variable {nr nw : Entry → List Byte → Contents → Option Nat} {dict : Dict} {com map : BitVec 16} (hp : IsPair com map)
include hp

theorem stg_one {o z o' z' : Prop} {i : BitVec 16} {s : BitVec 8} {e e' : Env Strict} (h : Stg dict com map o z e)
    (h1 : One (strictDev nr nw) (Key.ofSub i s) e e') (ho : o' → o) (hz : z' → z)
    (hP : ∀ m b, (o' → m.on com = false) → (z' → m.unmapped map = true) → Contents.forbids m i s b = false ∧ (o' → (m.write i s b).on com = false) ∧ (z' → (m.write i s b).unmapped map = true)) :
    Stg dict com map o' z' e' := by
  obtain ⟨⟨a, b⟩, c⟩ := one_strict (fun m => (o' → m.on com = false) ∧ (z' → m.unmapped map = true)) (fun m b hm => hP m b hm.1 hm.2) h.sound h1
    ⟨⟨fun x => h.off (ho x), fun x => h.zero (hz x)⟩, h.fine⟩
  exact ⟨(sound_stable _ dict).one _ _ _ h.sound h1, c, a, b⟩

/-- a communication parameter other than the identifier -/
theorem stg_com {o z : Prop} {s : BitVec 8} {e e' : Env Strict} (hs : s ≠ 1) (h : Stg dict com map o z e) (h1 : One (strictDev nr nw) (Key.ofSub com s) e e') :
    Stg dict com map o z e' := by
  obtain ⟨f1, f2, f3, f4, f5, f6⟩ := pair_facts hp
  refine stg_one hp h h1 id id fun m b h2 h3 => ⟨?_, fun x => ?_, fun x => ?_⟩
  · unfold Contents.forbids
    rw [f3, beq_eq_false_iff_ne.2 hs]
    simp
  · rw [on_write (fun hc => hs hc.2)]; exact h2 x
  · rw [unmapped_write (fun hc => f6 hc.1)]; exact h3 x

/-- a mapping entry is written while everything is prepared -/
theorem stg_entry {s : BitVec 8} {e e' : Env Strict} (hs : s ≠ 0) (h : Stg dict com map True True e) (h1 : One (strictDev nr nw) (Key.ofSub map s) e e') :
    Stg dict com map True True e' := by
  obtain ⟨f1, f2, f3, f4, f5, f6⟩ := pair_facts hp
  refine stg_one hp h h1 id id fun m b h2 h3 => ⟨?_, fun x => ?_, fun x => ?_⟩
  · unfold Contents.forbids
    rw [f4, f5, h2 trivial, h3 trivial]
    simp
  · rw [on_write (fun hc => f6 hc.1.symm)]; exact h2 x
  · rw [unmapped_write (fun hc => hs hc.2)]; exact h3 x

/-- the number of entries is written while the PDO is off -/
theorem stg_count {z : Prop} {e e' : Env Strict} (h : Stg dict com map True z e) (h1 : One (strictDev nr nw) (Key.ofSub map 0) e e') :
    Stg dict com map True False e' := by
  obtain ⟨f1, f2, f3, f4, f5, f6⟩ := pair_facts hp
  refine stg_one hp h h1 id False.elim fun m b h2 h3 => ⟨?_, fun x => ?_, fun x => x.elim⟩
  · unfold Contents.forbids
    rw [f4, f5, h2 trivial]
    simp
  · rw [on_write (fun hc => f6 hc.1.symm)]; exact h2 x

/-- the device is not written to -/
theorem stg_same {o z : Prop} {e e' : Env Strict} (h : Stg dict com map o z e) (hs : Sound dict e') (hd : e'.c.w.dev = e.c.w.dev) : Stg dict com map o z e' :=
  ⟨hs, by rw [hd]; exact h.fine, by rw [hd]; exact h.off, by rw [hd]; exact h.zero⟩

theorem keep_stg_open {o z : Prop} (mem : Mem) (k : Key) (ty : Ty) : Keep (Stg dict com map o z) (openEntry mem k ty : Act Strict Unit) := by
  intro e h
  exact stg_same hp h (keep_open (sound_stable (strictDev (fun _ _ _ => none) (fun _ _ _ => none)) dict).toStableOne mem k ty e h.sound) rfl

theorem keep_stg_get {o z : Prop} (k : Key) (cached : Bool) : Keep (Stg dict com map o z) (getEntry (strictDev nr nw) k cached) := by
  intro e h
  have hs := keep_get (sound_stable (strictDev nr nw) dict).toStableOne k cached e h.sound
  revert hs
  unfold getEntry
  cases hd : e.s.data k with
  | none => intro _; exact h
  | some d =>
    intro hs
    exact stg_same hp h hs (calls_pdo (get_calls (pdoBus (strictDev nr nw)) d e.c cached (.pdo 0)).2 (by simp))

theorem keep_stg_mapOne {o z : Prop} (mem : Mem) (p : PdoMap) (n : Nat) (read write : Bool) :
    Keep (Stg dict com map o z) (mapOne (strictDev nr nw) mem p n read write) := by
  intro e h
  unfold mapOne
  split
  · exact h
  · split
    · have hm := mapEntry_mapped (strictDev nr nw) mem p.index p.subIndex (if read then some n else none) n e
      have hs : Sound dict (mapEntry (strictDev nr nw) mem p.index p.subIndex (if read then some n else none) (some n) e).1 := by
        refine ⟨?_, (mapped_kept hm).dict.trans h.sound.isDict, h.sound.keys⟩
        cases hm with
        | none h' => rw [h']; exact h.sound.cons
        | change k d d' hd hen hty hrd hwr hpd c' hc he =>
          rw [he]
          refine put_consistent h.sound.cons ?_
          rw [hen]
          rcases hd with hd | hd
          · exact h.sound.cons k d hd
          · exact hd.2
      have hat := stg_same hp h hs (mapped_dev hm)
      rw [bind_run]
      revert hat
      generalize mapEntry (strictDev nr nw) mem p.index p.subIndex (if read then some n else none) (some n) e = r
      obtain ⟨e', ou⟩ := r
      cases ou <;> exact id
    · exact h

theorem keep_stg_new {o z : Prop} (n : Nat) : Keep (Stg dict com map o z) (newBuf n : Act Strict Nat) :=
  fun _ h => ⟨⟨h.sound.cons, h.sound.isDict, h.sound.keys⟩, h.fine, h.off, h.zero⟩
theorem keep_stg_clean {o z : Prop} (n : Nat) : Keep (Stg dict com map o z) (cleanBuf n : Act Strict Unit) :=
  fun _ h => ⟨⟨h.sound.cons, h.sound.isDict, h.sound.keys⟩, h.fine, h.off, h.zero⟩

theorem keep_stg_mapLoop {o z : Prop} (mem : Mem) (read write : Bool) (subs : List Nat) (hsub : ∀ s ∈ subs, BitVec.ofNat 8 s ≠ 0)
    (hoz : ∀ s ∈ subs, hasInit dict map s = true → o ∧ z) :
    ∀ dlc bufs, Keep (Stg dict com map o z) (mapLoop (strictDev nr nw) mem map read write subs dlc bufs) := by
  induction subs with
  | nil => intro dlc bufs; exact keep_pure _
  | cons s ss ih =>
    intro dlc bufs
    have ih := ih (fun t ht => hsub t (List.mem_cons_of_mem _ ht)) (fun t ht => hoz t (List.mem_cons_of_mem _ ht))
    unfold mapLoop
    refine keep_bind (keep_stg_open hp _ _ _) fun _ => ?_
    intro e h
    rw [bind_run]
    unfold dictAt
    cases hg : e.s.dict.get (Key.ofSub map (BitVec.ofNat 8 s)) with
    | none => exact h
    | some x =>
      dsimp only
      refine keep_bind (I := Stg dict com map o z) ?_ (fun _ => keep_bind (keep_stg_get hp _ _) fun v => keep_bind (keep_stg_new hp _) fun n =>
        keep_bind (keep_stg_mapOne hp _ _ _ _ _) fun _ => keep_bind (keep_stg_clean hp _) fun _ => ih _ _) e h
      intro e1 h1
      unfold setConfigured
      cases hx : x.initVal with
      | val p =>
        dsimp only
        have hi : hasInit dict map s = true := by
          unfold hasInit sub
          rw [← h.sound.isDict, hg]
          dsimp only
          rw [hx]; rfl
        obtain ⟨ho, hz⟩ := hoz s List.mem_cons_self hi
        refine keep_bind (I := Stg dict com map o z) (keep_lift _) (fun v => ?_) e1 h1
        intro e2 h2
        exact (stg_entry hp (hsub s List.mem_cons_self) (h2.weaken (fun _ => ho) (fun _ => hz)) (setEntry_one (strictDev nr nw) _ _ e2)).weaken (fun _ => trivial) (fun _ => trivial)
      | empty t => exact h1
      | none => exact h1

theorem keep_stg_comLoop {o z : Prop} (mem : Mem) (subs : List Nat) (hsub : ∀ s ∈ subs, s < 256) : Keep (Stg dict com map o z) (comLoop (strictDev nr nw) mem com subs) := by
  induction subs with
  | nil => exact keep_pure _
  | cons s ss ih =>
    have ih := ih (fun t ht => hsub t (List.mem_cons_of_mem _ ht))
    intro e he
    unfold comLoop
    split
    · exact ih e he
    · rename_i hs
      have h := stg_com hp (by
        intro hc
        have := congrArg BitVec.toNat hc
        have h256 := hsub s List.mem_cons_self
        rw [BitVec.toNat_ofNat] at this
        apply hs
        left
        have : s % 2 ^ 8 = 1 := this
        omega) he (initEntry_one (strictDev nr nw) mem (sub com s) e)
      cases hq : initEntry (strictDev nr nw) mem (sub com s) e with
      | mk e' ou =>
        rw [hq] at h
        cases ou with
        | ok _ => exact ih e' h
        | ub => exact h
        | throws x => cases x <;> first | exact ih e' h | exact h

theorem keep_stg_setCom {o z : Prop} (mem : Mem) (ch : Bool) : Keep (Stg dict com map o z) (setCom (strictDev nr nw) mem com ch) := by
  unfold setCom
  refine keep_ite (fun _ => ?_) (fun _ => keep_pure _)
  refine keep_bind (keep_dictAt _ _) fun x => keep_bind (keep_lift _) fun v => keep_ite (fun _ => keep_lift _) (fun _ => keep_stg_comLoop hp mem _ ?_)
  intro s hs
  rw [List.mem_range'] at hs
  obtain ⟨i, h1, h2⟩ := hs
  have : v.toNat < 256 := v.isLt
  omega

end

/-! ## Reading and writing the identifier -/

section
variable {nr nw : Entry → List Byte → Contents → Option Nat}

theorem get_strict {k : Key} {e e' : Env Strict} {v : List Byte} {d : Data} (hd : e.s.data k = some d) (hrd : d.rd = .dev) (hty : d.ty = .int .u32)
    (hc : d.entry.constant = false) (h : getEntry (strictDev nr nw) k false e = (e', .ok v)) :
    v = (e.c.w.dev.store d.entry.index d.entry.subIndex).take 4 ∧ e'.c.w.dev = e.c.w.dev ∧ ∃ d', e'.s.data k = some d' ∧ Same d d' := by
  have hcalls := (get_calls (pdoBus (strictDev nr nw)) d e.c false (.pdo 0))
  unfold getEntry at h
  rw [hd] at h
  dsimp only at h
  injection h with h1 h2
  refine ⟨?_, ?_, _, by rw [← h1]; exact put_same _ _ _, hcalls.1⟩
  · have ha := allocate_same d
    unfold Data.get at h2
    split at h2
    · cases h2
    · rw [hc] at h2
      simp only [Bool.or_self, Bool.not_false, Bool.or_true, if_true] at h2
      unfold Data.callRead at h2
      simp only [pdoBus, busRead, ha.rd, hrd, ha.entry, strictDev] at h2
      split at h2
      · cases h2
      · rename_i hno
        split at hno
        · cases hno
        · split at hno
          · rename_i hn1 hlen
            have hv : d.allocate.valid = true := by
              unfold Data.allocate
              split
              · rfl
              · split
                · rfl
                · rename_i hq; simpa using hq
            rw [hn1] at h2
            simp only [hlen, if_true] at h2
            unfold Data.access at h2
            simp only [hv, ha.ty, hty, Bool.not_true, Bool.false_eq_true, if_false] at h2
            rw [if_neg (by simp)] at h2
            split at h2
            · cases h2
            · injection h2 with h2; exact h2.symm
          · cases hno
  · rw [← h1]; exact calls_pdo hcalls.2 (by simp)

/-- a write of an object of the device that is not forbidden -/
theorem set_strict {k : Key} {e e' : Env Strict} {v : List Byte} {d : Data} {o : Outcome Err Unit} (hd : e.s.data k = some d) (hwr : d.wr = .dev)
    (hw : d.entry.writable = true) (hf : ∀ rest, e.c.w.dev.store.forbids d.entry.index d.entry.subIndex (v ++ rest) = false)
    (h : setEntry (strictDev nr nw) k v e = (e', o)) :
    e'.c.w.dev.broken = e.c.w.dev.broken ∧
    (∀ u, o = .ok u → ∃ rest, e'.c.w.dev.store = e.c.w.dev.store.write d.entry.index d.entry.subIndex (v ++ rest)) := by
  unfold setEntry at h
  rw [hd] at h
  dsimp only at h
  injection h with h1 h2
  subst h1
  dsimp only
  unfold Data.set at h2 ⊢
  simp only [hw, Bool.not_true, Bool.false_eq_true, if_false] at h2 ⊢
  unfold Data.storeWrite at h2 ⊢
  cases hst : d.store v with
  | none => rw [hst] at h2; dsimp only at h2; exact ⟨rfl, fun u hu => by rw [← h2] at hu; cases hu⟩
  | some d' =>
    obtain ⟨hsame, rest, hb⟩ := store_same hst
    rw [hst] at h2
    unfold Data.callWrite at h2 ⊢
    simp only [pdoBus, busWrite, hsame.wr, hwr, hsame.entry, strictDev, hb, hf rest, Bool.false_eq_true, if_false] at h2 ⊢
    cases hn : nw d.entry (v ++ rest) e.c.w.dev.store with
    | none => 
      rw [hn] at h2
      exact ⟨rfl, fun u hu => ⟨rest, rfl⟩⟩
    | some c =>
      rw [hn] at h2
      dsimp only at h2 ⊢
      exact ⟨rfl, fun u hu => by rw [← h2] at hu; cases hu⟩

/-- initialising the identifier while the PDO is off -/
theorem init_strict {dict : Dict} {com : BitVec 16} {e e' : Env Strict} {mem : Mem} {c : Entry} {o : Outcome Err Unit} (hcom : isMap com = false) (hs : Sound dict e)
    (hg : dict.get (sub com 1) = some c) (hset : Settable c) (hfine : e.c.w.dev.broken = false) (hoff : e.c.w.dev.store.on com = false)
    (h : initEntry (strictDev nr nw) mem (sub com 1) e = (e', o)) :
    e'.c.w.dev.broken = false ∧ (e'.c.w.dev.store.on com = false ∨ ∃ w, c.initVal = .val (.int .u32 w) ∧ e'.c.w.dev.store.cob com = w) := by
  unfold initEntry Storage.init at h
  rw [hs.isDict, hg] at h
  dsimp only at h
  injection h with h1 h2
  subst h1
  unfold Storage.initNolock
  cases hi : c.initVal with
  | none => exact ⟨hfine, .inl hoff⟩
  | empty t => exact ⟨hfine, .inl hoff⟩
  | val p =>
    obtain ⟨w, rfl⟩ := hset.2.2 p hi
    have hent : ((e.s.data (sub com 1)).getD (Data.new c (Payload.int IntTy.u32 w).ty)).entry = c := by
      cases hd : e.s.data (sub com 1) with
      | none => rfl
      | some d =>
        have := hs.cons _ _ hd
        rw [hs.isDict, hg] at this
        injection this with this
        exact this.symm
    dsimp only
    generalize (e.s.data (sub com 1)).getD (Data.new c (Payload.int IntTy.u32 w).ty) = d at hent
    obtain ⟨hix, hsx⟩ := sound_entry hs.keys hg
    have same' : ∀ x : PW Strict, x.dev = e.c.w.dev → x.dev.broken = false ∧
        (x.dev.store.on com = false ∨ ∃ w', HoldAny.val (.int .u32 w) = .val (.int .u32 w') ∧ x.dev.store.cob com = w') := by
      intro x hx
      rw [hx]
      exact ⟨hfine, .inl hoff⟩
    unfold Data.init
    rw [hent, hi]
    dsimp only
    split
    · exact same' _ rfl
    · split
      · split
        · unfold Data.callWrite
          simp only [pdoBus, busWrite, hent]
          cases hwr : d.wr with
          | pdo n =>
            dsimp only
            cases hh : e.c.w.heap n with
            | none => exact same' _ rfl
            | some b =>
              dsimp only
              cases b.writeEntry _ <;> exact same' _ rfl
          | dev =>
            have hf : ∀ b, e.c.w.dev.store.forbids c.index c.subIndex b = false := by
              intro b
              unfold Contents.forbids
              rw [hix, hsx, hcom, hoff]
              simp
            simp only [strictDev, hf, Bool.false_eq_true, if_false]
            cases hn : nw c (Payload.bytes mem (.int .u32 w)) e.c.w.dev.store with
            | some x => exact same' _ rfl
            | none =>
              refine ⟨hfine, .inr ⟨w, rfl, ?_⟩⟩
              dsimp only
              unfold Contents.cob Contents.write
              rw [hix, hsx, if_pos ⟨rfl, rfl⟩]
              exact (by have := word32_bytes32 w []; rw [List.append_nil] at this; exact this)
        · exact same' _ rfl
      · exact same' _ rfl

end

theorem plain_stable (dv : Dev Strict) (k : Key) : StableOne dv (Plain (D := Strict) k) where
  one k' e e' h h' := by
    cases h' with
    | none h' => subst h'; exact h
    | change d d' hd hs c' hc he =>
      subst he
      intro d2 h2
      by_cases hk : k = k'
      · subst hk
        rw [put_same] at h2
        cases h2
        rw [hs.wr, hs.rd]
        rcases hd with hd | hd
        · exact h d hd
        · exact hd.2.2
      · rw [put_other _ _ hk] at h2
        exact h d2 h2

theorem low_or (w : BitVec 32) : (w ||| 0x80000000#32).extractLsb' 0 30 = w.extractLsb' 0 30 := by
  apply BitVec.eq_of_getLsbD_eq
  intro i hi
  have : ∀ j : Fin 30, (0x80000000#32).getLsbD j.val = false := by decide
  have := this ⟨i, hi⟩
  simp only at this
  simp [hi, this]

section
variable {nr nw : Entry → List Byte → Contents → Option Nat} {dict : Dict} {com map : BitVec 16} (hp : IsPair com map)
include hp

/-- writing an identifier that is allowed now -/
theorem cob_strict {o z : Prop} {e e' : Env Strict} {v : BitVec 32} {en : Entry} {out : Outcome Err Unit} (h : Stg dict com map o z e)
    (hg : dict.get (sub com 1) = some en) (hw : en.writable = true)
    (hv : e.c.w.dev.store.on com = false ∨ v.extractLsb' 0 30 = (e.c.w.dev.store.cob com).extractLsb' 0 30)
    (hq : setEntry (strictDev nr nw) (sub com 1) (bytes32 v) e = (e', out)) :
    Stg dict com map False False e' ∧ (∀ u, out = .ok u → Direct (sub com 1) e → e'.c.w.dev.store.cob com = v) := by
  obtain ⟨f1, f2, f3, f4, f5, f6⟩ := pair_facts hp
  have hone := setEntry_one (strictDev nr nw) (sub com 1) (bytes32 v) e
  rw [hq] at hone
  have hs := (sound_stable _ dict).one _ _ _ h.sound hone
  cases hd : e.s.data (sub com 1) with
  | none =>
    unfold setEntry at hq
    rw [hd] at hq
    injection hq with h1 h2
    subst h1
    exact ⟨h.weaken False.elim False.elim, fun u hu => by rw [← h2] at hu; cases hu⟩
  | some d =>
    have hen := h.sound.cons _ _ hd
    rw [h.sound.isDict, hg] at hen
    have hen : d.entry = en := by injection hen with hen; exact hen.symm
    obtain ⟨hi, hsi⟩ := sound_entry h.sound.keys hg
    cases hwr : d.wr with
    | pdo n =>
      have : e'.c.w.dev = e.c.w.dev := by
        have hc := set_calls' (pdoBus (strictDev nr nw)) d e.c (bytes32 v)
        unfold setEntry at hq
        rw [hd] at hq
        injection hq with h1 h2
        subst h1
        exact calls_pdo hc (by rw [hwr]; simp)
      refine ⟨⟨hs, by rw [this]; exact h.fine, False.elim, False.elim⟩, fun u hu hdir => ?_⟩
      have := hdir d hd
      rw [hwr] at this; cases this
    | dev =>
      have hf : ∀ rest, e.c.w.dev.store.forbids d.entry.index d.entry.subIndex (bytes32 v ++ rest) = false := by
        intro rest
        unfold Contents.forbids
        rw [hen, hi, hsi, f3, word32_bytes32]
        rcases hv with hv | hv
        · rw [hv]; simp
        · rw [hv]; simp
      obtain ⟨a, b⟩ := set_strict hd hwr (by rw [hen]; exact hw) hf hq
      refine ⟨⟨hs, by rw [a]; exact h.fine, False.elim, False.elim⟩, fun u hu _ => ?_⟩
      obtain ⟨rest, hr⟩ := b u hu
      rw [hr]
      unfold Contents.cob Contents.write
      rw [hen, hi, hsi, if_pos ⟨rfl, rfl⟩]
      exact word32_bytes32 v rest

theorem disable_strict (mem : Mem) {o z : Prop} (ch : Bool) {e : Env Strict} {en : Entry} (h : Stg dict com map o z e) (hg : dict.get (sub com 1) = some en)
    (hset : Settable en) (hdir : Plain (sub com 1) e) :
    Post (fun _ => Stg dict com map (ch = true) False) (Stg dict com map False False) (disable (strictDev nr nw) mem com ch e) := by
  have weak : ∀ {o z : Prop} {e : Env Strict}, Stg dict com map o z e → Stg dict com map False False e :=
    fun h => h.weaken False.elim False.elim
  unfold disable
  refine post_bind (Q := fun _ e' => Stg dict com map o z e' ∧ Plain (sub com 1) e' ∧ ∃ d, e'.s.data (sub com 1) = some d ∧ d.ty = .int .u32) ?_ fun _ e1 h1 => ?_
  · have a := keep_stg_open hp mem (sub com 1) (.int .u32) e h
    have b := keep_open (plain_stable (strictDev nr nw) (sub com 1)) mem (sub com 1) (.int .u32) e hdir
    have c := openEntry_ok mem (sub com 1) (.int .u32) e ()
    revert a b c
    generalize openEntry mem (sub com 1) (.int .u32) e = r
    obtain ⟨e', ou⟩ := r
    cases ou <;> intro a b c
    · exact ⟨a, b, c rfl⟩
    · exact weak a
    · exact weak a
  · obtain ⟨h1, h1p, d0, hd0, hty0⟩ := h1
    refine post_bind (Q := fun x e' => e' = e1 ∧ x = en) ?_ fun x e2 h2 => ?_
    · unfold descOf
      rw [hd0]
      refine ⟨rfl, ?_⟩
      have hen := h1.sound.cons _ _ hd0
      rw [h1.sound.isDict, hg] at hen
      injection hen with hen; exact hen.symm
    · obtain ⟨rfl, rfl⟩ := h2
      by_cases hc : ch = true
      · rw [if_pos (by rw [hc, hset.1]; rfl)]
        refine post_bind (Q := fun v e' => Stg dict com map o z e' ∧ Plain (sub com 1) e' ∧ word32 v = e'.c.w.dev.store.cob com) ?_ fun v e3 h3 => ?_
        · have a := keep_stg_get (nr := nr) (nw := nw) hp (sub com 1) false e2 h1
          have b := keep_get (plain_stable (strictDev nr nw) (sub com 1)) (sub com 1) false e2 h1p
          have hent : d0.entry = x := by
            have hen := h1.sound.cons _ _ hd0
            rw [h1.sound.isDict, hg] at hen
            injection hen with hen; exact hen.symm
          cases hq : getEntry (strictDev nr nw) (sub com 1) false e2 with
          | mk e' ou =>
            rw [hq] at a b
            cases ou with
            | ok v =>
              obtain ⟨g1, g2, -⟩ := get_strict hd0 (h1p d0 hd0).1 hty0 (by rw [hent]; exact hset.2.1) hq
              refine ⟨a, b, ?_⟩
              obtain ⟨hi, hsi⟩ := sound_entry h1.sound.keys hg
              rw [g1, g2, hent, hi, hsi]
              rfl
            | throws x => exact weak a
            | ub => exact weak a
        · obtain ⟨h3, h3p, h3v⟩ := h3
          cases hq : setEntry (strictDev nr nw) (sub com 1) (bytes32 (word32 v ||| 0x80000000#32)) e3 with
          | mk e' ou =>
            obtain ⟨a, b⟩ := cob_strict hp h3 hg hset.1 (.inr (by rw [low_or, h3v])) hq
            cases ou with
            | ok u =>
              refine ⟨a.sound, a.fine, fun _ => ?_, False.elim⟩
              have hcob := b u rfl (fun d hd => (h3p d hd).2)
              show (!(Contents.cob _ com).msb) = false
              rw [hcob, BitVec.msb_or, show (0x80000000#32).msb = true from rfl, Bool.or_true]
              rfl
            | throws x => exact a
            | ub => exact a
      · rw [if_neg (by simp [hc])]
        exact h1.weaken (fun x => (hc x).elim) (fun x => x.elim)

theorem setMapping_strict (mem : Mem) (read write : Bool) (num : Nat) (mapCh : Bool) {ch : Prop} {e : Env Strict} {en : Entry} (h : Stg dict com map ch False e)
    (hg : dict.get (sub map 0) = some en) (hw : en.writable = true) (hdir : Direct (sub map 0) e) (hch : mapCh = true → ch)
    (hinit : num ≤ 64 → mapCh = (List.range' 1 num).any fun s => hasInit dict map s) :
    Post (fun _ => Stg dict com map ch False) (Stg dict com map False False) (setMapping (strictDev nr nw) mem map read write num mapCh e) := by
  have weak : ∀ {o z : Prop} {e : Env Strict}, Stg dict com map o z e → Stg dict com map False False e :=
    fun h => h.weaken False.elim False.elim
  obtain ⟨f1, f2, f3, f4, f5, f6⟩ := pair_facts hp
  unfold setMapping
  by_cases hn : 0 < num ∧ num ≤ 0x40
  · rw [if_pos hn]
    refine post_bind (Q := fun _ => Stg dict com map ch (mapCh = true)) ?_ fun _ e1 h1 => ?_
    · unfold onlyIf
      by_cases hm : mapCh = true
      · rw [if_pos hm]
        have h' : Stg dict com map True False e := h.weaken (fun _ => hch hm) id
        have h2 := stg_count hp h' (setEntry_one (strictDev nr nw) (sub map 0) [0#8] e)
        cases hq : setEntry (strictDev nr nw) (sub map 0) [0#8] e with
        | mk e' ou =>
          rw [hq] at h2
          cases ou with
          | ok u =>
            refine ⟨h2.sound, h2.fine, fun _ => h2.off trivial, fun _ => ?_⟩
            cases hd : e.s.data (sub map 0) with
            | none => unfold setEntry at hq; rw [hd] at hq; cases hq
            | some d =>
              have hen := h.sound.cons _ _ hd
              rw [h.sound.isDict, hg] at hen
              have hen : d.entry = en := by injection hen with hen; exact hen.symm
              obtain ⟨hi, hsi⟩ := sound_entry h.sound.keys hg
              obtain ⟨-, b⟩ := set_strict hd (hdir d hd) (by rw [hen]; exact hw) (by
                intro rest
                unfold Contents.forbids
                rw [hen, hi, hsi, f4, f5, h'.off trivial]
                simp) hq
              obtain ⟨rest, hr⟩ := b u rfl
              dsimp only
              rw [hr]
              unfold Contents.unmapped Contents.write
              rw [hen, hi, hsi, if_pos ⟨rfl, rfl⟩]
              rfl
          | throws x => exact weak h2
          | ub => exact weak h2
      · rw [if_neg hm]
        exact h.weaken id (fun x => (hm x).elim)
    · have hk := keep_stg_mapLoop (nr := nr) (nw := nw) (dict := dict) (o := ch) (z := mapCh = true) hp mem read write (List.range' 1 num) (by
        intro s hs
        rw [List.mem_range'] at hs
        obtain ⟨i, h1, h2⟩ := hs
        intro hc
        have := congrArg BitVec.toNat hc
        rw [BitVec.toNat_ofNat] at this
        have : s % 2 ^ 8 = 0 := this
        omega) (by
        intro s hs hi
        have : mapCh = true := by rw [hinit hn.2, List.any_eq_true]; exact ⟨s, hs, hi⟩
        exact ⟨hch this, this⟩) 0 [] e1 h1
      revert hk
      generalize mapLoop (strictDev nr nw) mem map read write (List.range' 1 num) 0 [] e1 = r
      obtain ⟨e', ou⟩ := r
      cases ou <;> intro hk
      · exact hk.weaken id False.elim
      · exact weak hk
      · exact weak hk
  · rw [if_neg hn]
    exact h

theorem enable_strict (mem : Mem) (num : Nat) (mapCh comCh : Bool) {ch : Prop} {e : Env Strict} {en : Entry} (h : Stg dict com map ch False e)
    (hg : dict.get (sub com 1) = some en) (hset : Settable en) (hch : (mapCh || comCh) = true → ch) :
    Stg dict com map False False (enable (strictDev nr nw) mem com map num mapCh comCh e).1 := by
  have weak : ∀ {o z : Prop} {e : Env Strict}, Stg dict com map o z e → Stg dict com map False False e :=
    fun h => h.weaken False.elim False.elim
  obtain ⟨f1, f2, f3, f4, f5, f6⟩ := pair_facts hp
  refine (post_all (I := Stg dict com map False False)).1 ?_
  unfold enable
  refine post_bind (Q := fun _ => Stg dict com map ch False) ?_ fun _ e1 h1 => ?_
  · unfold onlyIf
    by_cases hm : mapCh = true
    · rw [if_pos hm]
      have hc : ch := hch (by rw [hm]; rfl)
      have a := stg_count hp (h.weaken (fun _ => hc) id) (setEntry_one (strictDev nr nw) (sub map 0) [BitVec.ofNat 8 num] e)
      revert a
      generalize setEntry (strictDev nr nw) (sub map 0) [BitVec.ofNat 8 num] e = r
      obtain ⟨e', ou⟩ := r
      cases ou <;> intro a
      · exact a.weaken (fun _ => trivial) id
      · exact weak a
      · exact weak a
    · rw [if_neg hm]
      exact h
  · refine post_bind (Q := fun _ e' => e' = e1) ?_ fun x e2 h2 => ?_
    · unfold descOf
      cases hd : e1.s.data (sub com 1) with
      | none => exact weak h1
      | some d => rfl
    · subst h2
      by_cases hcond : ((comCh || mapCh) && x.writable) = true
      · rw [if_pos hcond]
        have hc : ch := by
          apply hch
          rw [Bool.and_eq_true, Bool.or_comm] at hcond
          exact hcond.1
        cases hq : initEntry (strictDev nr nw) mem (sub com 1) e2 with
        | mk e3 ou =>
          obtain ⟨g1, g2⟩ := init_strict f3 h1.sound hg hset h1.fine (h1.off hc) hq
          have hs3 := keep_init (sound_stable (strictDev nr nw) dict).toStableOne mem (sub com 1) e2 h1.sound
          rw [hq] at hs3
          have h3 : Stg dict com map False False e3 := ⟨hs3, g1, False.elim, False.elim⟩
          refine post_bind (Q := fun _ e' => e' = e3) ?_ fun _ e4 h4 => ?_
          · rw [hq]
            cases ou
            · rfl
            · exact h3
            · exact h3
          · subst h4
            refine post_bind (Q := fun y e' => e' = e4 ∧ y = en) ?_ fun y e5 h5 => ?_
            · unfold dictAt
              have : e4.s.dict.get (Key.ofSub com 1) = some en := by rw [hs3.isDict]; exact hg
              rw [this]
              exact ⟨rfl, rfl⟩
            · obtain ⟨rfl, rfl⟩ := h5
              refine post_bind (Q := fun v e' => e' = e5 ∧ applyOffset .u32 y.value e5.s.nodeId = .ok v) ?_ fun v e6 h6 => ?_
              · cases hv : applyOffset .u32 y.value e5.s.nodeId with
                | ok v =>
                  simp only [Post, hv]
                  exact ⟨by first | rfl | trivial, by first | rfl | trivial⟩
                | throws x => simp only [Post, hv]; exact h3
                | ub => simp only [Post, hv]; exact h3
              · obtain ⟨rfl, hv⟩ := h6
                rw [post_all]
                cases hq6 : setEntry (strictDev nr nw) (sub com 1) (bytes32 v) e6 with
                | mk e' ou =>
                  refine (cob_strict hp h3 hg hset.1 ?_ hq6).1
                  rcases g2 with g2 | ⟨w, hw, hcob⟩
                  · exact .inl g2
                  · right
                    rw [hcob]
                    have : applyOffset .u32 y.value e6.s.nodeId = .ok w := by
                      unfold Entry.value
                      rw [hw]
                      rfl
                    rw [this] at hv
                    injection hv with hv
                    rw [hv]
      · rw [if_neg hcond]
        exact weak h1

/-- the whole set-up of one PDO, whatever its outcome -/
theorem parse_strict (mem : Mem) (read write : Bool) {e : Env Strict} {c m : Entry} (hs : Sound dict e) (hb : e.c.w.dev.broken = false)
    (hc : dict.get (sub com 1) = some c) (hset : Settable c) (hcd : Plain (sub com 1) e)
    (hm : dict.get (sub map 0) = some m) (hmw : m.writable = true) (hmd : Direct (sub map 0) e) :
    Stg dict com map False False (parseAndSet (strictDev nr nw) mem com map read write e).1 := by
  have weak : ∀ {o z : Prop} {e : Env Strict}, Stg dict com map o z e → Stg dict com map False False e :=
    fun h => h.weaken False.elim False.elim
  have h0 : Stg dict com map False False e := ⟨hs, hb, False.elim, False.elim⟩
  refine (post_all (I := Stg dict com map False False)).1 ?_
  unfold parseAndSet
  refine post_bind (Q := fun _ e' => Stg dict com map False False e' ∧ Plain (sub com 1) e' ∧ Direct (sub map 0) e') ?_ fun _ e1 h1 => ?_
  · have a := keep_stg_open hp mem (sub map 0) (.int .u8) e h0
    have b := keep_open (plain_stable (strictDev nr nw) (sub com 1)) mem (sub map 0) (.int .u8) e hcd
    have c := keep_open (direct_stable (strictDev nr nw) (sub map 0)) mem (sub map 0) (.int .u8) e hmd
    revert a b c
    generalize openEntry mem (sub map 0) (.int .u8) e = r
    obtain ⟨e', ou⟩ := r
    cases ou <;> intro a b c
    · exact ⟨a, b, c⟩
    · exact weak a
    · exact weak a
  · refine post_bind (Q := fun _ e' => e' = e1) ?_ fun x e2 h2 => ?_
    · unfold descOf
      cases hd : e1.s.data (sub map 0) with
      | none => exact h1.1
      | some d => rfl
    · subst h2
      dsimp only
      refine post_bind (Q := fun mc e' => e' = e2 ∧ (mapNum x ≤ 64 → mc = (List.range' 1 (mapNum x)).any fun s => hasInit dict map s)) ?_ fun mc e3 h3 => ?_
      · unfold mapChanged
        by_cases hn : mapNum x ≤ 0x40
        · rw [if_pos hn]
          exact ⟨rfl, fun _ => by rw [h1.1.sound.isDict]⟩
        · rw [if_neg hn]
          cases hq : e2.s.dict.get (sub map 0) with
          | none => exact h1.1
          | some y => exact ⟨rfl, fun hx => (hn hx).elim⟩
      · obtain ⟨rfl, hmc⟩ := h3
        refine post_bind (Q := fun di e' => e' = e3) rfl fun di e4 h4 => ?_
        subst h4
        refine post_bind (Q := fun _ e' => Stg dict com map ((mc || comChanged di map) = true) False e' ∧ Direct (sub map 0) e') ?_ fun _ e5 h5 => ?_
        · have a := disable_strict (nr := nr) (nw := nw) hp mem (mc || comChanged di map) h1.1 hc hset h1.2.1
          have b := keep_disable (direct_stable (strictDev nr nw) (sub map 0)) mem com (mc || comChanged di map) e4 h1.2.2
          revert a b
          generalize disable (strictDev nr nw) mem com (mc || comChanged di map) e4 = r
          obtain ⟨e', ou⟩ := r
          cases ou <;> intro a b
          · exact ⟨a, b⟩
          · exact a
          · exact a
        · refine post_bind (setMapping_strict (nr := nr) (nw := nw) hp mem read write (mapNum x) mc h5.1 hm hmw h5.2 (fun hx => by rw [hx]; rfl) hmc) fun r e6 h6 => ?_
          refine post_bind (Q := fun _ => Stg dict com map ((mc || comChanged di map) = true) False) ?_ fun _ e7 h7 => ?_
          · have a := keep_stg_setCom (nr := nr) (nw := nw) hp mem (comChanged di map) e6 h6
            revert a
            generalize setCom (strictDev nr nw) mem com (comChanged di map) e6 = r
            obtain ⟨e', ou⟩ := r
            cases ou <;> intro a
            · exact a
            · exact weak a
            · exact weak a
          · refine post_bind (Q := fun _ => Stg dict com map False False) ?_ fun _ e8 h8 => h8
            rw [post_all]
            exact enable_strict hp mem (mapNum x) mc (comChanged di map) h7 hc hset id

theorem rpdo_strict (mem : Mem) (junk : Vector Byte 8) {e : Env Strict} {c m : Entry} (hs : Sound dict e) (hb : e.c.w.dev.broken = false)
    (hc : dict.get (sub com 1) = some c) (hset : Settable c) (hcd : Plain (sub com 1) e)
    (hm : dict.get (sub map 0) = some m) (hmw : m.writable = true) (hmd : Direct (sub map 0) e) :
    Stg dict com map False False (rpdoInit (strictDev nr nw) mem junk com map e).1 := by
  have hpr := parse_strict (nr := nr) (nw := nw) hp mem true false hs hb hc hset hcd hm hmw hmd
  unfold rpdoInit
  have hrest : ∀ r : Byte × List Nat, Keep (Stg dict com map False False) (do
      let w ← cobWord com
      if r.2.isEmpty || (PdoId.mk w).isInvalid then pure none
      else do
        let y ← dictAt com 2
        let t ← lift (y.value.getInt .u8)
        pure (some { com := com, frame := Frame.ofHeader junk ((PdoId.mk w).header true), type := t, bufs := r.2 } : Option Rec) : Act Strict (Option Rec)) := fun r =>
    keep_bind (keep_cobWord com) fun w => keep_ite (fun _ => keep_pure _) fun _ => keep_bind (keep_dictAt _ _) fun y => keep_bind (keep_lift _) fun t => keep_pure _
  refine (post_all (I := Stg dict com map False False)).1 (post_bind (Q := fun _ => Stg dict com map False False) (post_all.2 hpr) fun r e1 h1 => ?_)
  exact post_all.2 (hrest r e1 h1)

theorem tpdo_strict (mem : Mem) (junk : Vector Byte 8) {e : Env Strict} {c m : Entry} (hs : Sound dict e) (hb : e.c.w.dev.broken = false)
    (hc : dict.get (sub com 1) = some c) (hset : Settable c) (hcd : Plain (sub com 1) e)
    (hm : dict.get (sub map 0) = some m) (hmw : m.writable = true) (hmd : Direct (sub map 0) e) :
    Stg dict com map False False (tpdoInit (strictDev nr nw) mem junk com map e).1 := by
  have hpr := parse_strict (nr := nr) (nw := nw) hp mem false true hs hb hc hset hcd hm hmw hmd
  have h0 : Stg dict com map False False e := ⟨hs, hb, False.elim, False.elim⟩
  have hset2 : ∀ v, Keep (Stg dict com map False False) (setEntry (strictDev nr nw) (sub com 2) v) := fun v e h =>
    stg_com hp (by decide) h (setEntry_one (strictDev nr nw) (sub com 2) v e)
  have htype : ∀ t, Keep (Stg dict com map False False) (enforceType (strictDev nr nw) com t) := by
    intro t
    unfold enforceType
    exact keep_ite (fun _ => hset2 _) (fun _ => keep_pure _)
  unfold tpdoInit
  refine (post_all (I := Stg dict com map False False)).1 (post_bind (Q := fun _ e' => e' = e) ?_ fun w e1 h1 => ?_)
  · have a : (cobWord com e : Env Strict × Outcome Err (BitVec 32)).1 = e := keep_cobWord (I := fun e' => e' = e) com e rfl
    revert a
    generalize (cobWord com e : Env Strict × Outcome Err (BitVec 32)) = r
    obtain ⟨e', o⟩ := r
    cases o <;> intro a
    · exact a
    · rw [show e' = e from a]; exact h0
    · rw [show e' = e from a]; exact h0
  · subst h1
    refine post_bind (Q := fun _ => Stg dict com map False False) (post_all.2 hpr) fun r e2 h2 => post_all.2 ?_
    exact keep_ite (fun _ => keep_pure _) (fun _ => keep_bind (keep_stg_open hp mem _ _) fun _ => keep_bind (keep_descOf _) fun y => keep_bind (keep_lift _) fun t =>
      keep_bind (htype t) fun _ => keep_pure _) e2 h2

end

/-! ## What is on the device in the end -/

theorem plain_back_one {dv : Dev Strict} {k k' : Key} {e e' : Env Strict} (h : One dv k' e e') (hp : Plain k e') : Plain k e := by
  cases h with
  | none h => subst h; exact hp
  | change d d' hd hs c' hc he =>
    subst he
    intro d2 h2
    by_cases hk : k = k'
    · subst hk
      rcases hd with hd | hd
      · rw [hd] at h2
        cases h2
        have := hp d' (put_same _ _ _)
        rw [hs.rd, hs.wr] at this
        exact this
      · rw [hd.1] at h2; cases h2
    · exact hp d2 (by dsimp only; rw [put_other _ _ hk]; exact h2)

section
variable {nr nw : Entry → List Byte → Contents → Option Nat}

/-- calls for one object leave the others on the device alone -/
theorem calls_other {en : Entry} {rd wr : Dlg} {c c' : Ctx (PW Strict)} {j : BitVec 16} {t : BitVec 8} (h : Calls (pdoBus (strictDev nr nw)) en rd wr c c')
    (hne : ¬ (j = en.index ∧ t = en.subIndex)) : c'.w.dev.store j t = c.w.dev.store j t := by
  induction h with
  | refl => rfl
  | read b hc ih =>
    rw [← ih]
    exact congrArg (fun d : Strict => d.store j t) (calls_pdo (.read (rd := rd) (wr := .pdo 0) b (.refl _)) (by simp))
  | write b _ ih =>
    rw [← ih]
    refine (?_ : ∀ w : PW Strict, ((pdoBus (strictDev nr nw)).write wr en b w).1.dev.store j t = w.dev.store j t) _
    intro w
    simp only [pdoBus, busWrite]
    cases wr with
    | dev =>
      simp only [strictDev]
      split
      · rfl
      · split
        · rfl
        · dsimp only
          unfold Contents.write
          rw [if_neg hne]
    | pdo n =>
      dsimp only
      split
      · rfl
      · split <;> rfl

/-- the device holds `val` at `j`, `t` -/
def HoldsAt (dict : Dict) (j : BitVec 16) (t : BitVec 8) (val : List Byte) (e : Env Strict) : Prop := Sound dict e ∧ e.c.w.dev.store j t = val

theorem holds_one {dict : Dict} {i j : BitVec 16} {s t : BitVec 8} {val : List Byte} {e e' : Env Strict} (h : One (strictDev nr nw) (Key.ofSub i s) e e')
    (hne : ¬ (j = i ∧ t = s)) (hh : HoldsAt dict j t val e) : HoldsAt dict j t val e' := by
  refine ⟨(sound_stable _ dict).one _ _ _ hh.1 h, ?_⟩
  rw [← hh.2]
  cases h with
  | none h => rw [h]
  | change d d' hd hsm c' hc he =>
    subst he
    have hen : e.s.dict.get (Key.ofSub i s) = some d.entry := by
      rcases hd with hd | hd
      · exact hh.1.cons _ _ hd
      · exact hd.2.1
    rw [hh.1.isDict] at hen
    obtain ⟨h3, h4⟩ := sound_entry hh.1.keys hen
    exact calls_other hc (by rw [h3, h4]; exact hne)

theorem holds_get {dict : Dict} {j : BitVec 16} {t : BitVec 8} {val : List Byte} (k : Key) (cached : Bool) :
    Keep (HoldsAt dict j t val) (getEntry (strictDev nr nw) k cached) := by
  intro e h
  refine ⟨keep_get (sound_stable _ dict).toStableOne k cached e h.1, ?_⟩
  rw [← h.2]
  unfold getEntry
  cases hd : e.s.data k with
  | none => rfl
  | some d => exact congrArg (fun d : Strict => d.store j t) (calls_pdo (get_calls (pdoBus (strictDev nr nw)) d e.c cached (.pdo 0)).2 (by simp))

theorem holds_open {dict : Dict} {j : BitVec 16} {t : BitVec 8} {val : List Byte} (mem : Mem) (k : Key) (ty : Ty) :
    Keep (HoldsAt dict j t val) (openEntry mem k ty : Act Strict Unit) := by
  intro e h
  exact ⟨keep_open (sound_stable (strictDev (fun _ _ _ => none) (fun _ _ _ => none)) dict).toStableOne mem k ty e h.1, h.2⟩

theorem holds_mapOne {dict : Dict} {j : BitVec 16} {t : BitVec 8} {val : List Byte} (mem : Mem) (p : PdoMap) (n : Nat) (read write : Bool) :
    Keep (HoldsAt dict j t val) (mapOne (strictDev nr nw) mem p n read write) := by
  intro e h
  unfold mapOne
  split
  · exact h
  · split
    · have hm := mapEntry_mapped (strictDev nr nw) mem p.index p.subIndex (if read then some n else none) n e
      have hs : Sound dict (mapEntry (strictDev nr nw) mem p.index p.subIndex (if read then some n else none) (some n) e).1 := by
        refine ⟨?_, (mapped_kept hm).dict.trans h.1.isDict, h.1.keys⟩
        cases hm with
        | none h' => rw [h']; exact h.1.cons
        | change k d d' hd hen hty hrd hwr hpd c' hc he =>
          rw [he]
          refine put_consistent h.1.cons ?_
          rw [hen]
          rcases hd with hd | hd
          · exact h.1.cons k d hd
          · exact hd.2
      have hat : HoldsAt dict j t val (mapEntry (strictDev nr nw) mem p.index p.subIndex (if read then some n else none) (some n) e).1 :=
        ⟨hs, by rw [mapped_dev hm]; exact h.2⟩
      rw [bind_run]
      revert hat
      generalize mapEntry (strictDev nr nw) mem p.index p.subIndex (if read then some n else none) (some n) e = r
      obtain ⟨e', ou⟩ := r
      cases ou <;> exact id
    · exact h

theorem holds_setConfigured {dict : Dict} {i j : BitVec 16} {s t : BitVec 8} {val : List Byte} (hne : ¬ (j = i ∧ t = s)) (init : HoldAny) :
    Keep (HoldsAt dict j t val) (setConfigured (strictDev nr nw) (Key.ofSub i s) init) := by
  unfold setConfigured
  split
  · exact keep_bind (keep_lift _) fun v e h => holds_one (setEntry_one _ _ _ e) hne h
  · exact keep_pure _

theorem holds_round {dict : Dict} {j : BitVec 16} {t : BitVec 8} {val : List Byte} {α : Type} (mem : Mem) (k : Key) (read write : Bool)
    (f : List Byte → Nat → Act Strict α) (hf : ∀ v n, Keep (HoldsAt dict j t val) (f v n)) :
    Keep (HoldsAt dict j t val) (getEntry (strictDev nr nw) k true >>= fun v => newBuf ((PdoMap.ofWord (word32 v)).length.toNat / 8) >>= fun n =>
      mapOne (strictDev nr nw) mem (PdoMap.ofWord (word32 v)) n read write >>= fun _ => cleanBuf n >>= fun _ => f v n) :=
  keep_bind (holds_get _ _) fun v => keep_bind (fun _ h => ⟨⟨h.1.cons, h.1.isDict, h.1.keys⟩, h.2⟩) fun n =>
    keep_bind (holds_mapOne _ _ _ _ _) fun _ => keep_bind (fun _ h => ⟨⟨h.1.cons, h.1.isDict, h.1.keys⟩, h.2⟩) fun _ => hf v n

theorem holds_mapLoop {dict : Dict} {map j : BitVec 16} {t : BitVec 8} {val : List Byte} (mem : Mem) (read write : Bool) (subs : List Nat)
    (hne : ∀ s ∈ subs, ¬ (j = map ∧ t = BitVec.ofNat 8 s)) :
    ∀ dlc bufs, Keep (HoldsAt dict j t val) (mapLoop (strictDev nr nw) mem map read write subs dlc bufs) := by
  induction subs with
  | nil => intro dlc bufs; exact keep_pure _
  | cons s ss ih =>
    intro dlc bufs
    have ih := ih (fun t ht => hne t (List.mem_cons_of_mem _ ht))
    unfold mapLoop
    refine keep_bind (holds_open _ _ _) fun _ => keep_bind (keep_dictAt _ _) fun x => keep_bind (holds_setConfigured (hne s List.mem_cons_self) _) fun _ => ?_
    exact holds_round mem _ read write _ (fun v n => ih _ _)

theorem holds_comLoop {dict : Dict} {com j : BitVec 16} {t : BitVec 8} {val : List Byte} (mem : Mem) (subs : List Nat) (hj : j ≠ com) :
    Keep (HoldsAt dict j t val) (comLoop (strictDev nr nw) mem com subs) := by
  induction subs with
  | nil => exact keep_pure _
  | cons s ss ih =>
    intro e he
    unfold comLoop
    split
    · exact ih e he
    · have h := holds_one (initEntry_one (strictDev nr nw) mem (sub com s) e) (fun hc => hj hc.1) he
      cases hq : initEntry (strictDev nr nw) mem (sub com s) e with
      | mk e' ou =>
        rw [hq] at h
        cases ou with
        | ok _ => exact ih e' h
        | ub => exact h
        | throws x => cases x <;> first | exact ih e' h | exact h

theorem holds_setCom {dict : Dict} {com j : BitVec 16} {t : BitVec 8} {val : List Byte} (mem : Mem) (ch : Bool) (hj : j ≠ com) :
    Keep (HoldsAt dict j t val) (setCom (strictDev nr nw) mem com ch) := by
  unfold setCom
  refine keep_ite (fun _ => ?_) (fun _ => keep_pure _)
  exact keep_bind (keep_dictAt _ _) fun x => keep_bind (keep_lift _) fun v => keep_ite (fun _ => keep_lift _) (fun _ => holds_comLoop mem _ hj)

theorem holds_enable {dict : Dict} {com map j : BitVec 16} {t : BitVec 8} {val : List Byte} (mem : Mem) (num : Nat) (a b : Bool) (hj : j ≠ com)
    (ht : ¬ (j = map ∧ t = 0)) : Keep (HoldsAt dict j t val) (enable (strictDev nr nw) mem com map num a b) := by
  unfold enable
  refine keep_bind (keep_onlyIf _ (fun e h => holds_one (setEntry_one _ _ _ e) ht h)) fun _ => keep_bind (keep_descOf _) fun x =>
    keep_ite (fun _ => ?_) (fun _ => keep_pure _)
  exact keep_bind (fun e h => holds_one (initEntry_one _ mem _ e) (fun hc => hj hc.1) h) fun _ => keep_bind (keep_dictAt _ _) fun y =>
    keep_bind (keep_read _) fun v => fun e h => holds_one (setEntry_one _ _ _ e) (fun hc => hj hc.1) h

theorem mapOne_back (mem : Mem) (w : BitVec 32) (n : Nat) (read write : Bool) (hrw : (read || write) = true) {e e' : Env Strict} {u : Unit}
    (h : mapOne (strictDev nr nw) mem (PdoMap.ofWord w) n read write e = (e', .ok u)) {k : Key} (hp : Plain k e') : Plain k e := by
  obtain ⟨-, h2, h3⟩ := mapOne_ok _ mem w n read write e e' u hrw h
  by_cases hk : mappedKey e.s.dict w = some k
  · obtain ⟨d, hd, h4, h5⟩ := h2 k hk
    obtain ⟨h6, h7⟩ := hp d hd
    rw [h6] at h4
    rw [h7] at h5
    cases read
    · simp at h5
    · simp at h4
  · intro d hd
    exact hp d (by rw [h3 k hk]; exact hd)

theorem setConfigured_back {k k' : Key} {init : HoldAny} {e e' : Env Strict} {u : Unit} (h : setConfigured (strictDev nr nw) k' init e = (e', .ok u))
    (hp : Plain k e') : Plain k e := by
  unfold setConfigured at h
  split at h
  · bnd h with e1 v h1
    obtain ⟨rfl, -⟩ := lift_ok h1
    have := setEntry_one (strictDev nr nw) k' (bytes32 v) e1
    rw [h] at this
    exact plain_back_one this hp
  · obtain ⟨rfl, -⟩ := pure_ok h
    exact hp

theorem mapLoop_back (mem : Mem) (map : BitVec 16) (read write : Bool) (hrw : (read || write) = true) (k : Key) (subs : List Nat) :
    ∀ dlc bufs (e e' : Env Strict) r, mapLoop (strictDev nr nw) mem map read write subs dlc bufs e = (e', .ok r) → Plain k e' → Plain k e := by
  induction subs with
  | nil =>
    intro dlc bufs e e' r h hp
    obtain ⟨rfl, -⟩ := pure_ok h
    exact hp
  | cons s ss ih =>
    intro dlc bufs e e' r h hp
    unfold mapLoop at h
    bnd h with e1 u1 h1
    bnd h with e2 x h2
    bnd h with e3 u2 h3
    bnd h with e4 v h4
    bnd h with e5 n h5
    bnd h with e6 u3 h6
    bnd h with e7 u4 h7
    have p7 := ih _ _ _ _ _ h hp
    have p6 : Plain k e6 := by unfold cleanBuf at h7; injection h7 with a b; rw [← a] at p7; exact p7
    have p5 := mapOne_back mem _ n read write hrw h6 p6
    have p4 : Plain k e4 := by unfold newBuf at h5; injection h5 with a b; rw [← a] at p5; exact p5
    have o4 := getEntry_one (strictDev nr nw) (sub map s) true e3
    rw [h4] at o4
    have p3 := plain_back_one o4 p4
    have p2 := setConfigured_back h3 p3
    obtain ⟨rfl, -⟩ := dictAt_ok h2
    have o1 := openEntry_one (strictDev nr nw) mem (sub map s) (.int .u32) e
    rw [h1] at o1
    exact plain_back_one o1 p2

end

section
variable {nr nw : Entry → List Byte → Contents → Option Nat} {dict : Dict} {com map : BitVec 16} (hp : IsPair com map)
include hp

/-- a configured mapping entry is written to the device -/
theorem mapLoop_applied (mem : Mem) (read write : Bool) (hrw : (read || write) = true) {s : Nat} {x : Entry} {p : Payload} {w : BitVec 32}
    (hg : dict.get (sub map s) = some x) (hw : x.writable = true) (hx : x.initVal = .val p) (hv : x.initVal.getInt .u32 = .ok w) (subs : List Nat) :
    subs.Nodup → (∀ t ∈ subs, 0 < t ∧ t < 256) → ∀ dlc bufs (e e' : Env Strict) r, s ∈ subs → Stg dict com map True True e →
      mapLoop (strictDev nr nw) mem map read write subs dlc bufs e = (e', .ok r) → Plain (sub map s) e' →
      ∃ rest, e'.c.w.dev.store map (BitVec.ofNat 8 s) = bytes32 w ++ rest := by
  obtain ⟨f1, f2, f3, f4, f5, f6⟩ := pair_facts hp
  induction subs with
  | nil => intro _ _ dlc bufs e e' r hm; cases hm
  | cons t ss ih =>
    intro hnd hlt dlc bufs e e' r hm hst h hpl
    rw [List.nodup_cons] at hnd
    unfold mapLoop at h
    bnd h with e1 u1 h1
    bnd h with e2 y h2
    have hrest := h
    bnd h with e3 u2 h3
    have hafter := h
    bnd h with e4 v h4
    bnd h with e5 n h5
    bnd h with e6 u3 h6
    bnd h with e7 u4 h7
    have st1 := keep_ok (keep_stg_open hp _ _ _) h1 hst
    obtain ⟨rfl, hy⟩ := dictAt_ok h2
    by_cases hs : s = t
    · subst hs
      have p3 : Plain (sub map s) e3 := by
        have p7 := mapLoop_back mem map read write hrw (sub map s) ss _ _ _ _ _ h hpl
        have p6 : Plain (sub map s) e6 := by unfold cleanBuf at h7; injection h7 with a b; rw [← a] at p7; exact p7
        have p5 := mapOne_back mem _ n read write hrw h6 p6
        have p4 : Plain (sub map s) e4 := by unfold newBuf at h5; injection h5 with a b; rw [← a] at p5; exact p5
        have o4 := getEntry_one (strictDev nr nw) (sub map s) true e3
        rw [h4] at o4
        exact plain_back_one o4 p4
      have p2 := setConfigured_back h3 p3
      have hyx : y = x := by
        have : e2.s.dict.get (sub map s) = some y := hy
        rw [st1.sound.isDict, hg] at this
        injection this with this; exact this.symm
      subst hyx
      have hs3 := keep_ok (keep_setConfigured (sound_stable (strictDev nr nw) dict).toStableOne _ _) h3 st1.sound
      unfold setConfigured at h3
      rw [hx] at h3
      dsimp only at h3
      bnd h3 with e8 v8 h8
      obtain ⟨rfl, hv8⟩ := lift_ok h8
      rw [← hx, hv] at hv8
      injection hv8 with hv8
      subst hv8
      cases hd : e8.s.data (sub map s) with
      | none => unfold setEntry at h3; rw [hd] at h3; cases h3
      | some d =>
        have hen := st1.sound.cons _ _ hd
        rw [st1.sound.isDict, hg] at hen
        have hen : d.entry = y := by injection hen with hen; exact hen.symm
        obtain ⟨hi, hsi⟩ := sound_entry st1.sound.keys hg
        obtain ⟨-, b⟩ := set_strict hd (p2 d hd).2 (by rw [hen]; exact hw) (by
          intro rest
          unfold Contents.forbids
          rw [hen, hi, f4, f5, st1.off trivial, st1.zero trivial]
          simp) h3
        obtain ⟨rest, hr⟩ := b _ rfl
        refine ⟨rest, ?_⟩
        have h3' : HoldsAt dict map (BitVec.ofNat 8 s) (bytes32 w ++ rest) e3 := by
          refine ⟨hs3, ?_⟩
          rw [hr]
          unfold Contents.write
          rw [hen, hi, hsi, if_pos ⟨rfl, rfl⟩]
        refine (keep_ok (holds_round mem _ read write _ (fun v n => holds_mapLoop mem read write ss ?_ _ _)) hafter h3').2
        intro q hq hc
        have h1 := congrArg BitVec.toNat hc.2
        rw [BitVec.toNat_ofNat, BitVec.toNat_ofNat] at h1
        have a1 := hlt s List.mem_cons_self
        have a2 := hlt q (List.mem_cons_of_mem _ hq)
        have : s = q := by omega
        subst this
        exact hnd.1 hq
    · have hmem : s ∈ ss := by
        rcases List.mem_cons.1 hm with h | h
        · exact absurd h hs
        · exact h
      have t0 : BitVec.ofNat 8 t ≠ 0 := by
        intro hc
        have h1 := congrArg BitVec.toNat hc
        rw [BitVec.toNat_ofNat] at h1
        have a1 := hlt t List.mem_cons_self
        have : t % 2 ^ 8 = 0 := h1
        omega
      have st3 : Stg dict com map True True e3 := by
        refine keep_ok ?_ h3 st1
        unfold setConfigured
        split
        · exact keep_bind (keep_lift _) fun v e h => stg_entry hp t0 h (setEntry_one (strictDev nr nw) _ _ e)
        · exact keep_pure _
      have st4 := keep_ok (keep_stg_get hp _ _) h4 st3
      have st5 := keep_ok (keep_stg_new hp _) h5 st4
      have st6 := keep_ok (keep_stg_mapOne hp _ _ _ _ _) h6 st5
      have st7 := keep_ok (keep_stg_clean hp _) h7 st6
      exact ih hnd.2 (fun q hq => hlt q (List.mem_cons_of_mem _ hq)) _ _ _ _ _ hmem st7 h hpl

theorem enable_applied (mem : Mem) (num : Nat) (mapCh comCh : Bool) {e e' : Env Strict} {u : Unit} {c m : Entry} (h : Stg dict com map True False e)
    (hch : (mapCh || comCh) = true)
    (hg : dict.get (sub com 1) = some c) (hset : Settable c) (hm : dict.get (sub map 0) = some m) (hmw : m.writable = true)
    (hr : enable (strictDev nr nw) mem com map num mapCh comCh e = (e', .ok u)) (hc : Plain (sub com 1) e') (hz : Plain (sub map 0) e') :
    (∃ w, applyOffset .u32 c.value e.s.nodeId = .ok w ∧ e'.c.w.dev.store.cob com = w) ∧
    (mapCh = true → ∃ rest, e'.c.w.dev.store map 0 = BitVec.ofNat 8 num :: rest) := by
  obtain ⟨f1, f2, f3, f4, f5, f6⟩ := pair_facts hp
  have weak : ∀ {o z : Prop} {e : Env Strict}, Stg dict com map o z e → Stg dict com map False False e :=
    fun h => h.weaken False.elim False.elim
  unfold enable at hr
  bnd hr with e1 u1 h1
  bnd hr with e2 x h2
  obtain ⟨rfl, d, hd, hx⟩ := descOf_ok h2
  have st2 : Stg dict com map True False e2 := by
    refine keep_ok (keep_onlyIf _ ?_) h1 h
    exact fun e he => stg_count hp he (setEntry_one (strictDev nr nw) _ _ e)
  have kn2 : e2.s.nodeId = e.s.nodeId :=
    (keep_ok (keep_onlyIf _ (keep_set (kept_stable (strictDev nr nw) e).toStableOne _ _)) h1 (.refl e)).node
  have hxc : x = c := by
    have := st2.sound.cons _ _ hd
    rw [st2.sound.isDict, hg] at this
    rw [← hx]; injection this with this; exact this.symm
  subst hxc
  rw [if_pos (by rw [hset.1, Bool.and_true, Bool.or_comm]; exact hch)] at hr
  bnd hr with e3 u3 h3
  bnd hr with e4 y h4
  obtain ⟨rfl, hy⟩ := dictAt_ok h4
  bnd hr with e5 v h5
  have h5' : e5 = e4 ∧ applyOffset .u32 y.value e4.s.nodeId = .ok v := by
    injection h5 with a b
    exact ⟨a.symm, b⟩
  obtain ⟨rfl, hv⟩ := h5'
  have o3 := initEntry_one (strictDev nr nw) mem (sub com 1) e2
  rw [h3] at o3
  have o6 := setEntry_one (strictDev nr nw) (sub com 1) (bytes32 v) e5
  rw [hr] at o6
  have kn5 : e5.s.nodeId = e.s.nodeId := ((kept_stable (strictDev nr nw) e2).one _ _ _ (.refl e2) o3).node.trans kn2
  obtain ⟨g1, g2⟩ := init_strict f3 st2.sound hg hset st2.fine (st2.off trivial) h3
  have hs5 := (sound_stable (strictDev nr nw) dict).one _ _ _ st2.sound o3
  have hyx : y = x := by
    have : dict.get (sub com 1) = some y := by rw [← hs5.isDict]; exact hy
    rw [hg] at this
    injection this with this; exact this.symm
  subst hyx
  refine ⟨⟨v, by rw [← kn5]; exact hv, ?_⟩, ?_⟩
  · have h5s : Stg dict com map False False e5 := ⟨hs5, g1, False.elim, False.elim⟩
    refine (cob_strict hp h5s hg hset.1 ?_ hr).2 _ rfl (fun d hd => (plain_back_one o6 hc d hd).2)
    rcases g2 with g2 | ⟨w, hw, hcob⟩
    · exact .inl g2
    · right
      rw [hcob]
      have : applyOffset .u32 y.value e5.s.nodeId = .ok w := by
        unfold Entry.value
        rw [hw]
        rfl
      rw [this] at hv
      injection hv with hv
      rw [hv]
  · intro hmc
    have p2 := plain_back_one o3 (plain_back_one o6 hz)
    unfold onlyIf at h1
    rw [if_pos hmc] at h1
    have o1 := setEntry_one (strictDev nr nw) (sub map 0) [BitVec.ofNat 8 num] e
    rw [h1] at o1
    have p0 := plain_back_one o1 p2
    cases hd0 : e.s.data (sub map 0) with
    | none => unfold setEntry at h1; rw [hd0] at h1; cases h1
    | some d0 =>
      have hen := h.sound.cons _ _ hd0
      rw [h.sound.isDict, hm] at hen
      have hen : d0.entry = m := by injection hen with hen; exact hen.symm
      obtain ⟨hi, hsi⟩ := sound_entry h.sound.keys hm
      obtain ⟨-, b⟩ := set_strict hd0 (p0 d0 hd0).2 (by rw [hen]; exact hmw) (by
        intro rest
        unfold Contents.forbids
        rw [hen, hi, hsi, f4, f5, h.off trivial]
        simp) h1
      obtain ⟨rest, hr2⟩ := b _ rfl
      have ha : HoldsAt dict map 0 (BitVec.ofNat 8 num :: rest) e2 := by
        refine ⟨st2.sound, ?_⟩
        rw [hr2]
        unfold Contents.write
        rw [hen, hi, hsi, if_pos ⟨rfl, rfl⟩]
        rfl
      exact ⟨rest, (holds_one o6 (fun hx => f6 hx.1.symm) (holds_one o3 (fun hx => f6 hx.1.symm) ha)).2⟩

/-- the identifier a set-up that ends normally leaves on the device, if anything is configured at the mapping parameter -/
theorem parse_id (mem : Mem) (read write : Bool) {e e' : Env Strict} {r : Byte × List Nat} {c m : Entry}
    (hs : Sound dict e) (hb : e.c.w.dev.broken = false)
    (hc : dict.get (sub com 1) = some c) (hset : Settable c) (hcd : Plain (sub com 1) e)
    (hm : dict.get (sub map 0) = some m) (hmw : m.writable = true) (hmd : Direct (sub map 0) e)
    (h : parseAndSet (strictDev nr nw) mem com map read write e = (e', .ok r))
    (hcfg : ∃ s, s ≤ 6 ∧ hasInit dict map s = true) (hc' : Plain (sub com 1) e') (hm' : Plain (sub map 0) e') :
    ∃ w, applyOffset .u32 c.value e.s.nodeId = .ok w ∧ e'.c.w.dev.store.cob com = w := by
  have h0 : Stg dict com map False False e := ⟨hs, hb, False.elim, False.elim⟩
  unfold parseAndSet at h
  bnd h with e1 u1 h1
  bnd h with e2 x h2
  dsimp only at h
  bnd h with e3 mc h3
  bnd h with e4 di h4
  bnd h with e5 u5 h5
  bnd h with e6 r6 h6
  bnd h with e7 u7 h7
  bnd h with e8 u8 h8
  obtain ⟨rfl, -⟩ := pure_ok h
  obtain ⟨rfl, d, hd, hx⟩ := descOf_ok h2
  have st1 := keep_ok (keep_stg_open hp mem _ _) h1 h0
  have pl1 := keep_ok (keep_open (plain_stable (strictDev nr nw) (sub com 1)) mem _ _) h1 hcd
  have di1 := keep_ok (keep_open (direct_stable (strictDev nr nw) (sub map 0)) mem _ _) h1 hmd
  have hmc : e3 = e2 ∧ (mapNum x ≤ 64 → mc = (List.range' 1 (mapNum x)).any fun s => hasInit dict map s) := by
    unfold mapChanged at h3
    by_cases hn : mapNum x ≤ 0x40
    · rw [if_pos hn] at h3
      injection h3 with a b
      injection b with b
      exact ⟨a.symm, fun _ => by rw [← b, st1.sound.isDict]⟩
    · rw [if_neg hn] at h3
      split at h3
      · injection h3 with a b
        exact ⟨a.symm, fun hx => (hn hx).elim⟩
      · cases h3
  obtain ⟨rfl, hmc⟩ := hmc
  have q4 : e4 = e3 ∧ di = e3.s.dict := by injection h4 with a b; injection b with b; exact ⟨a.symm, b.symm⟩
  obtain ⟨rfl, rfl⟩ := q4
  have hcom : comChanged e4.s.dict map = true := by
    obtain ⟨s, q1, q2⟩ := hcfg
    rw [st1.sound.isDict]
    unfold comChanged
    rw [List.any_eq_true]
    exact ⟨s, List.mem_range.2 (by omega), q2⟩
  rw [hcom] at h5 h7 h8
  have kn : e7.s.nodeId = e.s.nodeId := by
    have k1 := keep_ok (keep_open (kept_stable (strictDev nr nw) e).toStableOne mem _ _) h1 (.refl e)
    have k5 := keep_ok (keep_disable (kept_stable (strictDev nr nw) e).toStableOne mem _ _) h5 k1
    have k6 := keep_ok (keep_setMapping (kept_stable (strictDev nr nw) e) mem _ _ _ _ _) h6 k5
    have k7 := keep_ok (keep_setCom (kept_stable (strictDev nr nw) e).toStableOne mem _ _) h7 k6
    exact k7.node
  have st5 : Stg dict com map True False e5 := by
    have a := disable_strict (nr := nr) (nw := nw) hp mem (mc || true) st1 hc hset pl1
    rw [h5] at a
    exact Stg.weaken a (fun _ => by rw [Bool.or_true]) id
  have di5 := keep_ok (keep_disable (direct_stable (strictDev nr nw) (sub map 0)) mem _ _) h5 di1
  have st6 : Stg dict com map True False e6 := by
    have a := setMapping_strict (nr := nr) (nw := nw) hp mem read write (mapNum x) mc st5 hm hmw di5 (fun _ => trivial) hmc
    rw [h6] at a
    exact a
  have st7 := keep_ok (keep_stg_setCom hp mem _) h7 st6
  obtain ⟨g1, -⟩ := enable_applied hp mem (mapNum x) mc true st7 (by rw [Bool.or_true]) hc hset hm hmw h8 hc' hm'
  rw [kn] at g1
  exact g1

omit hp in
/-- a PDO with nothing configured at its mapping parameter is not touched -/
theorem parse_untouched (mem : Mem) (read write : Bool) {e : Env Strict} {m : Entry} (hs : Sound dict e)
    (hm : dict.get (sub map 0) = some m) (hn : mapNum m ≤ 64) (hcfg : ∀ s, s ≤ 6 ∨ s ≤ mapNum m → hasInit dict map s = false) :
    (parseAndSet (strictDev nr nw) mem com map read write e).1.c.w.dev = e.c.w.dev := by
  have hk : Keep (fun e' => Sound dict e' ∧ e'.c.w.dev = e.c.w.dev) (parseAndSet (strictDev nr nw) mem com map read write) := by
    have kget : ∀ k cached, Keep (fun e' => Sound dict e' ∧ e'.c.w.dev = e.c.w.dev) (getEntry (strictDev nr nw) k cached) := by
      intro k cached e1 h1
      refine ⟨keep_get (sound_stable _ dict).toStableOne k cached e1 h1.1, ?_⟩
      rw [← h1.2]
      unfold getEntry
      cases hd : e1.s.data k with
      | none => rfl
      | some d => exact calls_pdo (get_calls (pdoBus (strictDev nr nw)) d e1.c cached (.pdo 0)).2 (by simp)
    have kopen : ∀ k ty, Keep (fun e' => Sound dict e' ∧ e'.c.w.dev = e.c.w.dev) (openEntry mem k ty : Act Strict Unit) := by
      intro k ty e1 h1
      exact ⟨keep_open (sound_stable (strictDev nr nw) dict).toStableOne mem k ty e1 h1.1, h1.2⟩
    have kmap : ∀ p n, Keep (fun e' => Sound dict e' ∧ e'.c.w.dev = e.c.w.dev) (mapOne (strictDev nr nw) mem p n read write) := by
      intro p n e1 h1
      have a := holds_mapOne (nr := nr) (nw := nw) (dict := dict) (j := 0) (t := 0) mem p n read write e1 ⟨h1.1, rfl⟩
      refine ⟨a.1, ?_⟩
      rw [← h1.2]
      unfold mapOne
      split
      · rfl
      · split
        · have hmp := mapEntry_mapped (strictDev nr nw) mem p.index p.subIndex (if read then some n else none) n e1
          have := mapped_dev hmp
          rw [bind_run]
          revert this
          generalize mapEntry (strictDev nr nw) mem p.index p.subIndex (if read then some n else none) (some n) e1 = r
          obtain ⟨e', ou⟩ := r
          cases ou <;> exact id
        · rfl
    have kloop : ∀ subs dlc bufs, (∀ s ∈ subs, s ≤ mapNum m) →
        Keep (fun e' => Sound dict e' ∧ e'.c.w.dev = e.c.w.dev) (mapLoop (strictDev nr nw) mem map read write subs dlc bufs) := by
      intro subs
      induction subs with
      | nil => intro dlc bufs _; exact keep_pure _
      | cons s ss ih =>
        intro dlc bufs hle e1 h1
        unfold mapLoop
        refine (post_all (I := fun e' => Sound dict e' ∧ e'.c.w.dev = e.c.w.dev)).1 ?_
        refine post_bind (Q := fun _ e' => Sound dict e' ∧ e'.c.w.dev = e.c.w.dev) (post_all.2 (kopen _ _ e1 h1)) fun _ e2 h2 => ?_
        refine post_bind (Q := fun x e' => e' = e2 ∧ dict.get (sub map s) = some x) ?_ fun x e3 h3 => ?_
        · unfold dictAt
          rw [h2.1.isDict]
          cases hq : dict.get (sub map s) with
          | none => exact h2
          | some x => exact ⟨rfl, rfl⟩
        · obtain ⟨rfl, hx⟩ := h3
          have hno := hcfg s (.inr (hle s List.mem_cons_self))
          unfold hasInit at hno
          rw [hx] at hno
          dsimp only at hno
          have hset : setConfigured (strictDev nr nw) (sub map s) x.initVal = pure () := by
            unfold setConfigured
            cases hi : x.initVal with
            | val p => rw [hi] at hno; cases hno
            | none => rfl
            | empty t => rfl
          rw [hset]
          exact post_all.2 (keep_bind (keep_pure _) (fun _ => keep_bind (kget _ _) fun v => keep_bind (fun _ h => ⟨⟨h.1.cons, h.1.isDict, h.1.keys⟩, h.2⟩) fun n =>
            keep_bind (kmap _ _) fun _ => keep_bind (fun _ h => ⟨⟨h.1.cons, h.1.isDict, h.1.keys⟩, h.2⟩) fun _ =>
              ih _ _ (fun t ht => hle t (List.mem_cons_of_mem _ ht))) e3 h2)
    intro e1 he1
    refine (post_all (I := fun e' => Sound dict e' ∧ e'.c.w.dev = e.c.w.dev)).1 ?_
    unfold parseAndSet
    refine post_bind (Q := fun _ e' => Sound dict e' ∧ e'.c.w.dev = e.c.w.dev) (post_all.2 (kopen _ _ e1 he1)) fun _ e2 h2 => ?_
    refine post_bind (Q := fun x e' => e' = e2 ∧ x = m) ?_ fun x e3 h3 => ?_
    · unfold descOf
      cases hd : e2.s.data (sub map 0) with
      | none => exact h2
      | some d =>
        refine ⟨rfl, ?_⟩
        have := h2.1.cons _ _ hd
        rw [h2.1.isDict, hm] at this
        injection this with this; exact this.symm
    · obtain ⟨rfl, rfl⟩ := h3
      dsimp only
      refine post_bind (Q := fun mc e' => e' = e3 ∧ mc = false) ?_ fun mc e4 h4 => ?_
      · unfold mapChanged
        rw [if_pos hn]
        refine ⟨rfl, ?_⟩
        rw [h2.1.isDict, List.any_eq_false]
        intro s hs'
        rw [List.mem_range'] at hs'
        obtain ⟨i, a, b⟩ := hs'
        rw [hcfg s (.inr (by omega))]
        simp
      · obtain ⟨rfl, rfl⟩ := h4
        refine post_bind (Q := fun di e' => e' = e4 ∧ di = e4.s.dict) ⟨rfl, rfl⟩ fun di e5 h5 => ?_
        obtain ⟨rfl, rfl⟩ := h5
        have hcom : comChanged e5.s.dict map = false := by
          rw [h2.1.isDict]
          unfold comChanged
          rw [List.any_eq_false]
          intro s hs'
          rw [hcfg s (.inl (by have := List.mem_range.1 hs'; omega))]
          simp
        rw [hcom]
        refine post_all.2 ((?_ : Keep (fun e' => Sound dict e' ∧ e'.c.w.dev = e.c.w.dev) _) e5 h2)
        refine keep_bind ?_ (fun _ => keep_bind ?_ fun _ => keep_bind ?_ fun _ => keep_bind ?_ fun _ => keep_pure _)
        · unfold disable
          exact keep_bind (kopen _ _) fun _ => keep_bind (keep_descOf _) fun x => keep_pure _
        · unfold setMapping
          refine keep_ite (fun _ => ?_) (fun _ => keep_pure _)
          refine keep_bind (keep_pure _) fun _ => kloop _ _ _ ?_
          intro s hs'
          rw [List.mem_range'] at hs'
          obtain ⟨i, a, b⟩ := hs'
          omega
        · exact keep_pure _
        · unfold enable
          exact keep_bind (keep_pure _) fun _ => keep_bind (keep_descOf _) fun x => keep_pure _
  exact (hk e ⟨hs, rfl⟩).2

/-- what a set-up that ends normally leaves on the device -/
theorem parse_applied (mem : Mem) (read write : Bool) (hrw : (read || write) = true) {e e' : Env Strict} {r : Byte × List Nat} {c m : Entry}
    (hs : Sound dict e) (hb : e.c.w.dev.broken = false)
    (hc : dict.get (sub com 1) = some c) (hset : Settable c) (hcd : Plain (sub com 1) e)
    (hm : dict.get (sub map 0) = some m) (hmw : m.writable = true) (hmd : Direct (sub map 0) e)
    (h : parseAndSet (strictDev nr nw) mem com map read write e = (e', .ok r)) (hn : mapNum m ≤ 64)
    (hcfg : ∃ s, 1 ≤ s ∧ s ≤ mapNum m ∧ hasInit dict map s = true) (hc' : Plain (sub com 1) e') (hm' : Plain (sub map 0) e') :
    (∃ w, applyOffset .u32 c.value e.s.nodeId = .ok w ∧ e'.c.w.dev.store.cob com = w) ∧
    (∃ rest, e'.c.w.dev.store map 0 = BitVec.ofNat 8 (mapNum m) :: rest) ∧
    (∀ s x p w, 1 ≤ s → s ≤ mapNum m → dict.get (sub map s) = some x → x.writable = true → x.initVal = .val p → x.initVal.getInt .u32 = .ok w →
      Plain (sub map s) e' → ∃ rest, e'.c.w.dev.store map (BitVec.ofNat 8 s) = bytes32 w ++ rest) := by
  obtain ⟨f1, f2, f3, f4, f5, f6⟩ := pair_facts hp
  have h0 : Stg dict com map False False e := ⟨hs, hb, False.elim, False.elim⟩
  unfold parseAndSet at h
  bnd h with e1 u1 h1
  bnd h with e2 x h2
  dsimp only at h
  bnd h with e3 mc h3
  bnd h with e4 di h4
  bnd h with e5 u5 h5
  bnd h with e6 r6 h6
  bnd h with e7 u7 h7
  bnd h with e8 u8 h8
  obtain ⟨rfl, -⟩ := pure_ok h
  obtain ⟨rfl, d, hd, hx⟩ := descOf_ok h2
  have st1 := keep_ok (keep_stg_open hp mem _ _) h1 h0
  have pl1 := keep_ok (keep_open (plain_stable (strictDev nr nw) (sub com 1)) mem _ _) h1 hcd
  have di1 := keep_ok (keep_open (direct_stable (strictDev nr nw) (sub map 0)) mem _ _) h1 hmd
  have hxm : x = m := by
    have := st1.sound.cons _ _ hd
    rw [st1.sound.isDict, hm] at this
    rw [← hx]; injection this with this; exact this.symm
  subst hxm
  have hmc : e3 = e2 ∧ mc = true := by
    unfold mapChanged at h3
    rw [if_pos hn] at h3
    injection h3 with a b
    injection b with b
    refine ⟨a.symm, ?_⟩
    rw [← b, st1.sound.isDict, List.any_eq_true]
    obtain ⟨s, q1, q2, q3⟩ := hcfg
    refine ⟨s, ?_, q3⟩
    rw [List.mem_range']
    exact ⟨s - 1, by omega, by omega⟩
  obtain ⟨rfl, rfl⟩ := hmc
  have q4 : e4 = e3 := by injection h4 with a b; exact a.symm
  subst q4
  have hnum : 0 < mapNum x := by obtain ⟨s, q1, q2, -⟩ := hcfg; omega
  have kn : e7.s.nodeId = e.s.nodeId := by
    have k1 := keep_ok (keep_open (kept_stable (strictDev nr nw) e).toStableOne mem _ _) h1 (.refl e)
    have k5 := keep_ok (keep_disable (kept_stable (strictDev nr nw) e).toStableOne mem _ _) h5 k1
    have k6 := keep_ok (keep_setMapping (kept_stable (strictDev nr nw) e) mem _ _ _ _ _) h6 k5
    have k7 := keep_ok (keep_setCom (kept_stable (strictDev nr nw) e).toStableOne mem _ _) h7 k6
    exact k7.node
  have st5 : Stg dict com map True False e5 := by
    have a := disable_strict (nr := nr) (nw := nw) hp mem (true || comChanged di map) st1 hc hset pl1
    rw [h5] at a
    exact Stg.weaken a (fun _ => rfl) id
  have di5 := keep_ok (keep_disable (direct_stable (strictDev nr nw) (sub map 0)) mem _ _) h5 di1
  have st6 : Stg dict com map True False e6 := by
    have a := setMapping_strict (nr := nr) (nw := nw) hp mem read write (mapNum x) true st5 hm hmw di5 (fun _ => trivial) (fun _ => by
      obtain ⟨s, q1, q2, q3⟩ := hcfg
      symm
      rw [List.any_eq_true]
      exact ⟨s, by rw [List.mem_range']; exact ⟨s - 1, by omega, by omega⟩, q3⟩)
    rw [h6] at a
    exact a
  have st7 := keep_ok (keep_stg_setCom hp mem _) h7 st6
  obtain ⟨g1, g2⟩ := enable_applied hp mem (mapNum x) true _ st7 (by rw [Bool.true_or]) hc hset hm hmw h8 hc' hm'
  have g2 := g2 rfl
  rw [kn] at g1
  refine ⟨g1, g2, ?_⟩
  intro s y p w q1 q2 hy hyw hyp hyv hpl
  -- the mapping loop
  have hne0 : ¬ (map = map ∧ BitVec.ofNat 8 s = 0) := by
    intro hc
    have h1 := congrArg BitVec.toNat hc.2
    rw [BitVec.toNat_ofNat] at h1
    have : s % 2 ^ 8 = 0 := h1
    omega
  unfold setMapping at h6
  rw [if_pos ⟨hnum, hn⟩] at h6
  bnd h6 with e9 u9 h9
  have st9 : Stg dict com map True True e9 := by
    unfold onlyIf at h9
    rw [if_pos rfl] at h9
    have o9 := setEntry_one (strictDev nr nw) (sub map 0) [0#8] e5
    rw [h9] at o9
    have a := stg_count hp st5 o9
    refine ⟨a.sound, a.fine, a.off, fun _ => ?_⟩
    cases hd : e5.s.data (sub map 0) with
    | none => unfold setEntry at h9; rw [hd] at h9; cases h9
    | some d =>
      have hen := st5.sound.cons _ _ hd
      rw [st5.sound.isDict, hm] at hen
      have hen : d.entry = x := by injection hen with hen; exact hen.symm
      obtain ⟨hi, hsi⟩ := sound_entry st5.sound.keys hm
      obtain ⟨-, b⟩ := set_strict hd (di5 d hd) (by rw [hen]; exact hmw) (by
        intro rest
        unfold Contents.forbids
        rw [hen, hi, hsi, f4, f5, st5.off trivial]
        simp) h9
      obtain ⟨rest, hr⟩ := b _ rfl
      rw [hr]
      unfold Contents.unmapped Contents.write
      rw [hen, hi, hsi, if_pos ⟨rfl, rfl⟩]
      rfl
  have p6 : Plain (sub map s) e6 := by
    apply Classical.byContradiction
    intro hn
    have st : StableOne (strictDev nr nw) (fun e => ¬ Plain (sub map s) e) := ⟨fun k e e' h h' hp => h (plain_back_one h' hp)⟩
    exact keep_ok (keep_enable st mem com map _ _ _) h8 (keep_ok (keep_setCom st mem com _) h7 hn) hpl
  obtain ⟨rest, hrest⟩ := mapLoop_applied hp mem read write hrw hy hyw hyp hyv (List.range' 1 (mapNum x)) List.nodup_range' (by
    intro t ht
    rw [List.mem_range'] at ht
    obtain ⟨i, a, b⟩ := ht
    omega) _ _ _ _ _ (by rw [List.mem_range']; exact ⟨s - 1, by omega, by omega⟩) st9 h6 p6
  refine ⟨rest, ?_⟩
  have a6 : HoldsAt dict map (BitVec.ofNat 8 s) (bytes32 w ++ rest) e6 := ⟨st6.sound, hrest⟩
  have a7 := keep_ok (holds_setCom mem _ f6.symm) h7 a6
  exact (keep_ok (holds_enable mem _ _ _ f6.symm hne0) h8 a7).2

end

/-! ## The whole set-up -/

theorem notPlain_stable (dv : Dev Strict) (k : Key) : Stable dv (fun e => ¬ Plain k e) where
  one k' e e' h h' hp := h (plain_back_one h' hp)
  map r w e e' h _ _ h' hp := by
    cases h' with
    | none h' => subst h'; exact h hp
    | change k' d d' hd hen hty hrd hwr hpd c' hc he =>
      subst he
      by_cases hk : k = k'
      · subst hk
        exact hpd (hp d' (put_same _ _ _))
      · exact h fun d2 h2 => hp d2 (by dsimp only; rw [put_other _ _ hk]; exact h2)
  new _ _ h := h
  clean _ _ h := h

theorem keep_create {I : Env Strict → Prop} (hf : ∀ ns e, I e → I (freeBufs ns e)) {m : Act Strict (Option Rec)} (hm : Keep I m) : Keep I (create m) := by
  intro e he
  have h := hm e he
  unfold create
  dsimp only
  split
  · exact h
  · exact hf _ _ h

section
variable {nr nw : Entry → List Byte → Contents → Option Nat} (mem : Mem) (junk : Vector Byte 8)

theorem keep_rpdoLoop {I : Env Strict → Prop} (hI : Stable (strictDev nr nw) I) (hf : ∀ ns e, I e → I (freeBufs ns e))
    (hr : ∀ e l, I e → I { e with rpdos := l }) (n : Nat) (is : List Nat) : Keep I (rpdoLoop (strictDev nr nw) mem junk n is) := by
  induction is with
  | nil => exact keep_pure _
  | cons i is ih =>
    intro e he
    unfold rpdoLoop
    dsimp only
    split
    · split
      · exact ih e he
      · have h := keep_create hf (keep_rpdoInit hI mem junk (0x1800#16 + BitVec.ofNat 16 i) (0x1A00#16 + BitVec.ofNat 16 i)) e he
        revert h
        generalize create (rpdoInit (strictDev nr nw) mem junk (0x1800#16 + BitVec.ofNat 16 i) (0x1A00#16 + BitVec.ofNat 16 i)) e = r
        obtain ⟨e', o⟩ := r
        intro h
        cases o with
        | ok o =>
          cases o with
          | some x => exact ih _ (hr _ _ h)
          | none => exact ih _ h
        | throws x => exact h
        | ub => exact h
    · exact he

theorem keep_tpdoLoop {I : Env Strict → Prop} (hI : Stable (strictDev nr nw) I) (hf : ∀ ns e, I e → I (freeBufs ns e))
    (hr : ∀ e l, I e → I { e with tpdos := l }) (n : Nat) (is : List Nat) : Keep I (tpdoLoop (strictDev nr nw) mem junk n is) := by
  induction is with
  | nil => exact keep_pure _
  | cons i is ih =>
    intro e he
    unfold tpdoLoop
    dsimp only
    split
    · split
      · exact ih e he
      · have h := keep_create hf (keep_tpdoInit hI mem junk (0x1400#16 + BitVec.ofNat 16 i) (0x1600#16 + BitVec.ofNat 16 i)) e he
        revert h
        generalize create (tpdoInit (strictDev nr nw) mem junk (0x1400#16 + BitVec.ofNat 16 i) (0x1600#16 + BitVec.ofNat 16 i)) e = r
        obtain ⟨e', o⟩ := r
        intro h
        cases o with
        | ok o =>
          cases o with
          | some x => exact ih _ (hr _ _ h)
          | none => exact ih _ h
        | throws x => exact h
        | ub => exact h
    · exact he

/-- sound, and nothing forbidden was tried -/
def Fine (dict : Dict) (e : Env Strict) : Prop := Sound dict e ∧ e.c.w.dev.broken = false

theorem back {I : Env Strict → Prop} {α : Type} {m : Act Strict α} (hk : Keep (fun e => ¬ I e) m) {e : Env Strict} (h : I (m e).1) : I e :=
  Classical.byContradiction fun hn => hk e hn h

theorem fine_rpdo {dict : Dict} {com map : BitVec 16} (hp : IsPair com map) (hg : Proper dict com map) {e : Env Strict} (h : Fine dict e)
    (h1 : Plain (sub com 1) (create (rpdoInit (strictDev nr nw) mem junk com map) e).1)
    (h2 : Plain (sub map 0) (create (rpdoInit (strictDev nr nw) mem junk com map) e).1) :
    Fine dict (create (rpdoInit (strictDev nr nw) mem junk com map) e).1 := by
  obtain ⟨c, m, g1, g2, g3, g4⟩ := hg
  have b1 := back (keep_create (fun _ _ h => h) (keep_rpdoInit (notPlain_stable _ (sub com 1)) mem junk com map)) h1
  have b2 := back (keep_create (fun _ _ h => h) (keep_rpdoInit (notPlain_stable _ (sub map 0)) mem junk com map)) h2
  have := rpdo_strict (nr := nr) (nw := nw) hp mem junk h.1 h.2 g1 g2 b1 g3 g4 (fun d hd => (b2 d hd).2)
  unfold create
  dsimp only
  split
  · exact ⟨this.sound, this.fine⟩
  · exact ⟨⟨this.sound.cons, this.sound.isDict, this.sound.keys⟩, this.fine⟩

theorem fine_tpdo {dict : Dict} {com map : BitVec 16} (hp : IsPair com map) (hg : Proper dict com map) {e : Env Strict} (h : Fine dict e)
    (h1 : Plain (sub com 1) (create (tpdoInit (strictDev nr nw) mem junk com map) e).1)
    (h2 : Plain (sub map 0) (create (tpdoInit (strictDev nr nw) mem junk com map) e).1) :
    Fine dict (create (tpdoInit (strictDev nr nw) mem junk com map) e).1 := by
  obtain ⟨c, m, g1, g2, g3, g4⟩ := hg
  have b1 := back (keep_create (fun _ _ h => h) (keep_tpdoInit (notPlain_stable _ (sub com 1)) mem junk com map)) h1
  have b2 := back (keep_create (fun _ _ h => h) (keep_tpdoInit (notPlain_stable _ (sub map 0)) mem junk com map)) h2
  have := tpdo_strict (nr := nr) (nw := nw) hp mem junk h.1 h.2 g1 g2 b1 g3 g4 (fun d hd => (b2 d hd).2)
  unfold create
  dsimp only
  split
  · exact ⟨this.sound, this.fine⟩
  · exact ⟨⟨this.sound.cons, this.sound.isDict, this.sound.keys⟩, this.fine⟩

theorem rpdoLoop_strict {dict : Dict} (n : Nat) (is : List Nat) : (∀ i ∈ is, i < 512) → ∀ e, Fine dict e →
    (∀ i ∈ is, present dict (sends i).1 (sends i).2 = true → Proper dict (sends i).1 (sends i).2 ∧
      Plain (sub (sends i).1 1) (rpdoLoop (strictDev nr nw) mem junk n is e).1 ∧ Plain (sub (sends i).2 0) (rpdoLoop (strictDev nr nw) mem junk n is e).1) →
    Fine dict (rpdoLoop (strictDev nr nw) mem junk n is e).1 := by
  induction is with
  | nil => intro _ e he _; exact he
  | cons i is ih =>
    intro hlt e he hH
    have hlt' : ∀ j ∈ is, j < 512 := fun j hj => hlt j (List.mem_cons_of_mem _ hj)
    have hi := hH i List.mem_cons_self
    have hH' := fun j hj => hH j (List.mem_cons_of_mem _ hj)
    unfold rpdoLoop at hi hH' ⊢
    dsimp only at hi hH' ⊢
    have hpl : ∀ (k : Key) (e1 : Env Strict), Plain k (rpdoLoop (strictDev nr nw) mem junk n is e1).1 → Plain k e1 := fun k e1 =>
      back (keep_rpdoLoop mem junk (notPlain_stable _ k) (fun _ _ h => h) (fun _ _ h => h) n is)
    by_cases hn : e.rpdos.length < n
    · simp only [if_pos hn] at hi hH' ⊢
      by_cases hq : (!present e.s.dict (0x1800#16 + BitVec.ofNat 16 i) (0x1A00#16 + BitVec.ofNat 16 i)) = true
      · simp only [if_pos hq] at hH' ⊢
        exact ih hlt' e he hH'
      · simp only [if_neg hq] at hi hH' ⊢
        have hpr : present dict (sends i).1 (sends i).2 = true := by
          rw [← he.1.isDict]
          simpa [sends] using hq
        obtain ⟨hg, hA, hB⟩ := hi hpr
        have hf := fine_rpdo (nr := nr) (nw := nw) mem junk ⟨i, hlt i List.mem_cons_self, .inl rfl⟩ hg he
        revert hA hB hH' hf
        unfold sends
        dsimp only
        generalize create (rpdoInit (strictDev nr nw) mem junk (0x1800#16 + BitVec.ofNat 16 i) (0x1A00#16 + BitVec.ofNat 16 i)) e = r
        obtain ⟨e', o⟩ := r
        intro hH' hA hB hf
        cases o with
        | ok o =>
          cases o with
          | some x =>
            have h1 := hf (fun d hd => hpl _ _ hA d hd) (fun d hd => hpl _ _ hB d hd)
            exact ih hlt' _ ⟨⟨h1.1.cons, h1.1.isDict, h1.1.keys⟩, h1.2⟩ hH'
          | none => exact ih hlt' _ (hf (hpl _ _ hA) (hpl _ _ hB)) hH'
        | throws x => exact hf hA hB
        | ub => exact hf hA hB
    · simp only [if_neg hn]
      exact he

theorem tpdoLoop_strict {dict : Dict} (n : Nat) (is : List Nat) : (∀ i ∈ is, i < 512) → ∀ e, Fine dict e →
    (∀ i ∈ is, present dict (receives i).1 (receives i).2 = true → Proper dict (receives i).1 (receives i).2 ∧
      Plain (sub (receives i).1 1) (tpdoLoop (strictDev nr nw) mem junk n is e).1 ∧ Plain (sub (receives i).2 0) (tpdoLoop (strictDev nr nw) mem junk n is e).1) →
    Fine dict (tpdoLoop (strictDev nr nw) mem junk n is e).1 := by
  induction is with
  | nil => intro _ e he _; exact he
  | cons i is ih =>
    intro hlt e he hH
    have hlt' : ∀ j ∈ is, j < 512 := fun j hj => hlt j (List.mem_cons_of_mem _ hj)
    have hi := hH i List.mem_cons_self
    have hH' := fun j hj => hH j (List.mem_cons_of_mem _ hj)
    unfold tpdoLoop at hi hH' ⊢
    dsimp only at hi hH' ⊢
    have hpl : ∀ (k : Key) (e1 : Env Strict), Plain k (tpdoLoop (strictDev nr nw) mem junk n is e1).1 → Plain k e1 := fun k e1 =>
      back (keep_tpdoLoop mem junk (notPlain_stable _ k) (fun _ _ h => h) (fun _ _ h => h) n is)
    by_cases hn : e.tpdos.length < n
    · simp only [if_pos hn] at hi hH' ⊢
      by_cases hq : (!present e.s.dict (0x1400#16 + BitVec.ofNat 16 i) (0x1600#16 + BitVec.ofNat 16 i)) = true
      · simp only [if_pos hq] at hH' ⊢
        exact ih hlt' e he hH'
      · simp only [if_neg hq] at hi hH' ⊢
        have hpr : present dict (receives i).1 (receives i).2 = true := by
          rw [← he.1.isDict]
          simpa [receives] using hq
        obtain ⟨hg, hA, hB⟩ := hi hpr
        have hf := fine_tpdo (nr := nr) (nw := nw) mem junk ⟨i, hlt i List.mem_cons_self, .inr rfl⟩ hg he
        revert hA hB hH' hf
        unfold receives
        dsimp only
        generalize create (tpdoInit (strictDev nr nw) mem junk (0x1400#16 + BitVec.ofNat 16 i) (0x1600#16 + BitVec.ofNat 16 i)) e = r
        obtain ⟨e', o⟩ := r
        intro hH' hA hB hf
        cases o with
        | ok o =>
          cases o with
          | some x =>
            have h1 := hf (fun d hd => hpl _ _ hA d hd) (fun d hd => hpl _ _ hB d hd)
            exact ih hlt' _ ⟨⟨h1.1.cons, h1.1.isDict, h1.1.keys⟩, h1.2⟩ hH'
          | none => exact ih hlt' _ (hf (hpl _ _ hA) (hpl _ _ hB)) hH'
        | throws x => exact hf hA hB
        | ub => exact hf hA hB
    · simp only [if_neg hn]
      exact he

theorem mapperInit_strict {dict : Dict} (nrTx nrRx : Nat) {e : Env Strict} (he : Fine dict e)
    (h1 : ∀ i < 512, present dict (sends i).1 (sends i).2 = true → Proper dict (sends i).1 (sends i).2 ∧
      Plain (sub (sends i).1 1) (mapperInit (strictDev nr nw) mem junk nrTx nrRx e).1 ∧ Plain (sub (sends i).2 0) (mapperInit (strictDev nr nw) mem junk nrTx nrRx e).1)
    (h2 : ∀ i < 512, present dict (receives i).1 (receives i).2 = true → Proper dict (receives i).1 (receives i).2 ∧
      Plain (sub (receives i).1 1) (mapperInit (strictDev nr nw) mem junk nrTx nrRx e).1 ∧ Plain (sub (receives i).2 0) (mapperInit (strictDev nr nw) mem junk nrTx nrRx e).1) :
    Fine dict (mapperInit (strictDev nr nw) mem junk nrTx nrRx e).1 := by
  have hsame : (mapperInit (strictDev nr nw) mem junk nrTx nrRx e).1 = (initBody (strictDev nr nw) mem junk nrTx nrRx e).1 := by
    unfold mapperInit
    generalize initBody (strictDev nr nw) mem junk nrTx nrRx e = r
    obtain ⟨e', o⟩ := r
    cases o with
    | ok u => rfl
    | throws x => cases x <;> rfl
    | ub => rfl
  rw [hsame] at h1 h2 ⊢
  unfold initBody at h1 h2 ⊢
  simp only [bind_run, clearRpdos] at h1 h2 ⊢
  have hmem : ∀ i, i ∈ List.range 512 → i < 512 := fun i hi => List.mem_range.1 hi
  revert h1 h2 hmem
  generalize List.range 512 = is
  intro h1 h2 hmem
  have he0 : Fine dict { freeBufs (e.rpdos.flatMap (·.bufs)) e with rpdos := [] } := ⟨⟨he.1.cons, he.1.isDict, he.1.keys⟩, he.2⟩
  generalize ({ freeBufs (e.rpdos.flatMap (·.bufs)) e with rpdos := [] } : Env Strict) = e0 at *
  have hr := rpdoLoop_strict (nr := nr) (nw := nw) mem junk nrTx is hmem e0 he0
  revert h1 h2 hr
  generalize rpdoLoop (strictDev nr nw) mem junk nrTx is e0 = r
  obtain ⟨e1, o⟩ := r
  intro h1 h2 hr
  cases o with
  | throws x => exact hr fun i hi => h1 i (hmem i hi)
  | ub => exact hr fun i hi => h1 i (hmem i hi)
  | ok u =>
    dsimp only [clearTpdos] at h1 h2 ⊢
    have hpl : ∀ (k : Key) (e2 : Env Strict), Plain k (tpdoLoop (strictDev nr nw) mem junk nrRx is e2).1 → Plain k e2 := fun k e2 =>
      back (keep_tpdoLoop mem junk (notPlain_stable _ k) (fun _ _ h => h) (fun _ _ h => h) nrRx _)
    have h := hr fun i hi hq => by
      obtain ⟨a, b, c⟩ := h1 i (hmem i hi) hq
      exact ⟨a, fun d hd => hpl _ _ b d hd, fun d hd => hpl _ _ c d hd⟩
    refine tpdoLoop_strict (nr := nr) (nw := nw) mem junk nrRx is hmem _ ?_ (fun i hi => h2 i (hmem i hi))
    exact ⟨⟨h.1.cons, h.1.isDict, h.1.keys⟩, h.2⟩

end

end Verif.PdoInit
