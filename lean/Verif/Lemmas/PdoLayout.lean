import Verif.Lemmas.PdoOrder

/-!
# Lemmas: the layout of a PDO after its set-up
-/

set_option linter.unusedSimpArgs false

namespace Verif.PdoInit
open Verif Verif.OD Verif.Pdo Verif.Spec

variable {D : Type} {α β : Type}

/-! ## Words -/

theorem ofWord_index (w : BitVec 32) : (PdoMap.ofWord w).index = wordIndex w := by
  apply BitVec.eq_of_toNat_eq
  simp only [PdoMap.ofWord, wordIndex, BitVec.toNat_setWidth, BitVec.toNat_ushiftRight, BitVec.extractLsb'_toNat]

theorem ofWord_sub (w : BitVec 32) : (PdoMap.ofWord w).subIndex = wordSub w := by
  apply BitVec.eq_of_toNat_eq
  simp only [PdoMap.ofWord, wordSub, BitVec.toNat_setWidth, BitVec.toNat_and, BitVec.toNat_ushiftRight, BitVec.toNat_ofNat, BitVec.extractLsb'_toNat]
  rw [show (0xFF : Nat) % 2 ^ 32 = 2 ^ 8 - 1 by decide, Nat.and_two_pow_sub_one_eq_mod]
  omega

theorem ofWord_length (w : BitVec 32) : (PdoMap.ofWord w).length.toNat / 8 = wordBytes w := by
  unfold wordBytes
  simp only [PdoMap.ofWord, BitVec.toNat_setWidth, BitVec.toNat_and, BitVec.toNat_ofNat]
  rw [show (0xFF : Nat) % 2 ^ 32 = 2 ^ 8 - 1 by decide, Nat.and_two_pow_sub_one_eq_mod]
  omega

/-! ## Buffers keep their size -/

/-- buffer `n` was allocated and has its size -/
def BufAt (n size : Nat) (e : Env D) : Prop := n < e.c.w.next ∧ HasBuffer n size e

/-- the buffer `n` of a world -/
def WBuf (n size : Nat) (w : PW D) : Prop := ∃ b, w.heap n = some b ∧ b.size = size ∧ b.buffer.length = size

theorem read_wbuf {dv : Dev D} {n size : Nat} {w : PW D} (h : WBuf n size w) (d : Dlg) (en : Entry) (bs : List Byte) : WBuf n size (busRead dv d en bs w).1 := by
  unfold busRead
  cases d with
  | dev => exact h
  | pdo m =>
    dsimp only
    cases hb : w.heap m with
    | none => exact h
    | some b =>
      dsimp only
      cases hr : b.readEntry bs with
      | throws x => exact h
      | ub => exact h
      | ok p =>
        obtain ⟨b', d'⟩ := p
        dsimp only
        obtain ⟨b0, h0, h1, h2⟩ := h
        by_cases hnm : n = m
        · subst hnm
          rw [hb] at h0
          injection h0 with h0
          subst h0
          refine ⟨b', by simp [PW.setBuf], ?_⟩
          unfold Buffer.readEntry at hr
          split at hr
          · cases hr
          · split at hr
            · cases hr
            · split at hr
              · injection hr with hr; injection hr with hr; rw [← hr]; exact ⟨h1, h2⟩
              · injection hr with hr; injection hr with hr; rw [← hr]; exact ⟨h1, h2⟩
        · exact ⟨b0, by simp [PW.setBuf, hnm, h0], h1, h2⟩

theorem write_wbuf {dv : Dev D} {n size : Nat} {w : PW D} (h : WBuf n size w) (d : Dlg) (en : Entry) (bs : List Byte) : WBuf n size (busWrite dv d en bs w).1 := by
  unfold busWrite
  cases d with
  | dev => exact h
  | pdo m =>
    dsimp only
    cases hb : w.heap m with
    | none => exact h
    | some b =>
      dsimp only
      cases hr : b.writeEntry bs with
      | throws x => exact h
      | ub => exact h
      | ok b' =>
        dsimp only
        obtain ⟨b0, h0, h1, h2⟩ := h
        by_cases hnm : n = m
        · subst hnm
          rw [hb] at h0
          injection h0 with h0
          subst h0
          refine ⟨b', by simp [PW.setBuf], ?_⟩
          unfold Buffer.writeEntry at hr
          split at hr
          · cases hr
          · rename_i hsz
            injection hr with hr
            rw [← hr]
            refine ⟨h1, ?_⟩
            dsimp only
            have : b.size = bs.length := by simpa using hsz
            omega
        · exact ⟨b0, by simp [PW.setBuf, hnm, h0], h1, h2⟩

theorem calls_wbuf {dv : Dev D} {n size : Nat} {en : Entry} {rd wr : Dlg} {c c' : Ctx (PW D)} (h : Calls (pdoBus dv) en rd wr c c') (hb : WBuf n size c.w) :
    WBuf n size c'.w := by
  induction h with
  | refl => exact hb
  | read b _ ih => exact read_wbuf ih _ _ _
  | write b _ ih => exact write_wbuf ih _ _ _

theorem buf_stable (dv : Dev D) (n size : Nat) : Stable dv (BufAt (D := D) n size) where
  one k e e' h h' := by
    cases h' with
    | none h' => subst h'; exact h
    | change d d' hd hs c' hc he => subst he; exact ⟨by rw [calls_next hc]; exact h.1, calls_wbuf hc h.2⟩
  map r w e e' h _ _ h' := by
    cases h' with
    | none h' => subst h'; exact h
    | change k d d' hd hen hty hrd hwr hpd c' hc he => subst he; exact ⟨by rw [calls_next hc]; exact h.1, calls_wbuf hc h.2⟩
  new sz e h := by
    obtain ⟨h0, b, h1, h2⟩ := h
    refine ⟨Nat.lt_succ_of_lt h0, b, ?_, h2⟩
    simp only [newBuf, PW.setBuf]
    rw [if_neg (by omega)]
    exact h1
  clean m e h := by
    obtain ⟨h0, b, h1, h2⟩ := h
    simp only [cleanBuf, PW.setBuf]
    by_cases hm : n = m
    · subst hm
      exact ⟨h0, b.clean, by simp [h1], h2⟩
    · exact ⟨h0, b, by simp [hm, h1], h2⟩

/-! ## Delegates -/

theorem uses_stable (dv : Dev D) (k : Key) (r w : Dlg) : StableOne dv (Uses (D := D) k r w) where
  one k' e e' h h' := by
    cases h' with
    | none h' => subst h'; exact h
    | change d d' hd hs c' hc he =>
      subst he
      obtain ⟨d0, h0, h1, h2⟩ := h
      by_cases hk : k = k'
      · subst hk
        rcases hd with hd | hd
        · rw [hd] at h0; injection h0 with h0; subst h0
          exact ⟨d', put_same _ _ _, by rw [hs.rd]; exact h1, by rw [hs.wr]; exact h2⟩
        · rw [hd.1] at h0; cases h0
      · exact ⟨d0, by rw [put_other _ _ hk]; exact h0, h1, h2⟩

theorem mapKey_ok {W : Type} (bus : Bus W) (mem : Mem) (s : Storage) (k : Key) (en : Entry) (n : Nat) (read : Bool) (c : Ctx W) (l : Nat)
    (h : (s.mapKey bus mem k en (if read then some n else none) (some n) c).2.2 = .ok l) :
    (∃ d', (s.mapKey bus mem k en (if read then some n else none) (some n) c).1.data k = some d' ∧
      (read = true → d'.rd = .pdo n ∧ d'.wr = .dev) ∧ (read = false → d'.rd = .dev ∧ d'.wr = .pdo n)) := by
  unfold Storage.mapKey at h ⊢
  dsimp only at h ⊢
  split at h
  · cases h
  · cases h
  · rename_i d hd
    obtain ⟨f1, -⟩ := forceWrite_calls bus (d.setDelegates .dev (.pdo n)) c
    cases read with
    | true =>
      simp only [if_true] at h ⊢
      cases hq : ((d.setDelegates .dev (.pdo n)).forceWrite bus c).2.2 with
      | ok u => exact ⟨_, put_same _ _ _, fun _ => ⟨rfl, rfl⟩, fun hx => by cases hx⟩
      | throws x => rw [hq] at h; cases h
      | ub => rw [hq] at h; cases h
    | false =>
      simp only [Bool.false_eq_true, if_false] at h ⊢
      cases hq : ((d.setDelegates .dev (.pdo n)).forceWrite bus c).2.2 with
      | ok u => exact ⟨_, put_same _ _ _, (fun hx => by cases hx), fun _ => ⟨f1.rd, f1.wr⟩⟩
      | throws x => rw [hq] at h; cases h
      | ub => rw [hq] at h; cases h

theorem mapKey_other {W : Type} (bus : Bus W) (mem : Mem) (s : Storage) (k k' : Key) (en : Entry) (r : Option Nat) (n : Nat) (c : Ctx W) (hk : k' ≠ k) :
    (s.mapKey bus mem k en r (some n) c).1.data k' = s.data k' := by
  rcases mapKey_calls bus mem s c k en r n with ⟨h1, -⟩ | ⟨d, d', -, -, -, -, -, -, h5, -⟩
  · rw [h1]
  · rw [h5, put_other _ _ hk]

/-- one mapped object -/
theorem mapOne_ok (dv : Dev D) (mem : Mem) (w : BitVec 32) (n : Nat) (read write : Bool) (e e' : Env D) (u : Unit) (hrw : (read || write) = true)
    (h : mapOne dv mem (PdoMap.ofWord w) n read write e = (e', .ok u)) :
    ((wordIndex w).toNat < 0x1000 ∨ ∃ k, mappedKey e.s.dict w = some k) ∧
    (∀ k, mappedKey e.s.dict w = some k → Uses k (if read then .pdo n else .dev) (if read then .dev else .pdo n) e') ∧
    (∀ k', mappedKey e.s.dict w ≠ some k' → e'.s.data k' = e.s.data k') := by
  unfold mapOne at h
  rw [ofWord_index, ofWord_sub] at h
  by_cases hi : (wordIndex w).toNat < 0x1000
  · rw [if_pos hi] at h
    obtain ⟨rfl, -⟩ := pure_ok h
    have : mappedKey e'.s.dict w = none := by unfold mappedKey; rw [if_pos hi]
    rw [this]
    exact ⟨.inl hi, fun k hk => by (cases hk), fun _ _ => rfl⟩
  · rw [if_neg hi, if_pos hrw] at h
    bnd h with e1 l h1
    obtain ⟨rfl, -⟩ := pure_ok h
    unfold mapEntry Storage.map at h1
    have conv : ∀ k en, (({ e with
          s := (e.s.mapKey (pdoBus dv) mem k en (if read then some n else none) (some n) e.c).1,
          c := (e.s.mapKey (pdoBus dv) mem k en (if read then some n else none) (some n) e.c).2.1 } : Env D),
          (e.s.mapKey (pdoBus dv) mem k en (if read then some n else none) (some n) e.c).2.2) = (e', Outcome.ok l) →
        mappedKey e.s.dict w = some k → 
        ((wordIndex w).toNat < 0x1000 ∨ ∃ k, mappedKey e.s.dict w = some k) ∧
        (∀ k, mappedKey e.s.dict w = some k → Uses k (if read then .pdo n else .dev) (if read then .dev else .pdo n) e') ∧
        (∀ k', mappedKey e.s.dict w ≠ some k' → e'.s.data k' = e.s.data k') := by
      intro k en hq hk
      injection hq with q1 q2
      refine ⟨.inr ⟨k, hk⟩, fun k2 hk2 => ?_, fun k' hk' => ?_⟩
      · rw [hk] at hk2
        injection hk2 with hk2
        subst hk2
        obtain ⟨d', a, b, c⟩ := mapKey_ok (pdoBus dv) mem e.s k en n read e.c l q2
        rw [← q1]
        refine ⟨d', a, ?_⟩
        cases read with
        | true => simpa using b rfl
        | false => simpa using c rfl
      · rw [hk] at hk'
        rw [← q1]
        exact mapKey_other _ _ _ _ _ _ _ _ _ (fun hx => hk' (by rw [hx]))
    dsimp only at h1
    cases hg : e.s.dict.get (Key.ofSub (wordIndex w) (wordSub w)) with
    | some en =>
      rw [hg] at h1
      refine conv _ _ h1 ?_
      unfold mappedKey
      rw [if_neg hi, if_pos (by rw [hg]; rfl)]
    | none =>
      rw [hg] at h1
      dsimp only at h1
      by_cases hs : wordSub w ≠ 0
      · rw [if_pos hs] at h1; cases h1
      · rw [if_neg hs] at h1
        cases hg2 : e.s.dict.get (Key.ofIndex (wordIndex w)) with
        | none => rw [hg2] at h1; cases h1
        | some en =>
          rw [hg2] at h1
          refine conv _ _ h1 ?_
          unfold mappedKey
          rw [if_neg hi, if_neg (by rw [hg]; simp), if_pos ⟨by simpa using hs, by rw [hg2]; rfl⟩]

/-! ## The words -/

/-- a successful read of the cache -/
theorem get_valid (dv : Dev D) (d : Data) (c : Ctx (PW D)) (v : List Byte) (hv : d.valid = true) (h : (d.get (pdoBus dv) true c).2.2 = .ok v) :
    (d.get (pdoBus dv) true c) = (d, c, d.access) ∧ d.access = .ok v := by
  unfold Data.get at h ⊢
  by_cases hr : d.entry.readable = true
  · simp only [hr, Bool.not_true, Bool.false_eq_true, if_false, hv, Bool.true_or, Bool.or_self] at h ⊢
    exact ⟨trivial, h⟩
  · simp [hr] at h

/-- after a successful write of a word, the handle gives that word -/
theorem set_then_cached (dv : Dev D) (d : Data) (c : Ctx (PW D)) (w : BitVec 32) (ht : d.ty = .int .u32) (h : (d.set (pdoBus dv) (bytes32 w) c).2.2 = .ok ()) :
    (d.set (pdoBus dv) (bytes32 w) c).1.valid = true ∧ (d.set (pdoBus dv) (bytes32 w) c).1.access = .ok (bytes32 w) := by
  have hl : (bytes32 w).length = 4 := by simp [bytes32, leBytes]
  unfold Data.set at h ⊢
  by_cases hw : d.entry.writable = true
  · simp only [hw, Bool.not_true, Bool.false_eq_true, if_false] at h ⊢
    unfold Data.storeWrite at h ⊢
    cases hs : d.store (bytes32 w) with
    | none => rw [hs] at h; cases h
    | some d' =>
      dsimp only
      have hd' : d'.valid = true ∧ d'.access = .ok (bytes32 w) := by
        unfold Data.store at hs
        dsimp only at hs
        have ha := allocate_same d
        rw [ha.ty, ht] at hs
        simp only [reduceCtorEq, if_false] at hs
        have hva : d.allocate.valid = true := by
          unfold Data.allocate
          rw [ht]
          simp only [reduceCtorEq, if_false]
          by_cases hv : d.valid = true
          · simp [hv]
          · simp [hv]
        split at hs
        · cases hs
        · injection hs with hs
          rw [← hs]
          refine ⟨hva, ?_⟩
          unfold Data.access
          dsimp only
          simp only [hva, ha.ty, ht, Bool.not_true, Bool.false_eq_true, if_false, reduceCtorEq]
          have h4 : (Ty.int IntTy.u32).size = 4 := rfl
          rw [h4, if_neg (by simp [hl]), ← hl, List.take_left]
      split <;> exact hd'
  · simp only [hw, Bool.not_false, if_true] at h ⊢
    cases ha : d.access with
    | ok cur =>
      rw [ha] at h
      dsimp only at h ⊢
      by_cases hc : cur ≠ bytes32 w
      · rw [if_pos hc] at h; cases h
      · rw [if_neg hc]
        have hcur : cur = bytes32 w := by simpa using hc
        refine ⟨?_, by rw [ha, hcur]⟩
        unfold Data.access at ha
        by_cases hv : d.valid = true
        · exact hv
        · simp [hv] at ha
    | throws x => rw [ha] at h; cases h
    | ub => rw [ha] at h; cases h

theorem word_bytes (w : BitVec 32) : word32 (bytes32 w) = w := by
  have := word32_bytes32 w []
  have hl : (bytes32 w).length = 4 := by simp [bytes32, leBytes]
  rw [List.append_nil, ← hl, List.take_length] at this
  exact this

/-- a configured word is the one used -/
theorem configured_word (dv : Dev D) {k : Key} {init : HoldAny} {p : Payload} (hp : init = .val p) {e e1 e2 : Env D} {u : Unit} {v : List Byte}
    (ht : ∃ d, e.s.data k = some d ∧ d.ty = .int .u32)
    (h1 : setConfigured dv k init e = (e1, .ok u)) (h2 : getEntry dv k true e1 = (e2, .ok v)) : init.getInt .u32 = .ok (word32 v) := by
  obtain ⟨d, hd, hty⟩ := ht
  subst hp
  unfold setConfigured at h1
  dsimp only at h1
  bnd h1 with e3 w h3
  obtain ⟨rfl, hw⟩ := lift_ok h3
  unfold setEntry at h1
  rw [hd] at h1
  dsimp only at h1
  injection h1 with a b
  obtain ⟨c1, c2⟩ := set_then_cached dv d e3.c w hty b
  unfold getEntry at h2
  have hd1 : e1.s.data k = some (d.set (pdoBus dv) (bytes32 w) e3.c).1 := by rw [← a]; exact put_same _ _ _
  rw [hd1] at h2
  dsimp only at h2
  injection h2 with a2 b2
  obtain ⟨-, hacc⟩ := get_valid dv _ _ _ c1 b2
  rw [c2] at hacc
  injection hacc with hacc
  rw [← hacc]
  have : word32 (bytes32 w) = w := word_bytes w
  rw [this]
  exact hw

/-- without configuration, the default is used when the entry was not in use before -/
theorem default_word (dv : Dev D) (mem : Mem) {k : Key} {en : Entry} {w : BitVec 32} {e e1 e2 e3 : Env D} {u u' : Unit} {v : List Byte}
    (hd : e.s.data k = none) (hg : e.s.dict.get k = some en) (hdef : en.defVal = .val (.int .u32 w)) (hini : ∀ p, en.initVal ≠ .val p)
    (h1 : openEntry mem k (.int .u32) e = (e1, .ok u)) (h2 : setConfigured dv k en.initVal e1 = (e2, .ok u'))
    (h3 : getEntry dv k true e2 = (e3, .ok v)) : word32 v = w := by
  have : e2 = e1 := by
    unfold setConfigured at h2
    cases hi : en.initVal with
    | val p => exact (hini p hi).elim
    | none => rw [hi] at h2; exact (pure_ok h2).1
    | empty t => rw [hi] at h2; exact (pure_ok h2).1
  subst this
  have hd1 : e2.s.data k = some (Data.ofVal en (.int .u32) (bytes32 w)) := by
    unfold openEntry Storage.entry at h1
    rw [hd, hg] at h1
    have hm : e.s.make mem en (.int .u32) = .ok (Data.ofVal en (.int .u32) (bytes32 w)) := by
      unfold Storage.make
      rw [hdef]
      simp [HoldAny.isEmpty, applyAny, applyOffset, HoldAny.type, Payload.ty, HoldAny.getInt, bytes32, IntTy.size]
    dsimp only at h1
    rw [hm] at h1
    injection h1 with a b
    rw [← a]
    exact put_same _ _ _
  unfold getEntry at h3
  rw [hd1] at h3
  dsimp only at h3
  injection h3 with a b
  obtain ⟨-, hacc⟩ := get_valid dv _ _ _ rfl b
  have : (Data.ofVal en (.int .u32) (bytes32 w)).access = .ok (bytes32 w) := by
    unfold Data.access Data.ofVal
    have hl : (bytes32 w).length = 4 := by simp [bytes32, leBytes]
    simp only [Bool.not_true, Bool.false_eq_true, if_false, reduceCtorEq]
    have h4 : (Ty.int IntTy.u32).size = 4 := rfl
    rw [h4, if_neg (by omega), ← hl, List.take_length]
  rw [this] at hacc
  injection hacc with hacc
  rw [← hacc]
  exact word_bytes w

/-! ## The loop -/

/-- what the loop over the mapping entries `subs` establishes for their words -/
structure Laid (dict : Dict) (map : BitVec 16) (read : Bool) (e e' : Env D) (subs : List Nat) (words : List (BitVec 32)) : Prop where
  len : words.length = subs.length
  buf : ∀ (j : Nat) w, words[j]? = some w → BufAt (e.c.w.next + j) (wordBytes w) e'
  conf : ∀ (j : Nat) w (s : Nat) x p, words[j]? = some w → subs[j]? = some s → dict.get (sub map s) = some x → x.initVal = .val p → x.initVal.getInt .u32 = .ok w
  deflt : ∀ (j : Nat) w (s : Nat) x d, words[j]? = some w → subs[j]? = some s → dict.get (sub map s) = some x → x.defVal = .val (.int .u32 d) → (∀ p, x.initVal ≠ .val p) →
    e.s.data (sub map s) = none → (∀ (i : Nat) w', i < j → words[i]? = some w' → mappedKey dict w' ≠ some (sub map s)) → w = d
  exist : ∀ w ∈ words, (wordIndex w).toNat < 0x1000 ∨ ∃ k, mappedKey dict w = some k
  uses : ∀ (j : Nat) w k, words[j]? = some w → mappedKey dict w = some k → (∀ (i : Nat) w', j < i → words[i]? = some w' → mappedKey dict w' ≠ some k) →
    Uses k (if read then .pdo (e.c.w.next + j) else .dev) (if read then .dev else .pdo (e.c.w.next + j)) e'
  other : ∀ k r w, Uses k r w e → (∀ w' ∈ words, mappedKey dict w' ≠ some k) → Uses k r w e'

theorem one_other {dv : Dev D} {k k' : Key} {e e' : Env D} (h : One dv k e e') (hk : k' ≠ k) : e'.s.data k' = e.s.data k' := by
  cases h with
  | none h => rw [h]
  | change d d' hd hs c' hc he => rw [he]; exact put_other _ _ hk

theorem data_stable (dv : Dev D) (k : Key) (x : Option Data) (k' : Key) (hk : k' ≠ k) (e e' : Env D) (h : One dv k' e e') (he : e.s.data k = x) :
    e'.s.data k = x := by rw [one_other h (Ne.symm hk)]; exact he

theorem setConfigured_other (dv : Dev D) {k k' : Key} (hk : k' ≠ k) (init : HoldAny) (e e1 : Env D) (u : Unit) (h : setConfigured dv k init e = (e1, .ok u)) :
    e1.s.data k' = e.s.data k' := by
  unfold setConfigured at h
  cases init with
  | val p =>
    dsimp only at h
    bnd h with e2 v h2
    obtain ⟨rfl, -⟩ := lift_ok h2
    have := setEntry_one dv k (bytes32 v) e2
    rw [h] at this
    exact one_other this hk
  | none => obtain ⟨rfl, -⟩ := pure_ok h; rfl
  | empty t => obtain ⟨rfl, -⟩ := pure_ok h; rfl

theorem sub_inj {map : BitVec 16} {s t : Nat} (hs : s < 256) (ht : t < 256) (h : sub map s = sub map t) : s = t := by
  have := congrArg Key.subIndex h
  rw [Key.ofSub_sub, Key.ofSub_sub] at this
  have := congrArg BitVec.toNat this
  rw [BitVec.toNat_ofNat, BitVec.toNat_ofNat] at this
  omega

theorem mapLoop_laid (dv : Dev D) (mem : Mem) (dict : Dict) (map : BitVec 16) (read write : Bool) (hrw : (read || write) = true) (subs : List Nat)
    (hnd : subs.Nodup) (hlt : ∀ s ∈ subs, s < 256) :
    ∀ dlc bufs (e e' : Env D) r, Sound dict e → mapLoop dv mem map read write subs dlc bufs e = (e', .ok r) →
      ∃ words, Laid dict map read e e' subs words ∧ r.1 = dlc + BitVec.ofNat 8 ((words.map wordBytes).sum) := by
  induction subs with
  | nil =>
    intro dlc bufs e e' r hs h
    obtain ⟨rfl, rfl⟩ := pure_ok h
    refine ⟨[], ⟨rfl, ?_, ?_, ?_, ?_, ?_, ?_⟩, by simp⟩
    · intro j w hw; simp at hw
    · intro j w s x p hw; simp at hw
    · intro j w s x d hw; simp at hw
    · intro w hw; simp at hw
    · intro j w k hw; simp at hw
    · intro k r w h _; exact h
  | cons s ss ih =>
    intro dlc bufs e e' r hs h
    rw [List.nodup_cons] at hnd
    have hlt0 := hlt s List.mem_cons_self
    have ih := ih hnd.2 (fun t ht => hlt t (List.mem_cons_of_mem _ ht))
    unfold mapLoop at h
    bnd h with e1 u1 h1
    bnd h with e2 x h2
    bnd h with e3 u3 h3
    bnd h with e4 v h4
    bnd h with e5 n h5
    bnd h with e6 u6 h6
    bnd h with e7 u7 h7
    obtain ⟨rfl, hx⟩ := dictAt_ok h2
    have o1 : One dv (sub map s) e e2 := by have := openEntry_one dv mem (sub map s) (.int .u32) e; rw [h1] at this; exact this
    have s2 := keep_ok (keep_open (sound_stable dv dict).toStableOne _ _ _) h1 hs
    have s3 := keep_ok (keep_setConfigured (sound_stable dv dict).toStableOne _ _) h3 s2
    have s4 := keep_ok (keep_get (sound_stable dv dict).toStableOne _ _) h4 s3
    have n1 := keep_ok (keep_open (next_stable dv e.c.w.next) _ _ _) h1 rfl
    have n3 := keep_ok (keep_setConfigured (next_stable dv e.c.w.next) _ _) h3 n1
    have n4 : e4.c.w.next = e.c.w.next := keep_ok (keep_get (next_stable dv e.c.w.next) _ _) h4 n3
    have o4 : One dv (sub map s) e3 e4 := by have := getEntry_one dv (sub map s) true e3; rw [h4] at this; exact this
    -- the word
    rw [ofWord_length] at h h5
    have q5 : e5 = (newBuf (wordBytes (word32 v)) e4).1 ∧ n = e4.c.w.next := by
      unfold newBuf at h5
      injection h5 with a b
      injection b with b
      exact ⟨a.symm, b.symm⟩
    obtain ⟨hq5, rfl⟩ := q5
    have b5 : BufAt e4.c.w.next (wordBytes (word32 v)) e5 := by
      rw [hq5]
      refine ⟨Nat.lt_succ_self _, Buffer.new (wordBytes (word32 v)), ?_, rfl, ?_⟩
      · simp [newBuf, PW.setBuf]
      · simp [Buffer.new]
    have d5 : e5.s = e4.s := by rw [hq5]; rfl
    have s5 : Sound dict e5 := by rw [hq5]; exact (sound_stable dv dict).new _ _ s4
    have dict5 : e5.s.dict = dict := s5.isDict
    obtain ⟨m1, m2, m3⟩ := mapOne_ok dv mem (word32 v) e4.c.w.next read write e5 e6 u6 hrw h6
    rw [dict5] at m1 m2 m3
    have hsome : (e5.c.w.heap e4.c.w.next).isSome := by
      obtain ⟨-, b, hb, -⟩ := b5
      rw [hb]; rfl
    have s6 : Sound dict e6 := by
      have := mapOne_keeps (sound_stable dv dict) mem (PdoMap.ofWord (word32 v)) e4.c.w.next read write e5 s5 hsome
      rw [h6] at this
      exact this
    have b6 : BufAt e4.c.w.next (wordBytes (word32 v)) e6 := by
      have := mapOne_keeps (buf_stable dv e4.c.w.next (wordBytes (word32 v))) mem (PdoMap.ofWord (word32 v)) e4.c.w.next read write e5 b5 hsome
      rw [h6] at this
      exact this
    have q7 : e7 = (cleanBuf e4.c.w.next e6).1 := by
      rw [h7]
    have s7 : Sound dict e7 := by rw [q7]; exact (sound_stable dv dict).clean _ _ s6
    have b7 : BufAt e4.c.w.next (wordBytes (word32 v)) e7 := by rw [q7]; exact (buf_stable dv _ _).clean _ _ b6
    have d7 : e7.s = e6.s := by rw [q7]; rfl
    have n7 : e7.c.w.next = e.c.w.next + 1 := by
      have a := mapOne_next dv mem (PdoMap.ofWord (word32 v)) e4.c.w.next read write e5
      rw [h6] at a
      have b : e7.c.w.next = e6.c.w.next := by rw [q7]; rfl
      have c : e5.c.w.next = e4.c.w.next + 1 := by rw [hq5]; rfl
      rw [b, a, c, n4]
    obtain ⟨words, hl, hdlc⟩ := ih _ _ _ _ _ s7 h
    have hxd : dict.get (sub map s) = some x := by rw [← s2.isDict]; exact hx
    refine ⟨word32 v :: words, ⟨?_, ?_, ?_, ?_, ?_, ?_, ?_⟩, ?_⟩
    · simp [hl.len]
    · intro j w hw
      cases j with
      | zero =>
        simp only [List.getElem?_cons_zero, Option.some.injEq] at hw
        rw [← hw, Nat.add_zero, ← n4]
        exact keep_ok (keep_mapLoop (buf_stable dv _ _) mem map read write ss _ _) h b7
      | succ j =>
        rw [List.getElem?_cons_succ] at hw
        have := hl.buf j w hw
        rw [n7] at this
        rw [show e.c.w.next + (j + 1) = e.c.w.next + 1 + j by omega]
        exact this
    · intro j w t y p hw ht hy hp
      cases j with
      | zero =>
        simp only [List.getElem?_cons_zero, Option.some.injEq] at hw ht
        subst ht
        rw [hxd] at hy
        injection hy with hy
        subst hy
        rw [← hw]
        refine configured_word dv hp ?_ h3 h4
        have := openEntry_ok mem (sub map s) (.int .u32) e u1 (by rw [h1])
        rw [h1] at this
        exact this
      | succ j => exact hl.conf j w t y p (by simpa using hw) (by simpa using ht) hy hp
    · intro j w t y d hw ht hy hdef hini hnone hprev
      cases j with
      | zero =>
        simp only [List.getElem?_cons_zero, Option.some.injEq] at hw ht
        subst ht
        rw [hxd] at hy
        injection hy with hy
        subst hy
        rw [← hw]
        exact default_word dv mem hnone (by rw [hs.isDict]; exact hxd) hdef hini h1 h3 h4
      | succ j =>
        have htm : t ∈ ss := List.mem_of_getElem? (by simpa using ht)
        have hne : sub map t ≠ sub map s := by
          intro hc
          have := sub_inj (hlt t (List.mem_cons_of_mem _ htm)) hlt0 hc
          exact hnd.1 (this ▸ htm)
        refine hl.deflt j w t y d (by simpa using hw) (by simpa using ht) hy hdef hini ?_ ?_
        · rw [d7, m3 _ (hprev 0 _ (by omega) rfl), d5, one_other o4 hne, setConfigured_other dv hne _ _ _ _ h3, one_other o1 hne]
          exact hnone
        · intro i w' hi hw'
          exact hprev (i + 1) w' (by omega) (by simpa using hw')
    · intro w hw
      rw [List.mem_cons] at hw
      rcases hw with rfl | hw
      · exact m1
      · exact hl.exist w hw
    · intro j w k hw hk hlater
      cases j with
      | zero =>
        simp only [List.getElem?_cons_zero, Option.some.injEq] at hw
        subst hw
        rw [Nat.add_zero, ← n4]
        refine hl.other k _ _ ?_ ?_
        · obtain ⟨d, h1, h2⟩ := m2 k hk
          exact ⟨d, by rw [d7]; exact h1, h2⟩
        · intro w' hw'
          obtain ⟨i, hi⟩ := List.getElem?_of_mem hw'
          exact hlater (i + 1) w' (by omega) (by simpa using hi)
      | succ j =>
        rw [show e.c.w.next + (j + 1) = e7.c.w.next + j by omega]
        refine hl.uses j w k (by simpa using hw) hk ?_
        intro i w' hi hw'
        exact hlater (i + 1) w' (by omega) (by simpa using hw')
    · intro k r' w hu hall
      refine hl.other k r' w ?_ (fun w' hw' => hall w' (List.mem_cons_of_mem _ hw'))
      have u1 := (uses_stable dv k r' w).one _ _ _ hu o1
      have u3 := keep_ok (keep_setConfigured (uses_stable dv k r' w) _ _) h3 u1
      have u4 := (uses_stable dv k r' w).one _ _ _ u3 o4
      obtain ⟨d, a, b⟩ := u4
      refine ⟨d, ?_, b⟩
      rw [d7, m3 k (hall _ List.mem_cons_self), d5]
      exact a
    · rw [hdlc]
      simp only [List.map_cons, List.sum_cons]
      rw [BitVec.ofNat_add, BitVec.add_assoc]

/-! ## One PDO -/

theorem getElem?_range' (a n j : Nat) (h : j < n) : (List.range' a n)[j]? = some (a + j) := by
  rw [List.getElem?_range' h]
  simp

theorem sub_ne {i j : BitVec 16} {s t : Nat} (h : i ≠ j ∨ (s ≠ t ∧ s < 256 ∧ t < 256)) : sub i s ≠ sub j t := by
  intro hc
  have h1 := congrArg Key.index hc
  rw [Key.ofSub_index, Key.ofSub_index] at h1
  rcases h with h | ⟨h2, h3, h4⟩
  · exact h h1
  · subst h1
    exact h2 (sub_inj h3 h4 hc)

/-- the set-up of one PDO ends normally: what is laid out -/
theorem parse_laid (dv : Dev D) (mem : Mem) (dict : Dict) (com map : BitVec 16) (read write : Bool) (hrw : (read || write) = true) (hne : com ≠ map)
    (e e' : Env D) (r : Byte × List Nat) (hs : Sound dict e) (h : parseAndSet dv mem com map read write e = (e', .ok r)) :
    ∃ words, Laid dict map read e e' (List.range' 1 (mappingCount dict map)) words ∧ r.1 = BitVec.ofNat 8 ((words.map wordBytes).sum) := by
  unfold parseAndSet at h
  bnd h with e1 u1 h1
  bnd h with e2 x h2
  bnd h with e3 mc h3
  bnd h with e4 di h4
  bnd h with e5 u5 h5
  bnd h with e6 r' h6
  bnd h with e7 u7 h7
  bnd h with e8 u8 h8
  obtain ⟨rfl, rfl⟩ := pure_ok h
  have o1 : One dv (sub map 0) e e1 := by have := openEntry_one dv mem (sub map 0) (.int .u8) e; rw [h1] at this; exact this
  obtain ⟨rfl, d, hd, hx⟩ := descOf_ok h2
  have s2 := keep_ok (keep_open (sound_stable dv dict).toStableOne _ _ _) h1 hs
  have q3 : e3 = e2 := by
    have := keep_mapChanged (I := fun e' => e' = e2) (mapNum x) map e2 rfl
    rw [h3] at this
    exact this
  have q4 : e4 = e3 := by injection h4 with a b; exact a.symm
  subst q3 q4
  have hcount : mappingCount dict map = if 0 < mapNum x ∧ mapNum x ≤ 0x40 then mapNum x else 0 := by
    have := s2.cons _ _ hd
    rw [s2.isDict, hx] at this
    unfold mappingCount mapNum
    rw [this]
    dsimp only
    cases x.value.getInt .u8 <;> rfl
  -- the part before the loop only touches the count and the identifier
  have n1 := keep_ok (keep_open (next_stable dv e.c.w.next) _ _ _) h1 rfl
  have n5 := keep_ok (keep_disable (next_stable dv e.c.w.next) mem com _) h5 n1
  have s5 := keep_ok (keep_disable (sound_stable dv dict).toStableOne mem com _) h5 s2
  have hdis : ∀ k, k ≠ sub com 1 → e5.s.data k = e4.s.data k := by
    intro k hk
    unfold disable at h5
    bnd h5 with f1 v1 g1
    bnd h5 with f2 y g2
    obtain ⟨rfl, -⟩ := descOf_ok g2
    have p1 : One dv (sub com 1) e4 f2 := by have := openEntry_one dv mem (sub com 1) (.int .u32) e4; rw [g1] at this; exact this
    split at h5
    · bnd h5 with f3 v g3
      have p3 : One dv (sub com 1) f2 f3 := by have := getEntry_one dv (sub com 1) false f2; rw [g3] at this; exact this
      have p4 : One dv (sub com 1) f3 e5 := by
        have := setEntry_one dv (sub com 1) (bytes32 (word32 v ||| 0x80000000#32)) f3; rw [h5] at this; exact this
      rw [one_other p4 hk, one_other p3 hk, one_other p1 hk]
    · obtain ⟨rfl, -⟩ := pure_ok h5
      rw [one_other p1 hk]
  -- the part after the loop keeps everything
  have hrest : ∀ {I : Env D → Prop}, StableOne dv I → I e6 → I e' := by
    intro I hI hi
    exact keep_ok (keep_enable hI mem com map _ _ _) h8 (keep_ok (keep_setCom hI mem com _) h7 hi)
  have hwrap : ∀ words f, (∀ k, k ≠ sub map 0 → e5.s.data k = e.s.data k ∨ k = sub com 1) → e5.c.w.next = e.c.w.next → f = e6 →
      Laid dict map read e5 f (List.range' 1 (mappingCount dict map)) words →
      (∀ k r w, Uses k r w e → Uses k r w e5) →
      Laid dict map read e e' (List.range' 1 (mappingCount dict map)) words := by
    intro words f hdata hn hf hl huse
    subst hf
    refine ⟨hl.len, ?_, hl.conf, ?_, hl.exist, ?_, ?_⟩
    · intro j w hw
      have := hl.buf j w hw
      rw [hn] at this
      exact hrest (buf_stable dv _ _).toStableOne this
    · intro j w t y d' hw ht hy hdef hini hnone hprev
      refine hl.deflt j w t y d' hw ht hy hdef hini ?_ hprev
      have htm := List.mem_of_getElem? ht
      rw [List.mem_range'] at htm
      obtain ⟨i, hi, hti⟩ := htm
      have hle : mappingCount dict map ≤ 64 := by
        rw [hcount]
        split <;> omega
      rcases hdata (sub map t) (sub_ne (.inr ⟨by omega, by omega, by omega⟩)) with h' | h'
      · rw [h']; exact hnone
      · exact absurd h' (sub_ne (.inl (Ne.symm hne)))
    · intro j w k hw hk hl2
      have := hl.uses j w k hw hk hl2
      rw [hn] at this
      exact hrest (uses_stable dv _ _ _) this
    · intro k r w hu hall
      exact hrest (uses_stable dv _ _ _) (hl.other k r w (huse k r w hu) hall)
  have huse5 : ∀ k r w, Uses k r w e → Uses k r w e5 := fun k r w hu =>
    keep_ok (keep_disable (uses_stable dv k r w) mem com _) h5 ((uses_stable dv k r w).one _ _ _ hu o1)
  have hdata5 : ∀ k, k ≠ sub map 0 → e5.s.data k = e.s.data k ∨ k = sub com 1 := by
    intro k hk
    by_cases hk2 : k = sub com 1
    · exact .inr hk2
    · left
      rw [hdis k hk2, one_other o1 hk]
  unfold setMapping at h6
  by_cases hc : 0 < mapNum x ∧ mapNum x ≤ 0x40
  · rw [if_pos hc] at h6 hcount
    bnd h6 with f1 v1 g1
    have hf1 : (∀ k, k ≠ sub map 0 → f1.s.data k = e5.s.data k) ∧ f1.c.w.next = e5.c.w.next ∧ Sound dict f1 ∧ (∀ k r w, Uses k r w e5 → Uses k r w f1) := by
      unfold onlyIf at g1
      by_cases hm : mc = true
      · rw [if_pos hm] at g1
        have p1 : One dv (sub map 0) e5 f1 := by have := setEntry_one dv (sub map 0) [0#8] e5; rw [g1] at this; exact this
        exact ⟨fun k hk => one_other p1 hk, (next_stable dv e5.c.w.next).one _ _ _ rfl p1, (sound_stable dv dict).one _ _ _ s5 p1,
          fun k r w hu => (uses_stable dv k r w).one _ _ _ hu p1⟩
      · rw [if_neg hm] at g1
        obtain ⟨rfl, -⟩ := pure_ok g1
        exact ⟨fun _ _ => rfl, rfl, s5, fun _ _ _ hu => hu⟩
    obtain ⟨f1d, f1n, f1s, f1u⟩ := hf1
    have hnd : (List.range' 1 (mapNum x)).Nodup := List.nodup_range'
    obtain ⟨words, hl, hdlc⟩ := mapLoop_laid dv mem dict map read write hrw _ hnd (by
      intro t ht
      rw [List.mem_range'] at ht
      obtain ⟨i, hi, hti⟩ := ht
      omega) _ _ _ _ _ f1s h6
    refine ⟨words, hwrap words e6 hdata5 n5 rfl ?_ huse5, by rw [hdlc]; simp⟩
    rw [hcount]
    refine ⟨hl.len, ?_, hl.conf, ?_, hl.exist, ?_, ?_⟩
    · intro j w hw
      have := hl.buf j w hw
      rw [f1n] at this
      exact this
    · intro j w t y d' hw ht hy hdef hini hnone hprev
      refine hl.deflt j w t y d' hw ht hy hdef hini ?_ hprev
      have htm := List.mem_of_getElem? ht
      rw [List.mem_range'] at htm
      obtain ⟨i, hi, hti⟩ := htm
      rw [f1d (sub map t) (sub_ne (.inr ⟨by omega, by omega, by omega⟩))]
      exact hnone
    · intro j w k hw hk hl2
      have := hl.uses j w k hw hk hl2
      rw [f1n] at this
      exact this
    · intro k r w hu hall
      exact hl.other k r w (f1u k r w hu) hall
  · rw [if_neg hc] at h6 hcount
    obtain ⟨rfl, rfl⟩ := pure_ok h6
    refine ⟨[], hwrap [] _ hdata5 n5 rfl ?_ huse5, by simp⟩
    rw [hcount]
    refine ⟨rfl, ?_, ?_, ?_, ?_, ?_, ?_⟩
    · intro j w hw; simp at hw
    · intro j w s x p hw; simp at hw
    · intro j w s x d hw; simp at hw
    · intro w hw; simp at hw
    · intro j w k hw; simp at hw
    · intro k r w h _; exact h

/-! ## Which PDOs are used -/

theorem cobWord_of {com : BitVec 16} {e e' : Env D} {w : BitVec 32} (h : (cobWord com : Act D _) e = (e', .ok w)) :
    e' = e ∧ cobOf e.s.dict e.s.nodeId com = some w := by
  obtain ⟨h1, y, h2, h3⟩ := cobWord_ok h
  refine ⟨h1, ?_⟩
  unfold cobOf
  rw [h2]
  dsimp only
  rw [h3]

theorem rpdoInit_result (dv : Dev D) (mem : Mem) (junk : Vector Byte 8) (com map : BitVec 16) (e e' : Env D) (o : Option Rec) (hc : Consistent e.s)
    (hp : present e.s.dict com map = true) (h : rpdoInit dv mem junk com map e = (e', .ok o)) :
    o.isSome = usable e.s.dict e.s.nodeId com map ∧ ∀ x, o = some x → x.com = com ∧ ∃ w, cobOf e.s.dict e.s.nodeId com = some w ∧
      x.frame = Frame.ofHeader junk ((PdoId.mk w).header true) ∧ ∃ y, e.s.dict.get (sub com 2) = some y ∧ y.value.getInt .u8 = .ok x.type := by
  unfold rpdoInit at h
  bnd h with e1 r h1
  bnd h with e2 w h2
  obtain ⟨b1, -⟩ := parse_bufs dv mem com map _ _ _ _ _ hc h1
  have k1 := keep_ok (keep_parse (kept_stable dv e) mem com map _ _) h1 (.refl e)
  obtain ⟨rfl, hw⟩ := cobWord_of h2
  rw [k1.dict, k1.node] at hw
  have hempty : r.2.isEmpty = true ↔ mappingCount e.s.dict map = 0 := by rw [b1]; simp
  have hus : usable e.s.dict e.s.nodeId com map = !(r.2.isEmpty || (PdoId.mk w).isInvalid) := by
    unfold usable
    rw [hw]
    unfold present at hp
    rw [hp, invalid_msb]
    dsimp only
    by_cases h0 : mappingCount e.s.dict map = 0
    · rw [hempty.2 h0, h0]; simp
    · have : r.2.isEmpty = false := by rw [Bool.eq_false_iff]; exact fun hx => h0 (hempty.1 hx)
      rw [this]
      have hn : (mappingCount e.s.dict map != 0) = true := by simpa using h0
      rw [hn]; simp
  split at h
  · rename_i hcond
    obtain ⟨rfl, rfl⟩ := pure_ok h
    exact ⟨by rw [hus, hcond]; rfl, fun x hx => by cases hx⟩
  · rename_i hcond
    bnd h with e3 z h3
    bnd h with e4 t h4
    obtain ⟨rfl, rfl⟩ := pure_ok h
    obtain ⟨rfl, hz⟩ := dictAt_ok h3
    obtain ⟨rfl, ht⟩ := lift_ok h4
    refine ⟨by rw [hus]; simp only [Option.isSome_some]; simpa using hcond, fun x hx => ?_⟩
    cases hx
    rw [k1.dict] at hz
    exact ⟨rfl, w, hw, rfl, z, hz, ht⟩

theorem tpdoInit_result (dv : Dev D) (mem : Mem) (junk : Vector Byte 8) (com map : BitVec 16) (e e' : Env D) (o : Option Rec) (hc : Consistent e.s)
    (hp : present e.s.dict com map = true) (h : tpdoInit dv mem junk com map e = (e', .ok o)) :
    o.isSome = usable e.s.dict e.s.nodeId com map ∧ ∀ x, o = some x → x.com = com ∧ ∃ w, cobOf e.s.dict e.s.nodeId com = some w ∧
      ∃ n, x.frame = { Frame.ofHeader junk ((PdoId.mk w).header false) with dlc := n } ∧
      ∃ y, e.s.dict.get (sub com 2) = some y ∧ y.value.getInt .u8 = .ok x.type := by
  unfold tpdoInit at h
  bnd h with e1 w h1
  bnd h with e2 r h2
  obtain ⟨rfl, hw⟩ := cobWord_of h1
  obtain ⟨b1, -⟩ := parse_bufs dv mem com map _ _ _ _ _ hc h2
  have k1 := keep_ok (keep_parse (kept_stable dv e1) mem com map _ _) h2 (.refl e1)
  have c1 := keep_ok (keep_parse (cons_stable dv) mem com map _ _) h2 hc
  have hempty : r.2.isEmpty = true ↔ mappingCount e1.s.dict map = 0 := by rw [b1]; simp
  have hus : usable e1.s.dict e1.s.nodeId com map = !(r.2.isEmpty || (PdoId.mk w).isInvalid) := by
    unfold usable
    rw [hw]
    unfold present at hp
    rw [hp, invalid_msb]
    dsimp only
    by_cases h0 : mappingCount e1.s.dict map = 0
    · rw [hempty.2 h0, h0]; simp
    · have : r.2.isEmpty = false := by rw [Bool.eq_false_iff]; exact fun hx => h0 (hempty.1 hx)
      rw [this]
      have hn : (mappingCount e1.s.dict map != 0) = true := by simpa using h0
      rw [hn]; simp
  split at h
  · rename_i hcond
    obtain ⟨rfl, rfl⟩ := pure_ok h
    exact ⟨by rw [hus, hcond]; rfl, fun x hx => by cases hx⟩
  · rename_i hcond
    bnd h with e3 u3 h3
    bnd h with e4 z h4
    bnd h with e5 t h5
    bnd h with e6 u6 h6
    obtain ⟨rfl, rfl⟩ := pure_ok h
    have c3 := keep_ok (keep_open (cons_stable dv).toStableOne _ _ _) h3 c1
    have k3 := keep_ok (keep_open (kept_stable dv e1).toStableOne _ _ _) h3 k1
    obtain ⟨rfl, d, hd, hz⟩ := descOf_ok h4
    obtain ⟨rfl, ht⟩ := lift_ok h5
    refine ⟨by rw [hus]; simp only [Option.isSome_some]; simpa using hcond, fun x hx => ?_⟩
    cases hx
    have := c3 _ _ hd
    rw [k3.dict, hz] at this
    exact ⟨rfl, w, hw, r.1, rfl, z, this, ht⟩

theorem create_ok {m : Act D (Option Rec)} {e e' : Env D} {o : Option Rec} (h : create m e = (e', .ok o)) :
    ∃ e1, m e = (e1, .ok o) ∧ e'.s = e1.s ∧ e'.rpdos = e1.rpdos ∧ e'.tpdos = e1.tpdos := by
  unfold create at h
  dsimp only at h
  cases hm : m e with
  | mk e1 o1 =>
    rw [hm] at h
    cases o1 with
    | ok x =>
      cases x with
      | some x => cases h; exact ⟨_, rfl, rfl, rfl, rfl⟩
      | none => cases h; exact ⟨_, rfl, rfl, rfl, rfl⟩
    | throws x => cases h
    | ub => cases h

/-- the records made for the PDOs with the numbers `is` -/
theorem rpdoLoop_list (dv : Dev D) (mem : Mem) (junk : Vector Byte 8) (nr : Nat) (dict : Dict) (node : BitVec 8) (is : List Nat) :
    ∀ (e e' : Env D) u, Consistent e.s → e.s.dict = dict → e.s.nodeId = node → rpdoLoop dv mem junk nr is e = (e', .ok u) →
      (e'.rpdos.map (·.com) = e.rpdos.map (·.com) ++
        ((is.filter fun i => usable dict node (sends i).1 (sends i).2).take (nr - e.rpdos.length)).map fun i => (sends i).1) ∧
      e'.tpdos = e.tpdos ∧ Consistent e'.s ∧ e'.s.dict = dict ∧ e'.s.nodeId = node := by
  induction is with
  | nil =>
    intro e e' u hc hd hn h
    obtain ⟨rfl, -⟩ := pure_ok h
    exact ⟨by simp, rfl, hc, hd, hn⟩
  | cons i is ih =>
    intro e e' u hc hd hn h
    unfold rpdoLoop at h
    dsimp only at h
    split at h
    · rename_i hlen
      split at h
      · rename_i hp
        have hu : usable dict node (sends i).1 (sends i).2 = false := by
          have : present dict (sends i).1 (sends i).2 = false := by rw [← hd]; simpa [sends] using hp
          unfold present at this
          unfold usable
          rw [this]; simp
        have := ih _ _ _ hc hd hn h
        rw [List.filter_cons]
        rw [hu]
        exact this
      · rename_i hp
        cases hq : create (rpdoInit dv mem junk (0x1800#16 + BitVec.ofNat 16 i) (0x1A00#16 + BitVec.ofNat 16 i)) e with
        | mk e1 o =>
          rw [hq] at h
          cases o with
          | ok o =>
            obtain ⟨e2, h2, q1, q2, q3⟩ := create_ok hq
            have k := keep_ok (keep_rpdoInit (kept_stable dv e) mem junk _ _) h2 (.refl e)
            have c := keep_ok (keep_rpdoInit (cons_stable dv) mem junk _ _) h2 hc
            obtain ⟨r1, r2⟩ := rpdoInit_result dv mem junk _ _ e e2 o hc (by simpa using hp) h2
            rw [hd, hn] at r1
            cases o with
            | some x =>
              have := ih _ _ _ (by show Consistent e1.s; rw [q1]; exact c) (by show e1.s.dict = dict; rw [q1, k.dict, hd])
                (by show e1.s.nodeId = node; rw [q1, k.node, hn]) h
              obtain ⟨t1, t2, t3⟩ := this
              refine ⟨?_, by rw [t2]; show e1.tpdos = _; rw [q3, k.tpdos], t3⟩
              rw [t1]
              show (e1.rpdos ++ [x]).map _ ++ _ = _
              rw [q2, k.rpdos, List.filter_cons, show usable dict node (sends i).1 (sends i).2 = true from r1.symm]
              simp only [if_true, List.map_append, List.map_cons, List.map_nil, List.append_assoc, List.length_append, List.length_cons, List.length_nil]
              congr 1
              rw [show nr - e.rpdos.length = (nr - (e.rpdos.length + (0 + 1))) + 1 by omega, List.take_succ_cons, List.map_cons]
              show [x.com] ++ _ = _
              rw [(r2 x rfl).1]
              rfl
            | none =>
              have := ih _ _ _ (by rw [q1]; exact c) (by rw [q1, k.dict, hd]) (by rw [q1, k.node, hn]) h
              obtain ⟨t1, t2, t3⟩ := this
              refine ⟨?_, by rw [t2, q3, k.tpdos], t3⟩
              rw [t1, q2, k.rpdos, List.filter_cons, show usable dict node (sends i).1 (sends i).2 = false from r1.symm]
              rfl
          | throws x => cases h
          | ub => cases h
    · rename_i hlen
      cases h
      refine ⟨?_, rfl, hc, hd, hn⟩
      rw [show nr - e.rpdos.length = 0 by omega]
      simp

theorem tpdoLoop_list (dv : Dev D) (mem : Mem) (junk : Vector Byte 8) (nr : Nat) (dict : Dict) (node : BitVec 8) (is : List Nat) :
    ∀ (e e' : Env D) u, Consistent e.s → e.s.dict = dict → e.s.nodeId = node → tpdoLoop dv mem junk nr is e = (e', .ok u) →
      (e'.tpdos.map (·.com) = e.tpdos.map (·.com) ++
        ((is.filter fun i => usable dict node (receives i).1 (receives i).2).take (nr - e.tpdos.length)).map fun i => (receives i).1) ∧
      e'.rpdos = e.rpdos := by
  induction is with
  | nil =>
    intro e e' u hc hd hn h
    obtain ⟨rfl, -⟩ := pure_ok h
    exact ⟨by simp, rfl⟩
  | cons i is ih =>
    intro e e' u hc hd hn h
    unfold tpdoLoop at h
    dsimp only at h
    split at h
    · rename_i hlen
      split at h
      · rename_i hp
        have hu : usable dict node (receives i).1 (receives i).2 = false := by
          have : present dict (receives i).1 (receives i).2 = false := by rw [← hd]; simpa [receives] using hp
          unfold present at this
          unfold usable
          rw [this]; simp
        have := ih _ _ _ hc hd hn h
        rw [List.filter_cons]
        rw [hu]
        exact this
      · rename_i hp
        cases hq : create (tpdoInit dv mem junk (0x1400#16 + BitVec.ofNat 16 i) (0x1600#16 + BitVec.ofNat 16 i)) e with
        | mk e1 o =>
          rw [hq] at h
          cases o with
          | ok o =>
            obtain ⟨e2, h2, q1, q2, q3⟩ := create_ok hq
            have k := keep_ok (keep_tpdoInit (kept_stable dv e) mem junk _ _) h2 (.refl e)
            have c := keep_ok (keep_tpdoInit (cons_stable dv) mem junk _ _) h2 hc
            obtain ⟨r1, r2⟩ := tpdoInit_result dv mem junk _ _ e e2 o hc (by simpa using hp) h2
            rw [hd, hn] at r1
            cases o with
            | some x =>
              have := ih _ _ _ (by show Consistent e1.s; rw [q1]; exact c) (by show e1.s.dict = dict; rw [q1, k.dict, hd])
                (by show e1.s.nodeId = node; rw [q1, k.node, hn]) h
              obtain ⟨t1, t2⟩ := this
              refine ⟨?_, by rw [t2]; show e1.rpdos = _; rw [q2, k.rpdos]⟩
              rw [t1]
              show (e1.tpdos ++ [x]).map _ ++ _ = _
              rw [q3, k.tpdos, List.filter_cons, show usable dict node (receives i).1 (receives i).2 = true from r1.symm]
              simp only [if_true, List.map_append, List.map_cons, List.map_nil, List.append_assoc, List.length_append, List.length_cons, List.length_nil]
              congr 1
              rw [show nr - e.tpdos.length = (nr - (e.tpdos.length + (0 + 1))) + 1 by omega, List.take_succ_cons, List.map_cons]
              show [x.com] ++ _ = _
              rw [(r2 x rfl).1]
              rfl
            | none =>
              have := ih _ _ _ (by rw [q1]; exact c) (by rw [q1, k.dict, hd]) (by rw [q1, k.node, hn]) h
              obtain ⟨t1, t2⟩ := this
              refine ⟨?_, by rw [t2, q2, k.rpdos]⟩
              rw [t1, q3, k.tpdos, List.filter_cons, show usable dict node (receives i).1 (receives i).2 = false from r1.symm]
              rfl
          | throws x => cases h
          | ub => cases h
    · rename_i hlen
      cases h
      refine ⟨?_, rfl⟩
      rw [show nr - e.tpdos.length = 0 by omega]
      simp

end Verif.PdoInit
