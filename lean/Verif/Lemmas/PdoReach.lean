import Verif.Lemmas.PdoLayout

/-!
# States of the storage and the mapper
-/

set_option linter.unusedSimpArgs false
set_option linter.unusedSectionVars false

namespace Verif.PdoInit
open Verif Verif.OD Verif.Pdo Verif.Spec

variable {D α : Type}

/-- what every state has: the data belong to the dictionary, which is the given one -/
structure Base (dict : Dict) (node : BitVec 8) (e : Env D) : Prop where
  cons : Consistent e.s
  isDict : e.s.dict = dict
  isNode : e.s.nodeId = node

theorem base_stable (dv : Dev D) (dict : Dict) (node : BitVec 8) : Stable dv (Base (D := D) dict node) where
  one k e e' h h' := ⟨(cons_stable dv).one k e e' h.cons h', (one_kept h').dict.trans h.isDict, (one_kept h').node.trans h.isNode⟩
  map r w e e' h hw hr h' := ⟨(cons_stable dv).map r w e e' h.cons hw hr h', (mapped_kept h').dict.trans h.isDict, (mapped_kept h').node.trans h.isNode⟩
  new n e h := ⟨h.cons, h.isDict, h.isNode⟩
  clean n e h := ⟨h.cons, h.isDict, h.isNode⟩

theorem initNolock_isOne (dv : Dev D) (mem : Mem) (k : Key) (en : Entry) (e : Env D) (he : e.s.dict.get k = some en) :
    One dv k e { e with s := (e.s.initNolock (pdoBus dv) mem k en e.c).1, c := (e.s.initNolock (pdoBus dv) mem k en e.c).2.1 } := by
  rcases initNolock_calls (pdoBus dv) mem e.s e.c k en with ⟨h1, h2⟩ | ⟨d, d', hd, hs, h1, h2⟩
  · rw [h1, h2]; exact .none rfl
  · rw [h1]
    refine .change d d' ?_ hs _ h2 rfl
    rcases hd with hd | ⟨a, b, c⟩
    · exact .inl hd
    · exact .inr ⟨a, by rw [b]; exact he, c⟩

theorem initAll_base (dv : Dev D) (mem : Mem) (dict : Dict) (node : BitVec 8) (l : Dict) (hl : ∀ p ∈ l, dict.get p.1 = some p.2) : ∀ (e : Env D), Base dict node e →
    Base dict node { e with s := (Storage.initAllFrom (pdoBus dv) mem l e.s e.c).1, c := (Storage.initAllFrom (pdoBus dv) mem l e.s e.c).2.1 } := by
  induction l with
  | nil => intro e he; exact he
  | cons p l ih =>
    intro e he
    obtain ⟨k, en⟩ := p
    have h1 := (base_stable dv dict node).one k e _ he (initNolock_isOne dv mem k en e (by rw [he.isDict]; exact hl _ List.mem_cons_self))
    have ih1 := ih (fun p hp => hl p (List.mem_cons_of_mem _ hp)) _ h1
    unfold Storage.initAllFrom
    dsimp only
    split
    · exact ih1
    · exact h1

theorem step_base (dv : Dev D) (mem : Mem) (dict : Dict) (hn : dict.NodupKeys) (node : BitVec 8) (o : SOp) (ho : IsUse o) (e : Env D) (he : Base dict node e) :
    Base dict node { e with s := (e.s.step (pdoBus dv) mem e.c o).1, c := (e.s.step (pdoBus dv) mem e.c o).2.1 } := by
  have st := (base_stable dv dict node).toStableOne
  cases o with
  | map => exact ho.elim
  | «open» k ty => exact st.one k e _ he (openEntry_one dv mem k ty e)
  | init k => exact st.one k e _ he (initEntry_one dv mem k e)
  | initAll => exact initAll_base dv mem dict node _ (fun p hp => by rw [he.isDict] at hp; exact get_nodup hn hp) e he
  | reset =>
    refine ⟨fun k d hd => ?_, he.isDict, he.isNode⟩
    have : ∃ d0, e.s.data k = some d0 ∧ d0.reset mem = d := by
      unfold Storage.step Storage.reset at hd
      simpa using hd
    obtain ⟨d0, h0, rfl⟩ := this
    rw [(reset_same mem d0).entry]
    exact he.cons k d0 h0
  | get k cached =>
    have h := st.one k e _ he (getEntry_one dv k cached e)
    unfold getEntry at h
    cases hd : e.s.data k with
    | none => simp only [Storage.step, hd]; exact he
    | some d => rw [hd] at h; simp only [Storage.step, hd]; exact h
  | set k v =>
    have h := st.one k e _ he (setEntry_one dv k v e)
    unfold setEntry at h
    cases hd : e.s.data k with
    | none => simp only [Storage.step, hd]; exact he
    | some d => rw [hd] at h; simp only [Storage.step, hd]; exact h
  | setCached k v =>
    cases hd : e.s.data k with
    | none => simp only [Storage.step, hd]; exact he
    | some d =>
      simp only [Storage.step, hd]
      obtain ⟨hs, hc⟩ := setCached_calls (pdoBus dv) d e.c v
      exact st.one k e _ he (.change d _ (.inl hd) hs _ hc rfl)

theorem run_base (dv : Dev D) (mem : Mem) (dict : Dict) (hn : dict.NodupKeys) (node : BitVec 8) (ops : List SOp) (ho : ∀ o ∈ ops, IsUse o) :
    ∀ (e : Env D), Base dict node e → Base dict node (uses dv mem ops e) := by
  induction ops with
  | nil => intro e he; exact he
  | cons o ops ih =>
    intro e he
    exact ih (fun x hx => ho x (List.mem_cons_of_mem _ hx)) _ (step_base dv mem dict hn node o (ho o List.mem_cons_self) e he)

theorem create_base {dict : Dict} {node : BitVec 8} {m : Act D (Option Rec)} (hm : Keep (Base dict node) m) : Keep (Base dict node) (create m) := by
  intro e he
  have h := hm e he
  unfold create
  dsimp only
  split
  · exact h
  · exact ⟨h.cons, h.isDict, h.isNode⟩

theorem rpdoLoop_base (dv : Dev D) (mem : Mem) (junk : Vector Byte 8) (nr : Nat) (dict : Dict) (node : BitVec 8) (is : List Nat) :
    Keep (Base dict node) (rpdoLoop dv mem junk nr is) := by
  induction is with
  | nil => exact keep_pure _
  | cons i is ih =>
    intro e he
    unfold rpdoLoop
    dsimp only
    split
    · split
      · exact ih e he
      · have h := create_base (keep_rpdoInit (base_stable dv dict node) mem junk (0x1800#16 + BitVec.ofNat 16 i) (0x1A00#16 + BitVec.ofNat 16 i)) e he
        revert h
        generalize create (rpdoInit dv mem junk (0x1800#16 + BitVec.ofNat 16 i) (0x1A00#16 + BitVec.ofNat 16 i)) e = r
        obtain ⟨e', o⟩ := r
        intro h
        cases o with
        | ok o =>
          cases o with
          | some x => exact ih _ ⟨h.cons, h.isDict, h.isNode⟩
          | none => exact ih _ h
        | throws x => exact h
        | ub => exact h
    · exact he

theorem tpdoLoop_base (dv : Dev D) (mem : Mem) (junk : Vector Byte 8) (nr : Nat) (dict : Dict) (node : BitVec 8) (is : List Nat) :
    Keep (Base dict node) (tpdoLoop dv mem junk nr is) := by
  induction is with
  | nil => exact keep_pure _
  | cons i is ih =>
    intro e he
    unfold tpdoLoop
    dsimp only
    split
    · split
      · exact ih e he
      · have h := create_base (keep_tpdoInit (base_stable dv dict node) mem junk (0x1400#16 + BitVec.ofNat 16 i) (0x1600#16 + BitVec.ofNat 16 i)) e he
        revert h
        generalize create (tpdoInit dv mem junk (0x1400#16 + BitVec.ofNat 16 i) (0x1600#16 + BitVec.ofNat 16 i)) e = r
        obtain ⟨e', o⟩ := r
        intro h
        cases o with
        | ok o =>
          cases o with
          | some x => exact ih _ ⟨h.cons, h.isDict, h.isNode⟩
          | none => exact ih _ h
        | throws x => exact h
        | ub => exact h
    · exact he

theorem mapperInit_base (dv : Dev D) (mem : Mem) (junk : Vector Byte 8) (nrTx nrRx : Nat) (dict : Dict) (node : BitVec 8) :
    Keep (Base (D := D) dict node) (mapperInit dv mem junk nrTx nrRx) := by
  intro e he
  have hb : Keep (Base (D := D) dict node) (initBody dv mem junk nrTx nrRx) := by
    unfold initBody
    exact keep_bind (fun e h => ⟨h.cons, h.isDict, h.isNode⟩) fun _ => keep_bind (rpdoLoop_base dv mem junk nrTx dict node _) fun _ =>
      keep_bind (fun e h => ⟨h.cons, h.isDict, h.isNode⟩) fun _ => tpdoLoop_base dv mem junk nrRx dict node _
  have h := hb e he
  unfold mapperInit
  revert h
  generalize initBody dv mem junk nrTx nrRx e = r
  obtain ⟨e', o⟩ := r
  intro h
  cases o with
  | ok u => exact h
  | throws x => cases x <;> exact h
  | ub => exact h

theorem reached_base {dv : Dev D} {mem : Mem} {junk : Vector Byte 8} {nrTx nrRx : Nat} {dict : Dict} (hn : dict.NodupKeys) {node : BitVec 8} {e : Env D}
    (h : Reached dv mem junk nrTx nrRx dict node e) : Base dict node e := by
  induction h with
  | start d => exact ⟨fun k d h => by simp [Spec.fresh, Storage.fresh] at h, rfl, rfl⟩
  | use e ops ho _ ih => exact run_base dv mem dict hn node ops ho e ih
  | setUp e _ ih => exact mapperInit_base dv mem junk nrTx nrRx dict node e ih

/-- the mapper creates exactly the first usable PDOs, in order -/
theorem mapperInit_list (dv : Dev D) (mem : Mem) (junk : Vector Byte 8) (nrTx nrRx : Nat) (dict : Dict) (node : BitVec 8) (e e' : Env D) (he : Base dict node e)
    (h : mapperInit dv mem junk nrTx nrRx e = (e', .ok true)) :
    e'.rpdos.map (·.com) = (((List.range 512).filter fun i => usable dict node (sends i).1 (sends i).2).take nrTx).map (fun i => (sends i).1) ∧
    e'.tpdos.map (·.com) = (((List.range 512).filter fun i => usable dict node (receives i).1 (receives i).2).take nrRx).map (fun i => (receives i).1) := by
  unfold mapperInit at h
  cases hb : initBody dv mem junk nrTx nrRx e with
  | mk e1 o =>
    rw [hb] at h
    cases o with
    | ub => cases h
    | throws x => cases x <;> cases h
    | ok u =>
      cases h
      unfold initBody at hb
      bnd hb with e2 u12 a1
      bnd hb with e3 u13 a2
      bnd hb with e4 u14 a3
      cases a1
      obtain ⟨g1, g2, g3, g4, g5⟩ := rpdoLoop_list dv mem junk nrTx dict node _ _ _ _ (by exact he.cons) (by exact he.isDict) (by exact he.isNode) a2
      cases a3
      obtain ⟨k1, k2⟩ := tpdoLoop_list dv mem junk nrRx dict node _ _ _ _ (by exact g3) (by exact g4) (by exact g5) hb
      constructor
      · rw [k2]
        show e3.rpdos.map _ = _
        rw [g1]
        simp
      · rw [k1]
        simp

/-- what a set-up that ends normally leaves on the device -/
theorem parse_restored (dv : Dev D) (mem : Mem) (dict : Dict) (com map : BitVec 16) (read write : Bool) (hne : com ≠ map) (e e' : Env D) (r : Byte × List Nat)
    (hs : Sound dict e) (h : parseAndSet dv mem com map read write e = (e', .ok r)) {c m : Entry}
    (hc : dict.get (sub com 1) = some c) (hcw : c.writable = true) (hm : dict.get (sub map 0) = some m) (hmw : m.writable = true)
    (hcd : Direct (sub com 1) e') (hmd : Direct (sub map 0) e')
    (hch : ∃ s, 1 ≤ s ∧ s ≤ mappingCount dict map ∧ hasInit dict map s = true) :
    (∃ v rest, applyOffset .u32 c.value e.s.nodeId = .ok v ∧ lastWrite com 1 e'.c.log = some (bytes32 v ++ rest)) ∧
    (∃ rest, lastWrite map 0 e'.c.log = some (BitVec.ofNat 8 (mappingCount dict map) :: rest)) := by
  unfold parseAndSet at h
  bnd h with e1 u1 h1
  bnd h with e2 x h2
  bnd h with e3 mc h3
  bnd h with e4 di h4
  bnd h with e5 u5 h5
  bnd h with e6 r' h6
  bnd h with e7 u7 h7
  bnd h with e8 u8 h8
  obtain ⟨rfl, rfl⟩ := pure_ok h
  obtain ⟨rfl, d, hd, hx⟩ := descOf_ok h2
  have s2 := keep_ok (keep_open (sound_stable dv dict).toStableOne _ _ _) h1 hs
  have k2 := keep_ok (keep_open (kept_stable dv e).toStableOne _ _ _) h1 (.refl e)
  have hcount : mappingCount dict map = if 0 < mapNum x ∧ mapNum x ≤ 0x40 then mapNum x else 0 := by
    have := s2.cons _ _ hd
    rw [s2.isDict, hx] at this
    unfold mappingCount mapNum
    rw [this]
    dsimp only
    cases x.value.getInt .u8 <;> rfl
  obtain ⟨s, hs1, hs2, hs3⟩ := hch
  have hnum : 0 < mapNum x ∧ mapNum x ≤ 0x40 := by
    by_cases hq : 0 < mapNum x ∧ mapNum x ≤ 0x40
    · exact hq
    · rw [if_neg hq] at hcount; omega
  rw [if_pos hnum] at hcount
  have hmc : mc = true ∧ e3 = e2 := by
    unfold mapChanged at h3
    rw [if_pos hnum.2] at h3
    injection h3 with a b
    injection b with b
    refine ⟨?_, a.symm⟩
    rw [← b, s2.isDict, List.any_eq_true]
    exact ⟨s, by rw [List.mem_range']; exact ⟨s - 1, by omega, by omega⟩, hs3⟩
  obtain ⟨rfl, rfl⟩ := hmc
  have q4 : e4 = e3 := by injection h4 with a b; exact a.symm
  subst q4
  have s7 := keep_ok (keep_setCom (sound_stable dv dict).toStableOne mem com _) h7
    (keep_ok (keep_setMapping (sound_stable dv dict) mem map _ _ _ _) h6 (keep_ok (keep_disable (sound_stable dv dict).toStableOne mem com _) h5 s2))
  have k7 := keep_ok (keep_setCom (kept_stable dv e).toStableOne mem com _) h7
    (keep_ok (keep_setMapping (kept_stable dv e) mem map _ _ _ _) h6 (keep_ok (keep_disable (kept_stable dv e).toStableOne mem com _) h5 k2))
  obtain ⟨a, b⟩ := enable_ok hne mem _ _ _ s7 h8 hc hcw hm hmw hcd hmd
  rw [hcount]
  refine ⟨?_, b rfl⟩
  rw [k7.node] at a
  exact a (by rw [Bool.or_true])

/-- transmission type of a PDO the device receives -/
theorem tpdo_type (dv : Dev D) (mem : Mem) (junk : Vector Byte 8) (dict : Dict) (com map : BitVec 16) (e e' : Env D) (x : Rec) (hs : Sound dict e)
    (h : tpdoInit dv mem junk com map e = (e', .ok (some x))) {y : Entry} (hy : dict.get (sub com 2) = some y) (hw : y.writable = true)
    (hd : Direct (sub com 2) e') (h1 : x.type ≠ 1#8) (h2 : x.type.toNat ≤ 240) :
    ∃ rest, lastWrite com 2 e'.c.log = some (1#8 :: rest) := by
  unfold tpdoInit at h
  bnd h with e1 w a1
  bnd h with e2 r a2
  obtain ⟨rfl, -⟩ := cobWord_ok a1
  have s2 := keep_ok (keep_parse (sound_stable dv dict) mem com map _ _) a2 hs
  split at h
  · obtain ⟨-, h⟩ := pure_ok h; cases h
  · bnd h with e3 u3 a3
    bnd h with e4 z a4
    bnd h with e5 t a5
    bnd h with e6 u6 a6
    obtain ⟨rfl, hx⟩ := pure_ok h
    cases hx
    have s3 := keep_ok (keep_open (sound_stable dv dict).toStableOne _ _ _) a3 s2
    obtain ⟨rfl, d, hd0, hz⟩ := descOf_ok a4
    obtain ⟨rfl, ht⟩ := lift_ok a5
    unfold enforceType at a6
    rw [if_pos ⟨h1, h2⟩] at a6
    have hen := s3.cons _ _ hd0
    rw [s3.isDict, hy] at hen
    have hen : y = d.entry := by injection hen
    obtain ⟨⟨rest, hl⟩, d', hd', hsame⟩ := setEntry_ok a6 hd0 (by rw [← hen]; exact hw)
    obtain ⟨hi, hsi⟩ := sound_entry hs.keys hy
    have hwr := hd d' hd'
    rw [hsame.wr] at hwr
    rw [hwr, ← hen, hi, hsi] at hl
    exact ⟨rest, by rw [hl]; exact lastWrite_snoc _ _ _ _⟩

theorem laid_layout {dict : Dict} {map : BitVec 16} {read : Bool} {e e' : Env D} {words : List (BitVec 32)}
    (h : Laid dict map read e e' (List.range' 1 (mappingCount dict map)) words) :
    Layout dict map read e e' words (List.range' e.c.w.next (mappingCount dict map)) := by
  have hl : words.length = mappingCount dict map := by rw [h.len]; simp
  have hj : ∀ (j : Nat) w, words[j]? = some w → j < mappingCount dict map := by
    intro j w hw
    rw [← hl]
    exact (List.getElem?_eq_some_iff.1 hw).1
  have hsub : ∀ (j : Nat) w, words[j]? = some w → (List.range' 1 (mappingCount dict map))[j]? = some (j + 1) := by
    intro j w hw
    rw [getElem?_range' _ _ _ (hj j w hw), Nat.add_comm]
  have hn : ∀ (j : Nat) w n, words[j]? = some w → (List.range' e.c.w.next (mappingCount dict map))[j]? = some n → n = e.c.w.next + j := by
    intro j w n hw hb
    rw [getElem?_range' _ _ _ (hj j w hw)] at hb
    injection hb with hb; exact hb.symm
  refine ⟨hl, ⟨by simp [hl], List.nodup_range', fun n hm => ?_⟩, ?_, ?_, ?_, h.exist, ?_, h.other⟩
  · rw [List.mem_range'] at hm
    obtain ⟨i, hi, hti⟩ := hm
    omega
  · intro j w n hw hb
    rw [hn j w n hw hb]
    exact (h.buf j w hw).2
  · intro j w x p hw hx hp
    exact h.conf j w (j + 1) x p hw (hsub j w hw) hx hp
  · intro j w x d hw hx hd hp h0 hi
    exact h.deflt j w (j + 1) x d hw (hsub j w hw) hx hd hp h0 hi
  · intro j w n k hw hb hk hlater
    rw [hn j w n hw hb]
    exact h.uses j w k hw hk hlater

theorem layout_later {dv : Dev D} {dict : Dict} {map : BitVec 16} {read : Bool} {e e' e2 : Env D} {words : List (BitVec 32)} {bufs : List Nat}
    (h : Layout dict map read e e' words bufs) (hb : ∀ n ∈ bufs, n < e'.c.w.next) (hk : ∀ {I : Env D → Prop}, StableOne dv I → I e' → I e2) :
    Layout dict map read e e2 words bufs := by
  refine ⟨h.count, h.buffers, ?_, h.configured, h.default, h.exist, ?_, ?_⟩
  · intro j w n hw hn
    exact (hk (buf_stable dv n (wordBytes w)).toStableOne ⟨hb n (List.mem_of_getElem? hn), h.room j w n hw hn⟩).2
  · intro j w n k hw hn hm hl
    exact hk (uses_stable dv _ _ _) (h.connected j w n k hw hn hm hl)
  · intro k r w hu hall
    exact hk (uses_stable dv _ _ _) (h.others k r w hu hall)

theorem rpdoInit_layout (dv : Dev D) (mem : Mem) (junk : Vector Byte 8) (dict : Dict) (com map : BitVec 16) (hne : com ≠ map) (e e' : Env D) (x : Rec)
    (hs : Sound dict e) (h : rpdoInit dv mem junk com map e = (e', .ok (some x))) : ∃ words, Layout dict map true e e' words x.bufs := by
  unfold rpdoInit at h
  bnd h with e1 r h1
  bnd h with e2 w h2
  obtain ⟨words, hl, -⟩ := parse_laid dv mem dict com map true false rfl hne _ _ _ hs h1
  obtain ⟨b1, -⟩ := parse_bufs dv mem com map _ _ _ _ _ hs.cons h1
  rw [hs.isDict] at b1
  obtain ⟨rfl, -⟩ := cobWord_ok h2
  split at h
  · obtain ⟨-, h⟩ := pure_ok h; cases h
  · bnd h with e3 z h3
    bnd h with e4 t h4
    obtain ⟨rfl, hx⟩ := pure_ok h
    cases hx
    obtain ⟨rfl, -⟩ := dictAt_ok h3
    obtain ⟨rfl, -⟩ := lift_ok h4
    exact ⟨words, by dsimp only; rw [b1]; exact laid_layout hl⟩

theorem tpdoInit_layout (dv : Dev D) (mem : Mem) (junk : Vector Byte 8) (dict : Dict) (com map : BitVec 16) (hne : com ≠ map) (e e' : Env D) (x : Rec)
    (hs : Sound dict e) (h : tpdoInit dv mem junk com map e = (e', .ok (some x))) :
    ∃ words, Layout dict map false e e' words x.bufs ∧ x.frame.dlc = BitVec.ofNat 8 ((words.map wordBytes).sum) := by
  unfold tpdoInit at h
  bnd h with e1 w h1
  bnd h with e2 r h2
  obtain ⟨rfl, -⟩ := cobWord_ok h1
  obtain ⟨words, hl, hdlc⟩ := parse_laid dv mem dict com map false true rfl hne _ _ _ hs h2
  obtain ⟨b1, b2⟩ := parse_bufs dv mem com map _ _ _ _ _ hs.cons h2
  rw [hs.isDict] at b1 b2
  split at h
  · obtain ⟨-, h⟩ := pure_ok h; cases h
  · bnd h with e3 u3 a3
    bnd h with e4 z a4
    bnd h with e5 t a5
    bnd h with e6 u6 a6
    obtain ⟨rfl, hx⟩ := pure_ok h
    cases hx
    obtain ⟨rfl, -⟩ := descOf_ok a4
    obtain ⟨rfl, -⟩ := lift_ok a5
    refine ⟨words, ?_, hdlc⟩
    dsimp only
    rw [b1]
    refine layout_later (dv := dv) (laid_layout hl) (fun n hn => ?_) (fun {I} hI hi => ?_)
    · rw [List.mem_range'] at hn
      obtain ⟨i, hi, hti⟩ := hn
      omega
    · refine keep_ok ?_ a6 (keep_ok (keep_open hI _ _ _) a3 hi)
      unfold enforceType
      exact keep_ite (fun _ => keep_set hI _ _) (fun _ => keep_pure _)

theorem keep_at_rpdoInit (dv : Dev D) (mem : Mem) (junk : Vector Byte 8) (dict : Dict) (L0 : List Acc) (com map : BitVec 16) (hne : com ≠ map) {e : Env D} {c m : Entry}
    (hs : Sound dict e) (hL : e.c.log = L0) (hc : dict.get (sub com 1) = some c) (hcw : c.writable = true) (hcd : Direct (sub com 1) e)
    (hm : dict.get (sub map 0) = some m) (hmw : m.writable = true) (hmd : Direct (sub map 0) e) :
    At dict L0 com map False False (rpdoInit dv mem junk com map e).1 := by
  have hp := parse_at (dv := dv) hne mem true false hs hL hc hcw hcd hm hmw hmd
  unfold rpdoInit
  have hrest : ∀ r : Byte × List Nat, Keep (At dict L0 com map False False) (do
      let w ← cobWord com
      if r.2.isEmpty || (PdoId.mk w).isInvalid then pure none
      else do
        let y ← dictAt com 2
        let t ← lift (y.value.getInt .u8)
        pure (some { com := com, frame := Frame.ofHeader junk ((PdoId.mk w).header true), type := t, bufs := r.2 } : Option Rec) : Act D (Option Rec)) := fun r =>
    keep_bind (keep_cobWord com) fun w => keep_ite (fun _ => keep_pure _) fun _ => keep_bind (keep_dictAt _ _) fun y => keep_bind (keep_lift _) fun t => keep_pure _
  refine (post_all (I := At dict L0 com map False False)).1 (post_bind (Q := fun _ => At dict L0 com map False False) (post_all.2 hp) fun r e1 h1 => ?_)
  exact post_all.2 (hrest r e1 h1)

theorem keep_at_tpdoInit (dv : Dev D) (mem : Mem) (junk : Vector Byte 8) (dict : Dict) (L0 : List Acc) (com map : BitVec 16) (hne : com ≠ map) {e : Env D} {c m : Entry}
    (hs : Sound dict e) (hL : e.c.log = L0) (hc : dict.get (sub com 1) = some c) (hcw : c.writable = true) (hcd : Direct (sub com 1) e)
    (hm : dict.get (sub map 0) = some m) (hmw : m.writable = true) (hmd : Direct (sub map 0) e) :
    At dict L0 com map False False (tpdoInit dv mem junk com map e).1 := by
  have hp := parse_at (dv := dv) hne mem false true hs hL hc hcw hcd hm hmw hmd
  have h0 : At dict L0 com map False False e := ⟨hs, [], by rw [hL]; simp, disc_nil _ _, fun x => x.elim, fun x => x.elim⟩
  have hset : ∀ v, Keep (At dict L0 com map False False) (setEntry dv (sub com 2) v) := fun v e h =>
    at_other hne hne (by simp) h (setEntry_one dv (sub com 2) v e)
  have htype : ∀ t, Keep (At dict L0 com map False False) (enforceType dv com t) := by
    intro t
    unfold enforceType
    exact keep_ite (fun _ => hset _) (fun _ => keep_pure _)
  unfold tpdoInit
  refine (post_all (I := At dict L0 com map False False)).1 (post_bind (Q := fun _ e' => e' = e) ?_ fun w e1 h1 => ?_)
  · have a : (cobWord com e : Env D × Outcome Err (BitVec 32)).1 = e := keep_cobWord (I := fun e' => e' = e) com e rfl
    revert a
    generalize (cobWord com e : Env D × Outcome Err (BitVec 32)) = r
    obtain ⟨e', o⟩ := r
    cases o <;> intro a
    · exact a
    · rw [show e' = e from a]; exact h0
    · rw [show e' = e from a]; exact h0
  · subst h1
    refine post_bind (Q := fun _ => At dict L0 com map False False) (post_all.2 hp) fun r e2 h2 => post_all.2 ?_
    exact keep_ite (fun _ => keep_pure _) (fun _ => keep_bind (keep_at_open hne mem _ _) fun _ => keep_bind (keep_descOf _) fun y => keep_bind (keep_lift _) fun t =>
      keep_bind (htype t) fun _ => keep_pure _) e2 h2

end Verif.PdoInit
