import Verif.Lemmas.Axis
import Verif.Props.Motor
import Verif.Props.HandleCycle

/-!
# From a controller to the bus: C104
-/

namespace Verif.Props
open Verif Verif.Pdo Verif.Spec.Pdo Verif.Axis Verif.Spec.Axis

/-- C104: whatever happens, every step of an axis is defined and only the end of a write cycle sends. -/
theorem C104_defined (L : Layout) (conv : Rob.Kind → M402.Dbl → M402.Dbl) (c0 : Cyc.St) (m0 : M402.Motor) (ok : Ok L m0) (es : List Ev)
    (hp : Sized L es) : ∃ a outs, run L conv (Axis.fresh L c0 m0) es = .ok (a, outs) ∧ outs.length = es.length ∧
      ∀ (i : Nat) (f : Frame), outs[i]? = some (some f) → es[i]? = some Ev.send := by
  have key : ∀ (q : List Ev) {es0 : List Ev} {a : Axis} {outs0 : List (Option Frame)} {mh : List M402.Ev} {pd}, Inv L es0 a outs0 mh pd →
      OfMode L pd → Sized L q → ∃ b os, run L conv a q = .ok (b, os) ∧ os.length = q.length ∧ ∀ (i : Nat) (f : Frame), os[i]? = some (some f) → q[i]? = some Ev.send := by
    intro q
    induction q with
    | nil => intro es0 a outs0 mh pd _ _ _; exact ⟨a, [], rfl, rfl, by simp⟩
    | cons e q ih =>
      intro es0 a outs0 mh pd inv hpd hp
      obtain ⟨b, o, pd', h1, h2, h3, h4⟩ := inv_step ok inv hpd conv e
        ⟨fun f hf => hp.1 f (by simp only [List.mem_cons, List.not_mem_nil, or_false] at hf; simp [hf]),
         fun v hf => hp.2 v (by simp only [List.mem_cons, List.not_mem_nil, or_false] at hf; simp [hf])⟩
      obtain ⟨c, os, g1, g2, g3⟩ := ih h2 h3
        ⟨fun f hf => hp.1 f (List.mem_cons_of_mem _ hf), fun v hf => hp.2 v (List.mem_cons_of_mem _ hf)⟩
      refine ⟨c, o :: os, by simp only [run, h1, g1], by simp [g2], ?_⟩
      intro i f hf
      cases i with
      | succ i => exact g3 i f (by simpa using hf)
      | zero =>
        simp only [List.getElem?_cons_zero, Option.some.injEq] at hf
        apply Classical.byContradiction
        intro hne
        have hne' : e ≠ .send := fun h => hne (by simp [h])
        cases e with
        | write =>
          obtain ⟨b', k1, -, -⟩ := inv_write ok inv conv
          rw [h1] at k1
          simp only [Outcome.ok.injEq, Prod.mk.injEq] at k1
          rw [hf] at k1; exact absurd k1.2 (by simp)
        | send => exact hne' rfl
        | _ =>
          have := (h4 (fun h => nomatch h) (fun h => nomatch h)).1
          rw [hf] at this; cases this
  obtain ⟨a, outs, h1, h2, h3⟩ := key es (inv_init L m0 ok c0) (fun _ _ h => nomatch h) hp
  exact ⟨a, outs, h1, h2, h3⟩

/-- one write cycle after any history -/
private theorem cycle_end (L : Layout) (conv : Rob.Kind → M402.Dbl → M402.Dbl) (c0 : Cyc.St) (m0 : M402.Motor) (ok : Ok L m0)
    (pre mid : List Ev) (hp : Sized L pre) (hq : Proper L mid) (hw : Ev.write ∉ mid) (hs : Ev.send ∉ mid) :
    ∃ a os0 b outs pd, run L conv (Axis.fresh L c0 m0) pre = .ok (a, os0) ∧ Inv L pre a os0 (mevs L conv (Axis.fresh L c0 m0) pre) pd ∧
      run L conv (Axis.fresh L c0 m0) (pre ++ .write :: (mid ++ [.send])) = .ok (b, outs) ∧
      (lastFrame outs = none → initOf L.tx L.cw = some (toBytes 2 a.m.handleWrite.2.1.toNat)) ∧
      (∀ f, lastFrame outs = some f → slice (sizesOf L.tx) L.cw f = toBytes 2 a.m.handleWrite.2.1.toNat) ∧
      (∀ j v, pending L a.m a.m.handleWrite.2.2 = some (j, v) → ∃ f os', outs = os' ++ [some f] ∧ slice (sizesOf L.tx) j f = v) := by
  obtain ⟨a, os0, pd, h1, -, h2, h3, -⟩ := inv_run_from ok conv pre (inv_init L m0 ok c0) (fun _ _ h => nomatch h) hp
  simp only [List.nil_append] at h2
  obtain ⟨b, k1, k2, k3⟩ := inv_write ok h2 conv
  obtain ⟨c, os1, pd1, l1, -, l2, l3, l4⟩ := inv_run_from ok conv mid k3 (by
    intro j v hj
    obtain ⟨k, n, -, -, h, -⟩ := pending_tgt hj
    exact ⟨k, h⟩) (sized_of_proper hq)
  obtain ⟨e1, e2⟩ := (l4 hw hs).2 hq
  rw [e1] at l2
  obtain ⟨d, o, n1, -, -, n2, n3⟩ := inv_send ok l2 conv
  refine ⟨a, os0, d, os0 ++ ([none] ++ (os1 ++ [o])), pd, h1, h2, ?_, ?_⟩
  · rw [run_append h1]
    simp only [run, k1]
    rw [run_append l1]
    simp only [run, n1, List.cons_append, List.nil_append]
  · have hassoc : os0 ++ [none] ++ os1 ++ [o] = os0 ++ ([none] ++ (os1 ++ [o])) := by simp
    rw [hassoc] at n3
    obtain ⟨q1, q2⟩ := n3 _ (by rw [e2, k2])
    refine ⟨q1, q2, ?_⟩
    intro j v hj
    obtain ⟨f, hf1, hf2⟩ := n2 j v hj
    exact ⟨f, os0 ++ ([none] ++ os1), by rw [hf1]; simp, hf2⟩

/-- C104, the control word on the bus: after a write cycle, the frame sent last (in this cycle or before) carries the control word the motor decided on in
this cycle; if none was ever sent, that word is the initial value of the object. -/
theorem C104_word (L : Layout) (conv : Rob.Kind → M402.Dbl → M402.Dbl) (c0 : Cyc.St) (m0 : M402.Motor) (ok : Ok L m0)
    (pre mid : List Ev) (hp : Sized L pre) (hq : Proper L mid) (hw : Ev.write ∉ mid) (hs : Ev.send ∉ mid) :
    ∃ a os0 b outs word t, run L conv (Axis.fresh L c0 m0) pre = .ok (a, os0) ∧ (a.m.step .write).2 = [.wrote word t] ∧
      run L conv (Axis.fresh L c0 m0) (pre ++ .write :: (mid ++ [.send])) = .ok (b, outs) ∧
      (∀ f, lastFrame outs = some f → controlWord L f = word) ∧
      (lastFrame outs = none → ∃ bs, initOf L.tx L.cw = some bs ∧ unsigned bs = word.toNat) := by
  obtain ⟨a, os0, b, outs, pd, h1, -, h2, h3, h4, -⟩ := cycle_end L conv c0 m0 ok pre mid hp hq hw hs
  refine ⟨a, os0, b, outs, _, _, h1, rfl, h2, ?_, ?_⟩
  · intro f hf
    unfold controlWord
    rw [h4 f hf, word_toBytes]
  · intro hn
    refine ⟨_, h3 hn, ?_⟩
    have h := unsigned_toBytes 2 a.m.handleWrite.2.1.toNat
    have := a.m.handleWrite.2.1.isLt
    rw [Int.emod_eq_of_lt (by omega) (by show _ < (65536 : Int); omega)] at h
    omega

/-- the line of the table an enabled drive fits -/
private theorem enabled_fits (sw : BitVec 16) (h : M402.decode sw = .enabled) : Spec.M402.fits "xxxxxxxxx01x0111".toList sw = true := by
  apply Classical.byContradiction
  intro hn
  obtain ⟨h1, h2⟩ := C49_state sw
  have : ∀ s p, (s, p) ∈ Spec.M402.stateTable → Spec.M402.fits p sw = false := by
    intro s p hm
    cases hf : Spec.M402.fits p sw with
    | false => rfl
    | true =>
      have he := h1 s p hm hf
      rw [h] at he
      subst he
      have : p = "xxxxxxxxx01x0111".toList := by
        revert hm
        simp only [Spec.M402.stateTable, List.mem_cons, Prod.mk.injEq, reduceCtorEq, false_and, false_or, true_and, List.not_mem_nil, or_false]
        exact id
      rw [this] at hf
      exact absurd hf hn
  rw [h2 this] at h
  cases h

private theorem seen_length (L : Layout) (m0 : M402.Motor) (ok : Ok L m0) (i : Nat) (hi : i < L.rx.length) (bs : List Byte) (h : List Ev)
    (hs : seen (sizesOf L.rx) (initOf L.rx) i h = some bs) : bs.length = (sizesOf L.rx).getD i 0 := by
  have hl : (sizesOf L.rx).length = L.rx.length := by simp [sizesOf]
  have hh : ∀ h y, heard (sizesOf L.rx) i h = some y → y.length = (sizesOf L.rx).getD i 0 := by
    intro h y
    induction h with
    | nil => intro h; simp [heard] at h
    | cons e h ih =>
      cases e with
      | frame f =>
        intro h
        simp only [heard, Option.some.injEq] at h
        rw [← h, slice, take_drop_length]
        have := offset_le (sizesOf L.rx) i (by rw [hl]; exact hi)
        have := ok.rx.2.1
        omega
      | _ => exact ih
  induction h with
  | nil => simp [seen] at hs
  | cons e h ih =>
    cases e with
    | read =>
      simp only [seen] at hs
      cases hc : heard (sizesOf L.rx) i h with
      | some y => rw [hc] at hs; simp only [Option.some_or, Option.some.injEq] at hs; rw [← hs]; exact hh h y hc
      | none =>
        rw [hc] at hs
        simp only [Option.none_or] at hs
        obtain ⟨o, h1, h2, h3⟩ := objs_get L.rx i (by rw [hl]; exact hi)
        rw [h3] at hs
        rw [← h2]
        exact ok.rx.2.2 o (List.mem_of_getElem? h1) bs hs
    | _ => exact ih hs

private theorem display_small (bs : List Byte) (hl : bs.length = 1) (k : Nat) (hk : k < 128)
    (h : ((BitVec.ofNat 8 (unsigned bs)).signExtend 16).toNat = k) : signed bs = k := by
  match bs, hl with
  | [b], _ =>
    have key : ∀ b : BitVec 8, ((BitVec.ofNat 8 (unsigned [b])).signExtend 16).toNat < 128 →
        signed [b] = (((BitVec.ofNat 8 (unsigned [b])).signExtend 16).toNat : Int) := by decide +kernel
    rw [key b (by omega), h]

private theorem display_of (bs : List Byte) (hl : bs.length = 1) (k : Nat) (h : signed bs = k) :
    ((BitVec.ofNat 8 (unsigned bs)).signExtend 16).toNat = k := by
  match bs, hl with
  | [b], _ =>
    have key : ∀ b : BitVec 8, 0 ≤ signed [b] → (((BitVec.ofNat 8 (unsigned [b])).signExtend 16).toNat : Int) = signed [b] := by decide +kernel
    have := key b (by omega)
    omega

/-- C104, no motion without cause: if, after a write cycle, the frame sent last lets the drive move (halt bit clear), then the drive reported to be enabled and in
the selected mode `k` when the motor last looked before, and the mode is homing or was given a target that is not not-a-number by the joint handle; for a mode that
forwards targets, the frame carries that target (its integer part, limited to the range of the object), and no other target was taken since. -/
theorem C104_moves (L : Layout) (conv : Rob.Kind → M402.Dbl → M402.Dbl) (c0 : Cyc.St) (m0 : M402.Motor) (ok : Ok L m0) (hf : Spec.M402.Fresh m0)
    (pre mid : List Ev) (hp : Sized L pre) (hq : Proper L mid) (hw : Ev.write ∉ mid) (hs : Ev.send ∉ mid) :
    ∃ b outs, run L conv (Axis.fresh L c0 m0) (pre ++ .write :: (mid ++ [.send])) = .ok (b, outs) ∧
      ∀ f, lastFrame outs = some f → (controlWord L f).getLsbD 8 = false →
        Enabled L pre.reverse ∧ ∃ k, Displays L pre.reverse k ∧
          (∃ a os, run L conv (Axis.fresh L c0 m0) pre = .ok (a, os) ∧ a.m.selected = some k) ∧
          (k = 6 ∨ ∃ kind v, v ≠ .nan ∧ LastTarget L conv (Axis.fresh L c0 m0) pre k kind v ∧
            ∀ j o s w t, L.tgt k = some j → m0.modes k = some (.forward o s w t) → Spec.M402.Stored t.lo t.hi v (targetAt L j f)) := by
  obtain ⟨a, os0, b, outs, pd, h1, hinv, h2, h3, h4, h5⟩ := cycle_end L conv c0 m0 ok pre mid hp hq hw hs
  refine ⟨b, outs, h2, ?_⟩
  intro f hlast hhalt
  have hcw : controlWord L f = a.m.handleWrite.2.1 := by unfold controlWord; rw [h4 f hlast, word_toBytes]
  rw [hcw] at hhalt
  have ham : a.m = (m0.run (mevs L conv (Axis.fresh L c0 m0) pre)).1 := motor_run h1
  have hwr : ((m0.run (mevs L conv (Axis.fresh L c0 m0) pre)).1.step .write).2 = [.wrote a.m.handleWrite.2.1 a.m.handleWrite.2.2] := by rw [← ham]; rfl
  obtain ⟨sw, k, g1, g2, g3, g4, g5⟩ := C53_halt m0 hf _ _ _ hwr hhalt
  have mi := M402.minv_run hf (mevs L conv (Axis.fresh L c0 m0) pre)
  rw [hinv.word] at g1
  rw [hinv.disp] at g3
  obtain ⟨bs1, s1, s2⟩ := Option.map_eq_some_iff.mp g1
  obtain ⟨bs2, s3, s4⟩ := Option.map_eq_some_iff.mp g3
  have hsup := (M402.canAlloc_pos (mi.alloc k (Or.inl g4))).1
  refine ⟨⟨bs1, s1, by rw [s2]; exact enabled_fits sw g2⟩, k, ⟨bs2, s3, ?_⟩, ⟨a, os0, h1, by rw [ham]; exact g4⟩, ?_⟩
  · refine display_small bs2 (by rw [seen_length L m0 ok _ ok.disp.1 bs2 _ s3, ok.disp.2]) k ?_ s4
    obtain ⟨d, -, -, h, -⟩ := hsup
    omega
  · rcases g5 with ⟨v, hv, hgiven⟩ | ⟨h6, -⟩
    · refine Or.inr ?_
      by_cases hfw : ∃ o s w t, m0.modes k = some (.forward o s w t)
      · -- a mode that forwards: the target written is the one given
        obtain ⟨o, s, w, t, hm0⟩ := hfw
        have hshape := shape_run (mevs L conv (Axis.fresh L c0 m0) pre) m0 k
        rw [← ham] at hshape g4
        rw [hm0] at hshape
        obtain ⟨hd, hmode, hsh⟩ := Option.map_eq_some_iff.mp (hshape.trans (Option.map_some _ _))
        cases hd with
        | profPos p => cases hsh
        | homing x => cases hsh
        | forward o' s' w' t' =>
          simp only [shape, Option.some.injEq, Prod.mk.injEq, true_and] at hsh
          obtain ⟨he, hd, hact, hstill⟩ := (M402.word_halt a.m).1 hhalt
          obtain ⟨hsel, hmode'⟩ := M402.active_some hact
          have hk : a.m.modeId = k := by rw [g4] at hsel; injection hsel with h; exact h.symm
          rw [hk, hmode] at hmode'
          injection hmode' with hmode'
          subst hmode'
          have hhas : t'.has = true := by
            cases hh : t'.has with
            | true => rfl
            | false => exact absurd hh hstill
          have hwt : a.m.handleWrite.2.2 = some t'.target := by
            unfold M402.Motor.handleWrite
            simp only [if_pos he]
            unfold M402.Motor.writeMode
            rw [hact]
            simp only [M402.Mode.write, if_pos hhas]
          rw [hwt] at hwr h5
          obtain ⟨sw', k', v', lo, hi, -, -, r3, r4, ⟨h', g', r5, r6, r7, r8⟩, r9⟩ := C53_target m0 hf _ _ _ hwr
          rw [← ham] at r3 r5
          have hkk : k' = k := by rw [g4] at r3; injection r3 with h; exact h.symm
          subst hkk
          rw [hmode] at r5
          injection r5 with r5
          subst r5
          injection r6 with r6
          subst r6
          obtain ⟨kind, hlt⟩ := lastTarget_of_given h1 (k := k') (v := v') r4
          refine ⟨kind, v', ?_, hlt, ?_⟩
          · intro e; rw [e] at r9; exact r9
          · intro j o2 s2 w2 t2 hj hm2
            rw [hm0] at hm2
            injection hm2 with hm2
            injection hm2 with _ _ _ hm2
            subst hm2
            have hpend : pending L a.m (some t'.target) = some (j, toBytes (L.width k') t'.target) := by
              unfold pending
              rw [g4]
              simp only [Option.bind_some, hj, Option.map_some]
            obtain ⟨f', os', q1, q2⟩ := h5 _ _ hpend
            have hff : f' = f := by
              rw [q1, lastFrame_append] at hlast
              simpa using hlast
            subst hff
            rw [hsh.1] at r7
            rw [hsh.2] at r8
            rw [r7, r8]
            unfold targetAt
            rw [q2]
            obtain ⟨w1, w2⟩ := ok.range k' j _ _ _ _ hj hm0
            have hok := mi.ok k' (.forward o' s' w' t') (by rw [← ham]; exact hmode)
            have hrange : lo ≤ t'.target ∧ t'.target ≤ hi := by
              have z0 : t.lo ≤ 0 ∧ 0 ≤ t.hi := hf.ranges k' _ _ _ _ hm0
              rw [r7, r8] at z0
              revert r9
              unfold Spec.M402.Stored
              split
              · exact False.elim
              · intro h; omega
              · intro h; omega
              · rintro ⟨n, -, h⟩
                unfold Spec.M402.limit at h
                repeat' (split at h)
                all_goals omega
            rw [r7] at w1
            rw [r8] at w2
            rw [signed_toBytes _ _ (by omega) (by omega)]
            exact r9
      · obtain ⟨kind, hlt⟩ := lastTarget_of_given h1 (k := k) (v := v) hgiven
        exact ⟨kind, v, hv, hlt, fun j o s w t _ hm => absurd ⟨o, s, w, t, hm⟩ hfw⟩
    · exact Or.inl h6

private theorem lastFrame_both (a b : List (Option Frame)) : lastFrame (a ++ b) = (lastFrame b).or (lastFrame a) := by
  induction a with
  | nil => simp [lastFrame]
  | cons x a ih => simp [lastFrame, ih, Option.or_assoc]

/-- C104, set-points: in the profiled position mode the drive takes a target when the bit for a new set-point rises.  Take two write cycles in a row, the frame sent
last not having the bit after the first and having it after the second, with the mode selected: then the drive reported to be enabled and in the mode when the motor
last looked before, and the second frame lets it move and carries the target that was last given by the joint handle (its integer part, limited to the range of
the object). -/
theorem C104_setpoint (L : Layout) (conv : Rob.Kind → M402.Dbl → M402.Dbl) (c0 : Cyc.St) (m0 : M402.Motor) (ok : Ok L m0) (hf : Spec.M402.Fresh m0)
    (pre mid1 btw mid2 : List Ev) (hp : Sized L pre) (hq1 : Proper L mid1) (hb : Sized L btw) (hq2 : Proper L mid2)
    (hw : Ev.write ∉ mid1 ++ btw ++ mid2) (hs : Ev.send ∉ mid1 ++ btw ++ mid2)
    (k j : Nat) (p : M402.ProfPos) (hm : m0.modes k = some (.profPos p)) (hj : L.tgt k = some j)
    (hr : -(256 ^ L.width k : Int) ≤ 2 * p.t.lo ∧ 2 * p.t.hi < 256 ^ L.width k) :
    let past := pre ++ .write :: (mid1 ++ .send :: btw)
    ∃ a os b outs, run L conv (Axis.fresh L c0 m0) past = .ok (a, os) ∧
      run L conv (Axis.fresh L c0 m0) (past ++ .write :: (mid2 ++ [.send])) = .ok (b, outs) ∧
      ∀ g f, lastFrame os = some g → (controlWord L g).getLsbD 4 = false → lastFrame outs = some f → (controlWord L f).getLsbD 4 = true →
        a.m.selected = some k → Enabled L past.reverse ∧ Displays L past.reverse k ∧ (controlWord L f).getLsbD 8 = false ∧
          ∃ kind v, v ≠ .nan ∧ LastTarget L conv (Axis.fresh L c0 m0) past k kind v ∧ Spec.M402.Stored p.t.lo p.t.hi v (targetAt L j f) := by
  intro past
  have hw1 : Ev.write ∉ mid1 := fun h => hw (by simp [h])
  have hw2 : Ev.write ∉ btw := fun h => hw (by simp [h])
  have hw3 : Ev.write ∉ mid2 := fun h => hw (by simp [h])
  have hs1 : Ev.send ∉ mid1 := fun h => hs (by simp [h])
  have hs2 : Ev.send ∉ btw := fun h => hs (by simp [h])
  have hs3 : Ev.send ∉ mid2 := fun h => hs (by simp [h])
  have hsz := sized_of_proper hq1
  have hP : Sized L past := by
    refine ⟨fun f hx => ?_, fun v hx => ?_⟩
    · simp only [past, List.mem_append, List.mem_cons, reduceCtorEq, false_or] at hx
      rcases hx with h | h | h
      · exact hp.1 f h
      · exact hsz.1 f h
      · exact hb.1 f h
    · simp only [past, List.mem_append, List.mem_cons, reduceCtorEq, false_or] at hx
      rcases hx with h | h | h
      · exact hp.2 v h
      · exact hsz.2 v h
      · exact hb.2 v h
  obtain ⟨a1, os1, b1, outs1, pd1, f1, -, f2, -, f4, -⟩ := cycle_end L conv c0 m0 ok pre mid1 hp hq1 hw1 hs1
  obtain ⟨a, os, b, outs, pd, h1, hinv, h2, -, h4, h5⟩ := cycle_end L conv c0 m0 ok past mid2 hP hq2 hw3 hs3
  refine ⟨a, os, b, outs, h1, h2, ?_⟩
  intro g f hg hg4 hlast hf4 hsel
  -- the bit is not set before the second cycle
  have hbit : a.m.cw.getLsbD 4 = false := by
    obtain ⟨os2, r1, -⟩ := run_rest f1 h1
    obtain ⟨c, o, os3, s1, s2, -⟩ := run_cons r1
    have hc : c.m = a1.m.handleWrite.1 := by
      simp only [step] at s1
      split at s1 <;> first | (cases s1; rfl) | cases s1
    refine bit_run _ s2 (by simp [hw1, hw2]) ?_
    rw [hc, bit_written]
    have hpast : past = (pre ++ .write :: (mid1 ++ [.send])) ++ btw := by simp [past]
    rw [hpast] at h1
    obtain ⟨os4, t1, t2⟩ := run_rest f2 h1
    rw [t2, lastFrame_both, quiet_run _ t1 hs2] at hg
    have := f4 g (by simpa using hg)
    unfold controlWord at hg4
    rw [this, word_toBytes] at hg4
    exact hg4
  have hword : a.m.handleWrite.2.1.getLsbD 4 = true := by
    unfold controlWord at hf4
    rw [h4 f hlast, word_toBytes] at hf4
    exact hf4
  -- the mode is still of that kind
  have ham : a.m = (m0.run (mevs L conv (Axis.fresh L c0 m0) past)).1 := motor_run h1
  have hshape := shape_run (mevs L conv (Axis.fresh L c0 m0) past) m0 k
  rw [← ham, hm] at hshape
  obtain ⟨hd, hmode, hsh⟩ := Option.map_eq_some_iff.mp (hshape.trans (Option.map_some _ _))
  cases hd with
  | forward o s w t => simp [shape] at hsh
  | homing x => simp [shape] at hsh
  | profPos p' =>
    simp only [shape, Option.some.injEq, Prod.mk.injEq, true_and] at hsh
    obtain ⟨n, hn⟩ := bit_rises a.m k p' hsel hmode hbit hword
    have hwr : ((m0.run (mevs L conv (Axis.fresh L c0 m0) past)).1.step .write).2 = [.wrote a.m.handleWrite.2.1 (some n)] := by
      rw [← ham, ← hn]; rfl
    obtain ⟨sw, k', v, lo, hi, g1, g2, g3, g4, ⟨h', t', r5, r6, r7, r8⟩, r9⟩ := C53_target m0 hf _ _ _ hwr
    have mi := M402.minv_run hf (mevs L conv (Axis.fresh L c0 m0) past)
    rw [← ham] at g3 r5 mi
    have hkk : k' = k := by rw [hsel] at g3; injection g3 with h; exact h.symm
    subst hkk
    rw [hmode] at r5
    injection r5 with r5
    subst r5
    injection r6 with r6
    subst r6
    rw [hsh.1] at r7
    rw [hsh.2] at r8
    subst r7 r8
    have hgo : p'.t.Ok := mi.ok k' _ hmode
    obtain ⟨he, h, ha, gg, hgg, hhas, -⟩ := M402.word_target a.m n hn
    have hmid : a.m.modeId = k' := by
      have := (M402.active_some ha).1
      rw [hsel] at this
      injection this with h
      exact h.symm
    obtain ⟨kind, hlt⟩ := lastTarget_of_given h1 (k := k') (v := v) g4
    have hhalt : a.m.handleWrite.2.1.getLsbD 8 = false := by
      rw [M402.word_halt]
      refine ⟨he, h, ha, fun hst => ?_⟩
      rw [hgg] at hst
      have : gg.has = false := hst
      rw [hhas] at this; cases this
    rw [hinv.word] at g1
    obtain ⟨bs1, s1, s2⟩ := Option.map_eq_some_iff.mp g1
    refine ⟨⟨bs1, s1, by rw [s2]; exact enabled_fits sw g2⟩, ?_, by unfold controlWord; rw [h4 f hlast, word_toBytes]; exact hhalt, kind, v, ?_, hlt, ?_⟩
    · have hwr' := hwr
      rw [← hn] at hwr'
      obtain ⟨sw', k2, -, -, d3, d4, -⟩ := C53_halt m0 hf _ _ _ hwr' hhalt
      rw [← ham, hsel] at d4
      injection d4 with d4
      subst d4
      rw [hinv.disp] at d3
      obtain ⟨bs2, s3, s4⟩ := Option.map_eq_some_iff.mp d3
      have hsup := (M402.canAlloc_pos (mi.alloc k' (Or.inl hsel))).1
      refine ⟨bs2, s3, ?_⟩
      refine display_small bs2 (by rw [seen_length L m0 ok _ ok.disp.1 bs2 _ s3, ok.disp.2]) k' ?_ s4
      obtain ⟨d, -, -, h, -⟩ := hsup
      omega
    · intro e; rw [e] at r9; exact r9
    · have hpend : pending L a.m a.m.handleWrite.2.2 = some (j, toBytes (L.width k') n) := by
        unfold pending
        rw [hn, hsel]
        simp only [Option.bind_some, hj, Option.map_some]
      obtain ⟨f', os', q1, q2⟩ := h5 _ _ hpend
      have hff : f' = f := by
        rw [q1, lastFrame_append] at hlast
        simpa using hlast
      subst hff
      unfold targetAt
      rw [q2]
      have z0 := hgo.lo
      have z1 := hgo.hi
      rw [hsh.1] at z0
      rw [hsh.2] at z1
      have hrange : p.t.lo ≤ n ∧ n ≤ p.t.hi := by
        have r10 := r9
        revert r10
        unfold Spec.M402.Stored
        split
        · exact False.elim
        · intro h; omega
        · intro h; omega
        · rintro ⟨n, -, h⟩
          unfold Spec.M402.limit at h
          repeat' (split at h)
          all_goals omega
      rw [signed_toBytes _ _ (by omega) (by omega)]
      exact r9

/-- C104, limits: the target a mode took last is the conversion of a command that the limits (`A`) allow, as long as the limits are switched on and the controller
manager is up. -/
theorem C104_limits (L : Layout) (conv : Rob.Kind → M402.Dbl → M402.Dbl) (A : Rob.Kind → M402.Dbl → Prop) (c0 : Cyc.St) (m0 : M402.Motor)
    (hpc : c0.pc = .top) (hcm : c0.cm = true) (hst : Lay.LayerState.shutdown.toNat < c0.cmSt.toNat) (hl : c0.hs.h.limits = true)
    (es : List Ev) (he : ∀ e, Ev.joint e ∈ es → Cyc.LimitsHold A e) (k : Nat) (kind : Rob.Kind) (v : M402.Dbl)
    (h : LastTarget L conv (Axis.fresh L c0 m0) es k kind v) : ∃ c, A kind c ∧ v = conv kind c := by
  obtain ⟨p, e, q, a, os, h1, h2, h3, -⟩ := h
  have hc : a.c = (Cyc.run conv c0 (joints p)).1 := joint_run h2
  refine C92_limits conv A c0 (joints p ++ [e]) hpc hcm hst hl ?_ kind v ?_
  · have hj : ∀ (p : List Ev) x, x ∈ joints p → Ev.joint x ∈ p := by
      intro p
      induction p with
      | nil => intro x hx; cases hx
      | cons y p ih =>
        intro x hx
        cases y with
        | joint z =>
          rcases List.mem_cons.mp hx with rfl | hx
          · simp
          · exact List.mem_cons_of_mem _ (ih x hx)
        | _ => exact List.mem_cons_of_mem _ (ih x hx)
    intro x hx
    rcases List.mem_append.mp hx with hx | hx
    · exact he x (by rw [h1]; exact List.mem_append_left _ (hj p x hx))
    · simp only [List.mem_cons, List.not_mem_nil, or_false] at hx
      subst hx
      exact he x (by rw [h1]; simp)
  · rw [Cyc.run_append, ← hc]
    simp only [Cyc.run, List.append_nil]
    exact List.mem_append_right _ h3

/-- C104, commands arrive: with the drive enabled and in the selected forwarding mode `k` when the motor last looked, a target the handle sends reaches the bus in
the same cycle: the frame sent carries it, and lets the drive move. -/
theorem C104_command (L : Layout) (conv : Rob.Kind → M402.Dbl → M402.Dbl) (c0 : Cyc.St) (m0 : M402.Motor) (ok : Ok L m0) (hf : Spec.M402.Fresh m0)
    (pre : List Ev) (hp : Sized L pre) (a : Axis) (os : List (Option Frame)) (hrun : run L conv (Axis.fresh L c0 m0) pre = .ok (a, os))
    (hen : Enabled L pre.reverse) (k j : Nat) (hd : Displays L pre.reverse k) (hsel : a.m.selected = some k) (htgt : L.tgt k = some j)
    (o s : Nat) (w : BitVec 16) (t : M402.Target) (hfw : m0.modes k = some (.forward o s w t))
    (e : Cyc.Ev) (kind : Rob.Kind) (v : M402.Dbl) (hsent : .sent kind v ∈ (Cyc.step conv a.c e).2) (hv : v ≠ .nan) :
    ∃ b f, run L conv (Axis.fresh L c0 m0) (pre ++ [.joint e, .write, .send]) = .ok (b, os ++ [none, none, some f]) ∧
      (controlWord L f).getLsbD 8 = false ∧ Spec.M402.Stored t.lo t.hi v (targetAt L j f) := by
  obtain ⟨a', os0, pd, h1, -, h2, h3, -⟩ := inv_run_from ok conv pre (inv_init L m0 ok c0) (fun _ _ h => nomatch h) hp
  rw [hrun] at h1
  simp only [Outcome.ok.injEq, Prod.mk.injEq] at h1
  obtain ⟨rfl, rfl⟩ := h1
  simp only [List.nil_append] at h2
  -- the motor before the command
  have ham : a.m = (m0.run (mevs L conv (Axis.fresh L c0 m0) pre)).1 := motor_run hrun
  have mi := M402.minv_run hf (mevs L conv (Axis.fresh L c0 m0) pre)
  rw [← ham] at mi
  have hhs : a.m.hs = .enabled := by
    obtain ⟨bs, e1, e2⟩ := hen
    rw [mi.hs, h2.word, e1]
    exact (C49_state _).1 .enabled _ (by decide) e2
  have hmid : a.m.modeId = k := by
    obtain ⟨bs, e1, e2⟩ := hd
    rw [mi.disp, h2.disp, e1]
    exact display_of bs (by rw [seen_length L m0 ok _ ok.disp.1 bs _ e1, ok.disp.2]) k e2
  have hshape := shape_run (mevs L conv (Axis.fresh L c0 m0) pre) m0 k
  rw [← ham, hfw] at hshape
  obtain ⟨hdl, hmode, hsh⟩ := Option.map_eq_some_iff.mp (hshape.trans (Option.map_some _ _))
  cases hdl with
  | profPos p => cases hsh
  | homing x => cases hsh
  | forward o' s' w' t' =>
    simp only [shape, Option.some.injEq, Prod.mk.injEq, true_and] at hsh
    have hgo := mi.ok k _ hmode
    obtain ⟨c1, c2, c3⟩ := C54_target t' hgo.lo hgo.hi v hv
    -- the command
    have hone : (Cyc.step conv a.c e).2 = [.sent kind v] := by
      rcases one_sent conv a.c e with h0 | ⟨k2, w2, h0⟩
      · exfalso
        have : M402.Ev.setTarget v ∈ (Cyc.step conv a.c e).2.filterMap ofOut := List.mem_filterMap.mpr ⟨_, hsent, rfl⟩
        rw [h0] at this; cases this
      · rw [h0] at hsent ⊢
        simp only [List.mem_cons, List.not_mem_nil, or_false] at hsent
        rw [hsent]
    have hset : (a.m.setTarget v).1 = { a.m with modes := M402.putMode k (.forward o' s' w' (t'.set v).1) a.m.modes } := by
      unfold M402.Motor.setTarget
      rw [if_pos hhs]
      simp only [hsel, hmode, M402.Mode.setTarget]
    obtain ⟨b1, o1, pd1, q1, q2, q3, q4⟩ := inv_step ok h2 h3 conv (.joint e) ⟨by simp, by simp⟩
    obtain ⟨ho1, -⟩ := q4 (fun h => nomatch h) (fun h => nomatch h)
    subst ho1
    have hb1 : b1.m = { a.m with modes := M402.putMode k (.forward o' s' w' (t'.set v).1) a.m.modes } := by
      simp only [step, hone] at q1
      cases q1
      exact hset
    obtain ⟨b2, l1, l2, l3⟩ := inv_write ok q2 conv
    obtain ⟨b3, o3, n1, -, -, n2, n3⟩ := inv_send ok l3 conv
    have hact : b1.m.active b1.m.modeId = some (.forward o' s' w' (t'.set v).1) := by
      rw [hb1]
      unfold M402.Motor.active
      simp only [hmid, hsel, if_true, M402.putMode]
    have hwt : b1.m.handleWrite.2.2 = some (t'.set v).1.target := by
      unfold M402.Motor.handleWrite
      have : b1.m.hs = .enabled := by rw [hb1]; exact hhs
      simp only [if_pos this]
      unfold M402.Motor.writeMode
      rw [hact]
      simp only [M402.Mode.write, if_pos c2]
    have hhalt : b1.m.handleWrite.2.1.getLsbD 8 = false := by
      rw [M402.word_halt]
      refine ⟨by rw [hb1]; exact hhs, _, hact, ?_⟩
      intro hst
      have : (t'.set v).1.has = false := hst
      rw [c2] at this; cases this
    have hpend : pending L b1.m b1.m.handleWrite.2.2 = some (j, toBytes (L.width k) (t'.set v).1.target) := by
      have : b1.m.selected = some k := by rw [hb1]; exact hsel
      unfold pending
      rw [hwt, this]
      simp only [Option.bind_some, htgt, Option.map_some]
    obtain ⟨f, hf1, hf2⟩ := n2 _ _ hpend
    refine ⟨b3, f, ?_, ?_, ?_⟩
    · rw [run_append hrun]
      simp only [run, q1, l1, n1, hf1]
    · have := (n3 _ l2).2 f (by rw [lastFrame_append, hf1]; rfl)
      unfold controlWord
      rw [this, word_toBytes]
      exact hhalt
    · unfold targetAt
      rw [hf2]
      obtain ⟨w1, w2⟩ := ok.range k j _ _ _ _ htgt hfw
      rw [hsh.1, hsh.2] at c3
      have z0 : t.lo ≤ 0 ∧ 0 ≤ t.hi := hf.ranges k _ _ _ _ hfw
      have hrange : t.lo ≤ (t'.set v).1.target ∧ (t'.set v).1.target ≤ t.hi := by
        generalize (t'.set v).1.target = n at c3
        revert c3
        unfold Spec.M402.Stored
        split
        · exact False.elim
        · intro h; omega
        · intro h; omega
        · rintro ⟨n, -, h⟩
          unfold Spec.M402.limit at h
          repeat' (split at h)
          all_goals omega
      rw [signed_toBytes _ _ (by omega) (by omega)]
      exact c3

/-! ### an axis in cyclic position mode -/

/-- a TPDO with control word and target position, an RPDO with status word and mode display -/
def aLayout : Layout :=
  { tx := [⟨2, none⟩, ⟨4, none⟩], rx := [⟨2, none⟩, ⟨1, none⟩],
    f0 := { Header.mk' 0x201 false false false with data := Vector.replicate 8 0, dlc := 6 },
    g0 := { Header.mk' 0x181 false false false with data := Vector.replicate 8 0, dlc := 3 },
    ty := 1, cw := 0, tgt := fun k => if k = 8 then some 1 else none, width := fun _ => 4, sw := 0, disp := 1 }

/-- a frame of the drive: enabled, mode 8 -/
def aReport : Frame := { Header.mk' 0x181 false false false with data := #v[0x27, 0, 8, 0, 0, 0, 0, 0], dlc := 3 }

theorem aLayout_ok : Ok aLayout aMotor := by
  refine ⟨⟨by simp [aLayout], by decide, ?_⟩, ⟨by simp [aLayout], by decide, ?_⟩, by decide, by decide, ?_, by decide, by decide, by decide, ?_⟩
  · intro o ho v hv
    simp only [aLayout, List.mem_cons, List.not_mem_nil, or_false] at ho
    rcases ho with rfl | rfl <;> cases hv
  · intro o ho v hv
    simp only [aLayout, List.mem_cons, List.not_mem_nil, or_false] at ho
    rcases ho with rfl | rfl <;> cases hv
  · intro k j h
    simp only [aLayout] at h
    split at h
    · injection h with h; subst h; exact ⟨by decide, by decide, rfl⟩
    · cases h
  · intro k j o s w t h hm
    simp only [aLayout] at h
    split at h
    · rename_i hk
      subst hk
      have : aMotor.modes 8 = some (.forward 0x607A 0 0 .i32) := rfl
      rw [this] at hm
      injection hm with hm
      injection hm with _ _ _ hm
      subst hm
      exact ⟨by decide, by decide⟩
    · cases h

/-- mode 8 gets selected while the drive is enabled; the controllers command 5, limited to 3 -/
def aPast : List Ev :=
  [.frame aReport, .read, .service (.request 8), .service (.stateDone true), .read, .service (.modeDone false), .service (.stateDone true),
   .joint .begin, .joint (.set .pos (.fin 5)), .joint (.enforce fun _ _ => .fin 3), .joint .look]

theorem aPast_proper : Proper aLayout aPast := by
  constructor
  · intro f hf
    simp only [aPast, List.mem_cons, List.not_mem_nil, or_false, reduceCtorEq, Ev.frame.injEq] at hf
    subst hf; decide
  · intro i v hi
    simp [aPast] at hi

/-- the frames sent in a history -/
private def sentFrames (es : List Ev) : List (Option Frame) :=
  match run aLayout (fun _ x => x) (Axis.fresh aLayout (Cyc.working (.fin 0) (.fin 0)) aMotor) es with
  | .ok (_, outs) => outs
  | _ => []

-- the frame after the next write cycle: control word 0 (no halt), target 3
example : (lastFrame (sentFrames (aPast ++ [.joint .act, .write, .send]))).map (fun f => (controlWord aLayout f, targetAt aLayout 1 f)) = some (0, 3) := by
  decide +kernel

-- before the drive reports to be enabled, the halt bit is set and the target stays
example : (lastFrame (sentFrames [.joint .begin, .joint (.set .pos (.fin 5)), .joint (.enforce fun _ c => c), .joint .look, .joint .act, .write, .send])).map
    (fun f => ((controlWord aLayout f).getLsbD 8, targetAt aLayout 1 f)) = some (true, 0) := by
  decide +kernel

-- the hypotheses of `C104_defined`, `C104_word` and `C104_moves` are met, with a control word of someone else before
example : Ok aLayout aMotor ∧ Spec.M402.Fresh aMotor ∧ Sized aLayout (aPast ++ [.joint .act, .write, .object 0 [6, 1]]) ∧ Proper aLayout [.object 5 [1]] ∧
    (Ev.write ∉ [Ev.object 5 [1]]) ∧ (Ev.send ∉ [Ev.object 5 [1]]) := by
  refine ⟨aLayout_ok, aMotor_fresh, ⟨fun f hf => aPast_proper.1 f (by simpa using hf), ?_⟩, ⟨by simp, ?_⟩, by simp, by simp⟩
  · intro v hv
    simp [aPast, aLayout] at hv
    subst hv; rfl
  · intro i v hv
    simp only [List.mem_cons, List.not_mem_nil, or_false, Ev.object.injEq] at hv
    obtain ⟨rfl, -⟩ := hv
    refine ⟨by decide, ?_⟩
    intro k
    simp only [aLayout]
    split <;> simp

-- that control word does not reach the bus
example : (lastFrame (sentFrames (aPast ++ [.joint .act, .write, .object 0 [6, 1], .write, .send]))).map (controlWord aLayout) = some 0 := by decide +kernel

/-- the command of `aPast` reaches the bus, by `C104_command` -/
example : ∃ b os f, run aLayout (fun _ x => x) (Axis.fresh aLayout (Cyc.working (.fin 0) (.fin 0)) aMotor) (aPast ++ [.joint .act, .write, .send]) =
      .ok (b, os ++ [none, none, some f]) ∧
    (controlWord aLayout f).getLsbD 8 = false ∧ Spec.M402.Stored M402.Target.i32.lo M402.Target.i32.hi (.fin 3) (targetAt aLayout 1 f) := by
  have hr := C104_defined aLayout (fun _ x => x) (Cyc.working (.fin 0) (.fin 0)) aMotor aLayout_ok aPast (sized_of_proper aPast_proper)
  obtain ⟨a, os, h, -⟩ := hr
  have hs : a.m.selected = some 8 := by
    rw [motor_run h]
    decide +kernel
  have hc : .sent .pos (.fin 3) ∈ (Cyc.step (fun _ x => x) a.c .act).2 := by
    rw [joint_run h]
    exact List.mem_singleton.mpr rfl
  obtain ⟨b, f, k1, k2, k3⟩ := C104_command aLayout (fun _ x => x) (Cyc.working (.fin 0) (.fin 0)) aMotor aLayout_ok aMotor_fresh aPast (sized_of_proper aPast_proper) a os h
    ⟨_, rfl, by decide +kernel⟩ 8 1 ⟨_, rfl, by decide +kernel⟩ hs rfl 0x607A 0 0 .i32 rfl .act .pos (.fin 3) hc (fun h => nomatch h)
  exact ⟨b, os, f, k1, k2, k3⟩

/-! ### an axis in profiled position mode -/

/-- the same with the target position used by mode 1 -/
private def bLayout : Layout := { aLayout with tgt := fun k => if k = 1 then some 1 else none }

/-- a frame of the drive: enabled, mode 1 -/
private def bReport : Frame := { Header.mk' 0x181 false false false with data := #v[0x27, 0, 1, 0, 0, 0, 0, 0], dlc := 3 }

private theorem bLayout_ok : Ok bLayout aMotor := by
  obtain ⟨h1, h2, h3, h4, -, h6, h7, h8, -⟩ := aLayout_ok
  refine ⟨h1, h2, h3, h4, ?_, h6, h7, h8, ?_⟩
  · intro k j h
    simp only [bLayout] at h
    split at h
    · injection h with h; subst h; exact ⟨by decide, by decide, rfl⟩
    · cases h
  · intro k j o s w t h hm
    simp only [bLayout] at h
    split at h
    · rename_i hk
      subst hk
      have : aMotor.modes 1 = some (.profPos ⟨.i32, none, 0⟩) := rfl
      rw [this] at hm
      injection hm with hm
      cases hm
    · cases h

/-- mode 1 gets selected while the drive is enabled -/
private def bPast : List Ev :=
  [.frame bReport, .read, .service (.request 1), .service (.stateDone true), .read, .service (.modeDone false), .service (.stateDone true)]

/-- the controllers command 5, limited to 3 -/
private def bBetween : List Ev := [.joint .begin, .joint (.set .pos (.fin 5)), .joint (.enforce fun _ _ => .fin 3), .joint .look, .joint .act]

private def bSent (es : List Ev) : List (Option Frame) :=
  match run bLayout (fun _ x => x) (Axis.fresh bLayout (Cyc.working (.fin 0) (.fin 0)) aMotor) es with
  | .ok (_, outs) => outs
  | _ => []

/-- all hypotheses of `C104_setpoint` are met; the frames sent: change immediately with halt, then a new set-point with target 3, without halt -/
example : Ok bLayout aMotor ∧ Spec.M402.Fresh aMotor ∧ Sized bLayout bPast ∧ Proper bLayout [] ∧ Sized bLayout bBetween ∧
    (Ev.write ∉ [] ++ bBetween ++ []) ∧ (Ev.send ∉ [] ++ bBetween ++ []) ∧ aMotor.modes 1 = some (.profPos ⟨.i32, none, 0⟩) ∧ bLayout.tgt 1 = some 1 ∧
    (-(256 ^ bLayout.width 1 : Int) ≤ 2 * M402.Target.i32.lo ∧ 2 * M402.Target.i32.hi < 256 ^ bLayout.width 1) ∧
    (lastFrame (bSent (bPast ++ .write :: ([] ++ .send :: bBetween)))).map (controlWord bLayout) = some 0x120 ∧
    (lastFrame (bSent (bPast ++ .write :: ([] ++ .send :: bBetween) ++ .write :: ([] ++ [.send])))).map (fun f => (controlWord bLayout f, targetAt bLayout 1 f)) =
      some (0x30, 3) := by
  refine ⟨bLayout_ok, aMotor_fresh, ⟨?_, by simp [bPast]⟩, ⟨by simp, by simp⟩, ⟨by simp [bBetween], by simp [bBetween]⟩, by simp [bBetween], by simp [bBetween], rfl, rfl,
    by decide, by decide +kernel, by decide +kernel⟩
  intro f hf
  simp only [bPast, List.mem_cons, List.not_mem_nil, or_false, reduceCtorEq, Ev.frame.injEq] at hf
  subst hf; decide

/-- the limits of `C104_limits` hold there -/
example : ∀ e, Ev.joint e ∈ aPast ++ [.joint .act] → Cyc.LimitsHold (fun _ c => c = .fin 3) e := by
  intro e he
  simp only [aPast, List.mem_append, List.mem_cons, List.not_mem_nil, or_false, reduceCtorEq, false_or, Ev.joint.injEq] at he
  rcases he with (h | h | h | h) | h <;> subst h <;> simp [Cyc.LimitsHold]

end Verif.Props
