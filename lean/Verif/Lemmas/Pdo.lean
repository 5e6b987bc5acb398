import Verif.Spec.Pdo

set_option linter.unusedSimpArgs false
set_option linter.unusedVariables false

namespace Verif.Pdo
open Verif Verif.Spec.Pdo

theorem offset_succ (sizes : List Nat) (i : Nat) (hi : i < sizes.length) :
    offset sizes (i + 1) = offset sizes i + sizes.getD i 0 := by
  simp only [offset]
  rw [List.take_add_one, List.sum_append]
  simp [List.getD, hi]

theorem offset_mono (sizes : List Nat) (i j : Nat) (h : i ≤ j) : offset sizes i ≤ offset sizes j := by
  induction j with
  | zero => have : i = 0 := by omega
            subst this; exact Nat.le_refl _
  | succ j ih =>
    by_cases he : i = j + 1
    · subst he; exact Nat.le_refl _
    · have := ih (by omega)
      by_cases hj : j < sizes.length
      · rw [offset_succ sizes j hj]; omega
      · have : offset sizes (j + 1) = offset sizes j := by
          simp only [offset]
          rw [List.take_of_length_le (by omega), List.take_of_length_le (by omega)]
        omega

theorem offset_length (sizes : List Nat) : offset sizes sizes.length = sizes.sum := by
  simp [offset]

theorem offset_le (sizes : List Nat) (i : Nat) (hi : i < sizes.length) :
    offset sizes i + sizes.getD i 0 ≤ sizes.sum := by
  rw [← offset_succ sizes i hi, ← offset_length sizes]
  exact offset_mono sizes _ _ (by omega)

theorem patch_eq (d : Vector Byte 8) (off : Nat) (bytes : List Byte) (h : off + bytes.length ≤ 8) :
    ∃ d', patch d off bytes = some d' ∧
      ∀ i (hi : i < 8), d'[i] = if off ≤ i ∧ i < off + bytes.length then bytes.getD (i - off) 0 else d[i] := by
  refine ⟨_, by unfold patch; rw [if_pos h], ?_⟩
  intro i hi
  simp

theorem patch_nil (d : Vector Byte 8) (off : Nat) (h : off ≤ 8) : patch d off [] = some d := by
  unfold patch
  rw [if_pos (by simpa using h)]
  congr 1
  apply Vector.ext
  intro i hi
  have : ¬ (off ≤ i ∧ i < off) := by omega
  simp [this]

/-- bytes of a vector from `o` on -/
theorem take_drop_getElem (d : Vector Byte 8) (o s i : Nat) (hs : o + s ≤ 8) (hi : i < s) :
    ((d.toList.drop o).take s)[i]? = some (d[o + i]'(by omega)) := by
  have h8 : d.toList.length = 8 := by simp
  rw [List.getElem?_take, if_pos hi, List.getElem?_drop, List.getElem?_eq_getElem (by omega)]
  simp

theorem take_drop_length (d : Vector Byte 8) (o s : Nat) (hs : o + s ≤ 8) :
    ((d.toList.drop o).take s).length = s := by
  simp; omega

theorem slice_patch_same (d d' : Vector Byte 8) (off : Nat) (bytes : List Byte) (h : off + bytes.length ≤ 8)
    (hp : patch d off bytes = some d') : (d'.toList.drop off).take bytes.length = bytes := by
  obtain ⟨d'', h1, h2⟩ := patch_eq d off bytes h
  rw [h1] at hp; cases hp
  apply List.ext_getElem?
  intro i
  by_cases hi : i < bytes.length
  · rw [take_drop_getElem _ _ _ _ h hi, h2 _ (by omega), if_pos ⟨by omega, by omega⟩]
    have : off + i - off = i := by omega
    rw [this]
    simp [List.getD, hi]
  · rw [List.getElem?_eq_none (by rw [take_drop_length _ _ _ h]; omega), List.getElem?_eq_none (by omega)]

theorem slice_patch_other (d d' : Vector Byte 8) (off : Nat) (bytes : List Byte) (h : off + bytes.length ≤ 8)
    (hp : patch d off bytes = some d') (o s : Nat) (hs : o + s ≤ 8) (hdis : o + s ≤ off ∨ off + bytes.length ≤ o) :
    (d'.toList.drop o).take s = (d.toList.drop o).take s := by
  obtain ⟨d'', h1, h2⟩ := patch_eq d off bytes h
  rw [h1] at hp; cases hp
  apply List.ext_getElem?
  intro i
  by_cases hi : i < s
  · rw [take_drop_getElem _ _ _ _ hs hi, take_drop_getElem _ _ _ _ hs hi, h2 _ (by omega), if_neg (by omega)]
  · rw [List.getElem?_eq_none (by rw [take_drop_length _ _ _ hs]; omega),
      List.getElem?_eq_none (by rw [take_drop_length _ _ _ hs]; omega)]

theorem slice_dis (sizes : List Nat) (i j : Nat) (hi : i < sizes.length) (hj : j < sizes.length) (hne : i ≠ j) :
    offset sizes i + sizes.getD i 0 ≤ offset sizes j ∨ offset sizes j + sizes.getD j 0 ≤ offset sizes i := by
  rcases Nat.lt_or_gt_of_ne hne with h | h
  · left; rw [← offset_succ sizes i hi]; exact offset_mono _ _ _ h
  · right; rw [← offset_succ sizes j hj]; exact offset_mono _ _ _ h

/-! ## transmission -/

/-- the state of one object's buffer after a history -/
structure BufOk (sizes : List Nat) (init : Nat → Option (List Byte)) (i : Nat) (h : List TOp) (b : Buffer) : Prop where
  size : b.size = sizes.getD i 0
  len : b.buffer.length = b.size
  none : latest sizes init i h = .none → b.empty = true ∧ b.dirty = false
  some : ∀ v, latest sizes init i h = .some v → b.empty = false ∧ b.buffer = v
  dirty : b.dirty = true ↔ written sizes i h

structure TInv (sizes : List Nat) (init : Nat → Option (List Byte)) (hdr : Header) (s : TSched) (h : List TOp) : Prop where
  lenb : s.t.bufs.length = sizes.length
  buf : ∀ i, i < sizes.length → ∃ b, s.t.bufs[i]? = some b ∧ BufOk sizes init i h b
  pos : s.cy.pos = picks h % sizes.length
  dest : s.cy.dest = offset sizes s.cy.pos
  len : s.cy.len + s.cy.dest = sizes.sum
  dlc : s.t.frame.dlc.toNat = sizes.sum
  hdr : s.t.frame.toHeader = hdr
  done : ∀ i, i < sizes.length → ∀ r v, atTurn sizes.length i h = some r → latest sizes init i r = some v →
    slice sizes i s.t.frame = v
  upd : s.cy.updated = true ↔ ∃ i, i < s.cy.pos ∧ ∃ r, atTurn sizes.length i h = some r ∧ written sizes i r

theorem objs_get (objs : List Obj) (i : Nat) (hi : i < (sizesOf objs).length) :
    ∃ o, objs[i]? = some o ∧ o.size = (sizesOf objs).getD i 0 ∧ initOf objs i = o.init := by
  simp only [sizesOf, List.length_map] at hi
  refine ⟨objs[i], by simp [hi], by simp [sizesOf, List.getD, hi], by simp [initOf, hi]⟩

theorem tinv_init (objs : List Obj) (hi : ∀ o, o ∈ objs → ∀ v, o.init = some v → v.length = o.size) (f : Frame)
    (hdlc : f.dlc.toNat = (sizesOf objs).sum) :
    TInv (sizesOf objs) (initOf objs) f.toHeader (TSched.fresh f objs) [] := by
  refine ⟨by simp [TSched.fresh, sizesOf], ?_, by simp [TSched.fresh, Tpdo.start, picks], by simp [TSched.fresh, Tpdo.start, offset], by simp [TSched.fresh, Tpdo.start, hdlc], hdlc, rfl, ?_, ?_⟩
  · intro i hi'
    obtain ⟨o, h1, h2, h3⟩ := objs_get objs i hi'
    refine ⟨o.buffer, by simp [TSched.fresh, h1], h2, ?_, ?_, ?_, by simp [Obj.buffer, written]⟩
    · simp only [Obj.buffer]
      cases hv : o.init with
      | none => simp
      | some v => simpa using hi o (List.mem_of_getElem? h1) v hv
    · intro hn; simp only [latest, h3] at hn; simp [Obj.buffer, hn]
    · intro v hv; simp only [latest, h3] at hv; simp [Obj.buffer, hv]
  · intro i hi r v h; simp [atTurn] at h
  · simp [TSched.fresh, Tpdo.start]

theorem tinv_write (sizes : List Nat) (init : Nat → Option (List Byte)) (hdr : Header) (s : TSched) (h : List TOp) (inv : TInv sizes init hdr s h) (i : Nat) (v : List Byte) :
    ∃ s', s.step (.write i v) = .ok (s', none) ∧ TInv sizes init hdr s' (.write i v :: h) := by
  by_cases hi : i < sizes.length
  · obtain ⟨b, hb, ok⟩ := inv.buf i hi
    by_cases hsz : v.length = sizes.getD i 0
    · -- a write of the right size
      have hw : b.writeEntry v = .ok { b with empty := false, dirty := true, buffer := v } := by
        unfold Buffer.writeEntry; rw [if_neg (by rw [ok.size, hsz]; simp)]
      refine ⟨⟨{ s.t with bufs := s.t.bufs.set i { b with empty := false, dirty := true, buffer := v } }, s.cy⟩,
        by simp only [TSched.step, Tpdo.write, hb, hw], ?_⟩
      refine ⟨by simpa using inv.lenb, ?_, by simpa [picks] using inv.pos, inv.dest, inv.len, inv.dlc, inv.hdr, ?_, ?_⟩
      · intro j hj
        by_cases hij : i = j
        · subst hij
          refine ⟨{ b with empty := false, dirty := true, buffer := v }, by simp [inv.lenb, hj], ?_⟩
          refine ⟨ok.size, by simp [ok.size, hsz], ?_, ?_, ?_⟩
          · simp [latest, hsz]
          · intro w hw; simp [latest, hsz] at hw; exact ⟨rfl, hw⟩
          · simp [written, hsz]
        · obtain ⟨b', hb', ok'⟩ := inv.buf j hj
          refine ⟨b', by simp [hij, hb'], ?_⟩
          refine ⟨ok'.size, ok'.len, ?_, ?_, ?_⟩
          · simpa [latest, hij] using ok'.none
          · simpa [latest, hij] using ok'.some
          · simpa [written, hij] using ok'.dirty
      · intro j hj r w; simpa [atTurn] using inv.done j hj r w
      · simpa [atTurn] using inv.upd
    · have hw : b.writeEntry v = .throws .badCast := by
        unfold Buffer.writeEntry; rw [if_pos (by rw [ok.size]; exact fun e => hsz e.symm)]
      refine ⟨s, by simp only [TSched.step, Tpdo.write, hb, hw], ?_⟩
      refine ⟨inv.lenb, ?_, by simpa [picks] using inv.pos, inv.dest, inv.len, inv.dlc, inv.hdr, ?_, ?_⟩
      · intro j hj
        obtain ⟨b', hb', ok'⟩ := inv.buf j hj
        have hne : ¬ (i = j ∧ v.length = sizes.getD j 0) := by
          rintro ⟨rfl, h2⟩; exact hsz h2
        refine ⟨b', hb', ok'.size, ok'.len, ?_, ?_, ?_⟩
        · simp only [latest, if_neg hne]; exact ok'.none
        · simp only [latest, if_neg hne]; exact ok'.some
        · simp only [written, hne, false_or]; exact ok'.dirty
      · intro j hj r w; simpa [atTurn] using inv.done j hj r w
      · simpa [atTurn] using inv.upd
  · have hn : s.t.bufs[i]? = none := by rw [List.getElem?_eq_none]; rw [inv.lenb]; omega
    refine ⟨s, by simp only [TSched.step, Tpdo.write, hn], ?_⟩
    refine ⟨inv.lenb, ?_, by simpa [picks] using inv.pos, inv.dest, inv.len, inv.dlc, inv.hdr, ?_, ?_⟩
    · intro j hj
      obtain ⟨b', hb', ok'⟩ := inv.buf j hj
      have hne : i ≠ j := by omega
      refine ⟨b', hb', ok'.size, ok'.len, ?_, ?_, ?_⟩
      · simpa [latest, hne] using ok'.none
      · simpa [latest, hne] using ok'.some
      · simpa [written, hne] using ok'.dirty
    · intro j hj r w; simpa [atTurn] using inv.done j hj r w
    · simpa [atTurn] using inv.upd

/-- what one step of a cycle does to the frame -/
theorem tinv_pick_core (sizes : List Nat) (init : Nat → Option (List Byte)) (hsum : sizes.sum ≤ 8) (hn : sizes ≠ []) (hdr : Header) (s : TSched) (h : List TOp)
    (inv : TInv sizes init hdr s h) :
    ∃ t upd, s.t.pick s.cy = .ok (t, { pos := s.cy.pos + 1, dest := offset sizes (s.cy.pos + 1), len := sizes.sum - offset sizes (s.cy.pos + 1), updated := upd }) ∧
      t.bufs.length = sizes.length ∧
      (∀ i, i < sizes.length → ∃ b, t.bufs[i]? = some b ∧ BufOk sizes init i (.pick :: h) b) ∧
      t.frame.dlc.toNat = sizes.sum ∧ t.frame.toHeader = hdr ∧
      (∀ i, i < sizes.length → ∀ r v, atTurn sizes.length i (.pick :: h) = some r → latest sizes init i r = some v →
        slice sizes i t.frame = v) ∧
      (upd = true ↔ ∃ i, i < s.cy.pos + 1 ∧ ∃ r, atTurn sizes.length i (.pick :: h) = some r ∧ written sizes i r) := by
  have hn0 : 0 < sizes.length := List.length_pos_iff.mpr hn
  have hpos : s.cy.pos < sizes.length := by rw [inv.pos]; exact Nat.mod_lt _ hn0
  obtain ⟨b, hb, ok⟩ := inv.buf _ hpos
  have hoff := offset_le sizes _ hpos
  have hsucc := offset_succ sizes _ hpos
  have hdest := inv.dest
  have hlen := inv.len
  have hle : b.size ≤ s.cy.len := by rw [ok.size]; omega
  have hturn : atTurn sizes.length s.cy.pos (.pick :: h) = some h := by
    simp [atTurn, ← inv.pos]
  have hother : ∀ i, i ≠ s.cy.pos → atTurn sizes.length i (.pick :: h) = atTurn sizes.length i h := by
    intro i hi
    simp only [atTurn]
    rw [if_neg (by rw [← inv.pos]; exact fun e => hi e.symm)]
  have hupdgen : ∀ (P : Prop), (P ↔ written sizes s.cy.pos h) → ((P ∨ s.cy.updated = true) ↔
      ∃ i, i < s.cy.pos + 1 ∧ ∃ r, atTurn sizes.length i (.pick :: h) = some r ∧ written sizes i r) := by
    intro P hP
    constructor
    · rintro (hp | hu)
      · exact ⟨_, by omega, h, hturn, hP.mp hp⟩
      · obtain ⟨i, hi, r, h1, h2⟩ := inv.upd.mp hu
        exact ⟨i, by omega, r, by rw [hother i (by omega)]; exact h1, h2⟩
    · rintro ⟨i, hi, r, h1, h2⟩
      by_cases he : i = s.cy.pos
      · subst he
        rw [hturn] at h1; cases h1
        exact Or.inl (hP.mpr h2)
      · rw [hother i he] at h1
        exact Or.inr (inv.upd.mpr ⟨i, by omega, r, h1, h2⟩)
  have hbufother : ∀ i, i < sizes.length → i ≠ s.cy.pos → ∃ b, s.t.bufs[i]? = some b ∧ BufOk sizes init i (.pick :: h) b := by
    intro i hi hne
    obtain ⟨b', hb', ok'⟩ := inv.buf i hi
    refine ⟨b', hb', ok'.size, ok'.len, by simpa [latest] using ok'.none, by simpa [latest] using ok'.some, ?_⟩
    rw [ok'.dirty]
    simp only [written]
    constructor
    · intro hw; exact ⟨by rw [← inv.pos]; exact fun e => hne e.symm, hw⟩
    · exact fun hw => hw.2
  have hnotw : ¬ written sizes s.cy.pos (.pick :: h) := by
    simp only [written]
    rw [← inv.pos]
    exact fun hw => hw.1 rfl
  cases hl : latest sizes init s.cy.pos h with
  | none =>
    obtain ⟨he, hd⟩ := ok.none hl
    have hr : b.readRaw s.cy.len = .ok (b, none, false) := by
      unfold Buffer.readRaw; rw [if_neg (by omega), he]; rfl
    have hp : patch s.t.frame.data s.cy.dest [] = some s.t.frame.data := patch_nil _ _ (by omega)
    refine ⟨{ frame := s.t.frame, bufs := s.t.bufs.set s.cy.pos b }, s.cy.updated, ?_, by simpa using inv.lenb, ?_, inv.dlc, inv.hdr, ?_, ?_⟩
    · unfold Tpdo.pick
      simp only [hb, if_pos hle, hr, Option.getD_none, hp, Bool.false_or]
      have e1 : s.cy.dest + b.size = offset sizes (s.cy.pos + 1) := by rw [hsucc, hdest, ok.size]
      have e2 : s.cy.len - b.size = sizes.sum - offset sizes (s.cy.pos + 1) := by omega
      rw [e1, e2]
    · intro i hi
      by_cases hne : i = s.cy.pos
      · subst hne
        refine ⟨b, by simp [inv.lenb, hi], ok.size, ok.len, fun _ => ⟨he, hd⟩, ?_, ?_⟩
        · intro v hv; simp only [latest, hl] at hv; simp at hv
        · rw [hd]; simp only [Bool.false_eq_true, false_iff]; exact hnotw
      · obtain ⟨b', h1, h2⟩ := hbufother i hi hne
        exact ⟨b', by simp [Ne.symm hne, h1], h2⟩
    · intro i hi r v h1 h2
      by_cases hne : i = s.cy.pos
      · subst hne
        rw [hturn] at h1; cases h1
        rw [hl] at h2; simp at h2
      · rw [hother i hne] at h1
        exact inv.done i hi r v h1 h2
    · have := hupdgen False (by rw [← ok.dirty, hd]; simp)
      simpa using this
  | some v =>
    obtain ⟨he, hv⟩ := ok.some v hl
    have hvl : v.length = sizes.getD s.cy.pos 0 := by rw [← hv, ok.len, ok.size]
    have hr : b.readRaw s.cy.len = .ok ({ b with dirty := false }, some v, b.dirty) := by
      unfold Buffer.readRaw
      rw [if_neg (by omega), he, if_neg (by simp), if_neg (by rw [ok.len]; omega)]
      rw [List.take_of_length_le (by rw [ok.len]; omega), hv]
    obtain ⟨d, hp, -⟩ := patch_eq s.t.frame.data s.cy.dest v (by omega)
    refine ⟨{ frame := { s.t.frame with data := d }, bufs := s.t.bufs.set s.cy.pos { b with dirty := false } }, b.dirty || s.cy.updated, ?_, by simpa using inv.lenb, ?_, inv.dlc, inv.hdr, ?_, ?_⟩
    · unfold Tpdo.pick
      simp only [hb, if_pos hle, hr, Option.getD_some, hp]
      have e1 : s.cy.dest + b.size = offset sizes (s.cy.pos + 1) := by rw [hsucc, hdest, ok.size]
      have e2 : s.cy.len - b.size = sizes.sum - offset sizes (s.cy.pos + 1) := by omega
      rw [e1, e2]
    · intro i hi
      by_cases hne : i = s.cy.pos
      · subst hne
        refine ⟨{ b with dirty := false }, by simp [inv.lenb, hi], ok.size, ok.len, ?_, ?_, ?_⟩
        · intro hv; simp only [latest, hl] at hv; simp at hv
        · intro w hw; simp only [latest, hl] at hw; cases hw; exact ⟨he, hv⟩
        · simp only [Bool.false_eq_true, false_iff]; exact hnotw
      · obtain ⟨b', h1, h2⟩ := hbufother i hi hne
        exact ⟨b', by simp [Ne.symm hne, h1], h2⟩
    · intro i hi r w h1 h2
      by_cases hne : i = s.cy.pos
      · subst hne
        rw [hturn] at h1; cases h1
        rw [hl] at h2; cases h2
        have := slice_patch_same _ _ _ _ (by omega) hp
        simp only [slice]
        rw [← hdest, ← hvl]; exact this
      · rw [hother i hne] at h1
        have hoff' := offset_le sizes i hi
        have hdis := slice_dis sizes i s.cy.pos hi hpos hne
        have := slice_patch_other _ _ _ _ (by omega) hp (offset sizes i) (sizes.getD i 0) (by omega) (by omega)
        have h3 := inv.done i hi r w h1 h2
        simp only [slice] at h3 ⊢
        rw [this]; exact h3
    · have := hupdgen (b.dirty = true) ok.dirty
      simpa using this

theorem tinv_pick (sizes : List Nat) (init : Nat → Option (List Byte)) (hsum : sizes.sum ≤ 8) (hn : sizes ≠ []) (hdr : Header) (s : TSched) (h : List TOp)
    (inv : TInv sizes init hdr s h) :
    ∃ s' out, s.step .pick = .ok (s', out) ∧ TInv sizes init hdr s' (.pick :: h) ∧
      (∀ f, out = some f → picks (.pick :: h) % sizes.length = 0 ∧
        (∃ i, i < sizes.length ∧ ∃ r, atTurn sizes.length i (.pick :: h) = some r ∧ written sizes i r) ∧
        f.toHeader = hdr ∧ f.dlc.toNat = sizes.sum ∧
        ∀ i, i < sizes.length → ∀ r v, atTurn sizes.length i (.pick :: h) = some r → latest sizes init i r = some v →
          slice sizes i f = v) ∧
      (picks (.pick :: h) % sizes.length = 0 →
        (∃ i, i < sizes.length ∧ ∃ r, atTurn sizes.length i (.pick :: h) = some r ∧ written sizes i r) → out ≠ none) := by
  have hn0 : 0 < sizes.length := List.length_pos_iff.mpr hn
  have hpos : s.cy.pos < sizes.length := by rw [inv.pos]; exact Nat.mod_lt _ hn0
  obtain ⟨t, upd, h1, h2, h3, h4, h5, h6, h7⟩ := tinv_pick_core sizes init hsum hn hdr s h inv
  have hpk := inv.pos
  by_cases hlt : s.cy.pos + 1 < sizes.length
  · have hmod : picks (.pick :: h) % sizes.length = s.cy.pos + 1 := by
      simp only [picks]
      rw [Nat.add_mod, ← inv.pos, Nat.mod_eq_of_lt (a := 1) (by omega), Nat.mod_eq_of_lt hlt]
    refine ⟨⟨t, { pos := s.cy.pos + 1, dest := offset sizes (s.cy.pos + 1), len := sizes.sum - offset sizes (s.cy.pos + 1), updated := upd }⟩, none, ?_, ?_, ?_, ?_⟩
    · simp only [TSched.step, h1]; rw [if_pos (by omega)]
    · refine ⟨h2, h3, hmod.symm, rfl, ?_, h4, h5, h6, h7⟩
      have := offset_le sizes _ hlt
      simp only; omega
    · intro f hf; simp at hf
    · intro h0; omega
  · have heq : s.cy.pos + 1 = sizes.length := by omega
    have hmod : picks (.pick :: h) % sizes.length = 0 := by
      simp only [picks]
      rw [← Nat.mod_add_mod, ← inv.pos, heq, Nat.mod_self]
    refine ⟨⟨t, t.start⟩, if upd then some t.frame else none, ?_, ?_, ?_, ?_⟩
    · simp only [TSched.step, h1]; rw [if_neg (by omega)]
    · refine ⟨h2, h3, by simp [Tpdo.start, hmod], by simp [Tpdo.start, offset], by simp [Tpdo.start, h4], h4, h5, h6, ?_⟩
      simp [Tpdo.start]
    · intro f hf
      cases upd with
      | false => simp at hf
      | true =>
        simp only [if_true, Option.some.injEq] at hf
        subst hf
        refine ⟨hmod, ?_, h5, h4, h6⟩
        obtain ⟨i, hi, hr⟩ := h7.mp rfl
        exact ⟨i, by omega, hr⟩
    · intro _ hex
      obtain ⟨i, hi, hr⟩ := hex
      have : upd = true := h7.mpr ⟨i, by omega, hr⟩
      simp [this]

theorem run_append (s : TSched) (a : List TOp) (o : TOp) (s' : TSched) (outs : List (Option Frame)) (h : s.run a = .ok (s', outs))
    (s'' : TSched) (out : Option Frame) (h2 : s'.step o = .ok (s'', out)) : s.run (a ++ [o]) = .ok (s'', outs ++ [out]) := by
  induction a generalizing s outs with
  | nil =>
    simp only [TSched.run] at h; cases h
    simp [TSched.run, h2]
  | cons x xs ih =>
    simp only [TSched.run] at h
    simp only [List.cons_append, TSched.run]
    cases hx : s.step x with
    | throws e => rw [hx] at h; cases h
    | ub => rw [hx] at h; cases h
    | ok r =>
      obtain ⟨s1, o1⟩ := r
      rw [hx] at h
      simp only at h ⊢
      cases hr : s1.run xs with
      | throws e => rw [hr] at h; cases h
      | ub => rw [hr] at h; cases h
      | ok r2 =>
        obtain ⟨s2, o2⟩ := r2
        rw [hr] at h; cases h
        rw [ih s1 o2 hr]
        rfl

theorem picks_append (a b : List TOp) : picks (a ++ b) = picks a + picks b := by
  induction a with
  | nil => simp [picks]
  | cons x xs ih => cases x <;> simp [picks, ih] <;> omega

theorem picks_reverse (a : List TOp) : picks a.reverse = picks a := by
  induction a with
  | nil => rfl
  | cons x xs ih => rw [List.reverse_cons, picks_append, ih]; cases x <;> simp [picks]

/-- histories in which object `i` was not picked up since it was written -/
theorem no_turn_since (sizes : List Nat) (init : Nat → Option (List Byte)) (i : Nat) (v : List Byte) (hv : v.length = sizes.getD i 0)
    (p : List TOp) (q : List TOp) (hw : ∀ w, TOp.write i w ∉ q) (hm : ∀ m, m < picks q → (m + picks p) % sizes.length ≠ i) :
    written sizes i (q ++ .write i v :: p) ∧ latest sizes init i (q ++ .write i v :: p) = some v := by
  induction q with
  | nil =>
    refine ⟨Or.inl ⟨rfl, hv⟩, ?_⟩
    rw [List.nil_append, latest, if_pos ⟨rfl, hv⟩]
  | cons y q ih =>
    have hw' : ∀ w, TOp.write i w ∉ q := fun w hx => hw w (List.mem_cons_of_mem _ hx)
    cases y with
    | write j w =>
      have hji : j ≠ i := by
        rintro rfl; exact hw w List.mem_cons_self
      obtain ⟨g1, g2⟩ := ih hw' (by simpa [picks] using hm)
      refine ⟨Or.inr g1, ?_⟩
      rw [List.cons_append, latest, if_neg (fun hh => hji hh.1)]; exact g2
    | pick =>
      simp only [picks] at hm
      obtain ⟨g1, g2⟩ := ih hw' (fun m h' => hm m (by omega))
      refine ⟨?_, g2⟩
      rw [List.cons_append, written]
      refine ⟨?_, g1⟩
      rw [picks_append]
      exact hm _ (by omega)

theorem turn_of_write (sizes : List Nat) (init : Nat → Option (List Byte)) (i : Nat) (hi : i < sizes.length) (v : List Byte)
    (hv : v.length = sizes.getD i 0) (pre : List TOp) (q : List TOp) (hw : ∀ w, TOp.write i w ∉ q)
    (h0 : (picks q + picks pre) % sizes.length = 0) (h1 : sizes.length - i ≤ picks q) (h2 : picks q < 2 * sizes.length - i) :
    ∃ r, atTurn sizes.length i (q ++ .write i v :: pre.reverse) = some r ∧ written sizes i r ∧ latest sizes init i r = some v := by
  -- after `k` more picks
  suffices hk : ∀ (q : List TOp) (k : Nat), (∀ w, TOp.write i w ∉ q) → (picks q + picks pre + k) % sizes.length = 0 →
      sizes.length - i ≤ picks q + k → picks q + k < 2 * sizes.length - i → k ≤ sizes.length - i - 1 →
      ∃ r, atTurn sizes.length i (q ++ .write i v :: pre.reverse) = some r ∧ written sizes i r ∧ latest sizes init i r = some v from
    hk q 0 hw (by simpa using h0) (by omega) (by omega) (by omega)
  intro q
  induction q with
  | nil =>
    intro k _ h0 h1 _ h3
    simp only [picks] at h0 h1
    omega
  | cons x q ih =>
    intro k hw h0 h4 h5 h6
    have hwq : ∀ w, TOp.write i w ∉ q := fun w hm => hw w (List.mem_cons_of_mem _ hm)
    cases x with
    | write j w =>
      simp only [picks] at h0 h4 h5
      simp only [List.cons_append, atTurn]
      exact ih k hwq h0 h4 h5 h6
    | pick =>
      simp only [picks] at h0 h4 h5
      simp only [List.cons_append, atTurn]
      have hpp : picks (q ++ .write i v :: pre.reverse) = picks q + picks pre := by
        rw [picks_append]; simp [picks, picks_reverse]
      rw [hpp]
      have h0' : (picks q + picks pre + (k + 1)) % sizes.length = 0 := by
        rw [← h0]; congr 1; omega
      by_cases hc : (picks q + picks pre) % sizes.length = i
      · rw [if_pos hc]
        refine ⟨_, rfl, ?_⟩
        have hik : k + 1 = sizes.length - i := by
          rw [Nat.add_mod, hc] at h0'
          rcases Nat.lt_or_ge (k + 1) (sizes.length - i) with hlt | hge
          · rw [Nat.mod_eq_of_lt (a := k + 1) (by omega), Nat.mod_eq_of_lt (by omega)] at h0'
            omega
          · omega
        apply no_turn_since sizes init i v hv _ q hwq
        intro m hm hmi
        rw [picks_reverse] at hmi
        have e1 : (m + picks pre) % sizes.length = (picks q + picks pre) % sizes.length := by rw [hmi, hc]
        have hd : (picks q + picks pre - (m + picks pre)) % sizes.length = 0 := Nat.sub_mod_eq_zero_of_mod_eq e1.symm
        have : picks q + picks pre - (m + picks pre) = picks q - m := by omega
        rw [this] at hd
        have hlt : picks q - m < sizes.length := by omega
        rw [Nat.mod_eq_of_lt hlt] at hd
        omega
      · rw [if_neg hc]
        refine ih (k + 1) hwq h0' (by omega) (by omega) ?_
        rcases Nat.lt_or_ge (k + 1) (sizes.length - i) with hlt | hge
        · omega
        · exfalso
          have hk : k + 1 = sizes.length - i := by omega
          have e3 : (picks q + picks pre + (k + 1) + i) % sizes.length = i := by
            rw [Nat.add_mod, h0', Nat.zero_add, Nat.mod_mod, Nat.mod_eq_of_lt hi]
          have e4 : picks q + picks pre + (k + 1) + i = picks q + picks pre + sizes.length := by omega
          rw [e4, Nat.add_mod_right] at e3
          exact hc e3

/-- every schedule keeps the invariant -/
theorem trun (objs : List Obj) (fits : Fits objs) (f0 : Frame) (hdlc : f0.dlc.toNat = (sizesOf objs).sum) (ops : List TOp) :
    ∃ s outs, (TSched.fresh f0 objs).run ops = .ok (s, outs) ∧
      outs.length = ops.length ∧ TInv (sizesOf objs) (initOf objs) f0.toHeader s ops.reverse := by
  obtain ⟨hn, hsum, hi⟩ := fits
  have hn' : sizesOf objs ≠ [] := by simpa [sizesOf] using hn
  suffices h : ∀ l : List TOp, ∃ s outs, (TSched.fresh f0 objs).run l.reverse = .ok (s, outs) ∧
      outs.length = l.length ∧ TInv (sizesOf objs) (initOf objs) f0.toHeader s l by
    have := h ops.reverse
    rw [List.reverse_reverse, List.length_reverse] at this
    exact this
  intro l
  induction l with
  | nil => exact ⟨_, [], rfl, rfl, tinv_init objs hi f0 hdlc⟩
  | cons o l ih =>
    obtain ⟨s, outs, h1, h2, h3⟩ := ih
    rw [List.reverse_cons]
    cases o with
    | write i v =>
      obtain ⟨s', h4, h5⟩ := tinv_write _ _ _ s l h3 i v
      exact ⟨s', _, run_append _ _ _ _ _ h1 _ _ h4, by simp [h2], h5⟩
    | pick =>
      obtain ⟨s', out, h4, h5, -⟩ := tinv_pick _ _ hsum hn' _ s l h3
      exact ⟨s', _, run_append _ _ _ _ _ h1 _ _ h4, by simp [h2], h5⟩

end Verif.Pdo
