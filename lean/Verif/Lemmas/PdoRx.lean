import Verif.Lemmas.Pdo

set_option linter.unusedSimpArgs false
set_option linter.unusedVariables false

namespace Verif.Pdo
open Verif Verif.Spec.Pdo

theorem deliver_full (msg : Frame) : ∀ (bs : List Buffer) (off : Nat), (∀ b, b ∈ bs → b.buffer.length = b.size) →
    off + (bs.map Buffer.size).sum ≤ msg.dlc.toNat → off + (bs.map Buffer.size).sum ≤ 8 →
    ∃ bs', deliver msg bs off = .ok bs' ∧ bs'.length = bs.length ∧
      ∀ (i : Nat) (b : Buffer), bs[i]? = some b → bs'[i]? = some { b with empty := false, dirty := true, buffer := (msg.data.toList.drop (off + offset (bs.map Buffer.size) i)).take b.size } := by
  intro bs
  induction bs with
  | nil => intro off _ _ _; exact ⟨[], rfl, rfl, by simp⟩
  | cons b bs ih =>
    intro off hl hd h8
    simp only [List.map_cons, List.sum_cons] at hd h8
    obtain ⟨bs', h1, h2, h3⟩ := ih (off + b.size) (fun x hx => hl x (List.mem_cons_of_mem _ hx)) (by omega) (by omega)
    have hbl := hl b List.mem_cons_self
    have hw : b.writeRaw (msg.data.toList.drop off) b.size =
        .ok { b with empty := false, dirty := true, buffer := (msg.data.toList.drop off).take b.size } := by
      unfold Buffer.writeRaw
      have hl8 : (msg.data.toList.drop off).length = 8 - off := by simp
      rw [if_neg (by omega), if_neg (by omega), List.drop_of_length_le (l := b.buffer) (by omega), List.append_nil]
    refine ⟨{ b with empty := false, dirty := true, buffer := (msg.data.toList.drop off).take b.size } :: bs', ?_, by simp [h2], ?_⟩
    · simp only [deliver]
      rw [if_pos (by omega), hw]
      simp only [h1]
    · intro i b' hi
      cases i with
      | zero => simp only [List.getElem?_cons_zero, Option.some.injEq] at hi; subst hi; simp [offset]
      | succ i =>
        simp only [List.getElem?_cons_succ] at hi ⊢
        rw [h3 i b' hi]
        simp only [offset, List.map_cons, List.take_succ_cons, List.sum_cons]
        rw [Nat.add_assoc]

/-- whatever the length of the frame, delivering it is safe -/
theorem deliver_ok (msg : Frame) (h8 : msg.dlc.toNat ≤ 8) : ∀ (bs : List Buffer) (off : Nat), (∀ b, b ∈ bs → b.buffer.length = b.size) →
    ∃ bs', deliver msg bs off = .ok bs' ∧ ∀ b, b ∈ bs' → b.buffer.length = b.size := by
  intro bs
  induction bs with
  | nil => intro off _; exact ⟨[], rfl, by simp⟩
  | cons b bs ih =>
    intro off hl
    have hbl := hl b List.mem_cons_self
    have hl' := fun x hx => hl x (List.mem_cons_of_mem _ hx)
    simp only [deliver]
    by_cases h : off + b.size ≤ msg.dlc.toNat
    · obtain ⟨bs', h1, h2⟩ := ih (off + b.size) hl'
      have hl8 : (msg.data.toList.drop off).length = 8 - off := by simp
      have hw : b.writeRaw (msg.data.toList.drop off) b.size =
          .ok { b with empty := false, dirty := true, buffer := (msg.data.toList.drop off).take b.size } := by
        unfold Buffer.writeRaw
        rw [if_neg (by omega), if_neg (by omega), List.drop_of_length_le (l := b.buffer) (by omega), List.append_nil]
      rw [if_pos h, hw]
      simp only [h1]
      refine ⟨_, rfl, ?_⟩
      intro x hx
      rcases List.mem_cons.mp hx with rfl | hx
      · simp; omega
      · exact h2 x hx
    · obtain ⟨bs', h1, h2⟩ := ih off hl'
      rw [if_neg h]
      simp only [h1]
      refine ⟨_, rfl, ?_⟩
      intro x hx
      rcases List.mem_cons.mp hx with rfl | hx
      · exact hbl
      · exact h2 x hx

/-- the first cycle sends nothing before its end -/
theorem outs_none (objs : List Obj) (fits : Fits objs) (f0 : Frame) (hdlc : f0.dlc.toNat = (sizesOf objs).sum) (l : List TOp)
    (hl : picks l < objs.length) :
    ∃ s outs, (TSched.fresh f0 objs).run l.reverse = .ok (s, outs) ∧ (∀ o, o ∈ outs → o = none) ∧
      TInv (sizesOf objs) (initOf objs) f0.toHeader s l := by
  have hlen : (sizesOf objs).length = objs.length := by simp [sizesOf]
  obtain ⟨hn, hsum, hi⟩ := fits
  have hn' : sizesOf objs ≠ [] := by simpa [sizesOf] using hn
  induction l with
  | nil => exact ⟨_, [], rfl, by simp, tinv_init objs hi f0 hdlc⟩
  | cons o l ih =>
    rw [List.reverse_cons]
    cases o with
    | write i v =>
      obtain ⟨s, outs, h1, h2, h3⟩ := ih hl
      obtain ⟨s', h4, h5⟩ := tinv_write _ _ _ s l h3 i v
      refine ⟨s', _, run_append _ _ _ _ _ h1 _ _ h4, ?_, h5⟩
      intro o ho
      rcases List.mem_append.mp ho with ho | ho
      · exact h2 o ho
      · simpa using ho
    | pick =>
      have hl' : picks l + 1 < objs.length := hl
      obtain ⟨s, outs, h1, h2, h3⟩ := ih (by omega)
      obtain ⟨s', out, h4, h5, h6, -⟩ := tinv_pick _ _ hsum hn' _ s l h3
      refine ⟨s', _, run_append _ _ _ _ _ h1 _ _ h4, ?_, h5⟩
      intro o ho
      rcases List.mem_append.mp ho with ho | ho
      · exact h2 o ho
      · simp only [List.mem_singleton] at ho
        cases hout : out with
        | none => rw [ho, hout]
        | some f =>
          have := (h6 f hout).1
          simp only [picks, hlen] at this
          rw [Nat.mod_eq_of_lt hl'] at this
          omega

theorem flatten_of_slices : ∀ (vals : List (List Byte)) (data : List Byte),
    (∀ i v, vals[i]? = some v → (data.drop (offset (vals.map List.length) i)).take v.length = v) →
    data.take (vals.map List.length).sum = vals.flatten := by
  intro vals
  induction vals with
  | nil => intro data _; simp
  | cons v vals ih =>
    intro data h
    rw [List.map_cons, List.sum_cons, List.flatten_cons, List.take_add]
    have h0 := h 0 v rfl
    simp only [offset, List.take_zero, List.sum_nil, List.drop_zero] at h0
    rw [h0, ih (data.drop v.length)]
    intro i w hw
    have := h (i + 1) w (by simpa using hw)
    simp only [offset, List.map_cons, List.take_succ_cons, List.sum_cons] at this
    rw [List.drop_drop]
    exact this

theorem picks_writes (vals : List (List Byte)) (n : Nat) : picks ((vals.zipIdx n).map (fun p => TOp.write p.2 p.1)) = 0 := by
  induction vals generalizing n with
  | nil => rfl
  | cons v vs ih => simp [picks, ih]

theorem picks_replicate (n : Nat) : picks (List.replicate n TOp.pick) = n := by
  induction n with
  | zero => rfl
  | succ n ih => simp [List.replicate_succ, picks, ih]

/-- after writing everything, object `i` is picked up with its value -/
theorem turn_after_writes (sizes : List Nat) (init : Nat → Option (List Byte)) (vals : List (List Byte)) (hv : vals.map List.length = sizes)
    (i : Nat) (v : List Byte) (hi : vals[i]? = some v) :
    ∃ r, atTurn sizes.length i (List.replicate sizes.length .pick ++ ((vals.zipIdx.map (fun p => TOp.write p.2 p.1)).reverse)) = some r ∧
      written sizes i r ∧ latest sizes init i r = some v := by
  have hil : i < vals.length := by
    rcases Nat.lt_or_ge i vals.length with h | h
    · exact h
    · rw [List.getElem?_eq_none h] at hi; cases hi
  have hlen : sizes.length = vals.length := by rw [← hv]; simp
  have hvi : vals[i] = v := by rw [List.getElem?_eq_getElem hil] at hi; simpa using hi
  have hsz : v.length = sizes.getD i 0 := by
    rw [← hv]; simp [List.getD, hil, hvi]
  -- split the writes
  have hsplit : vals = vals.take i ++ v :: vals.drop (i + 1) := by
    rw [← hvi]; simp
  have hw : vals.zipIdx.map (fun p => TOp.write p.2 p.1) =
      ((vals.take i).zipIdx.map (fun p => TOp.write p.2 p.1)) ++ TOp.write i v :: ((vals.drop (i + 1)).zipIdx (i + 1)).map (fun p => TOp.write p.2 p.1) := by
    conv => lhs; rw [hsplit]
    rw [List.zipIdx_append, List.map_append, List.zipIdx_cons]
    simp only [List.map_cons, List.length_take, Nat.zero_add]
    rw [Nat.min_eq_left (by omega)]
  have hturn : ∀ k (h : List TOp), picks h = 0 → i < k → k ≤ sizes.length →
      atTurn sizes.length i (List.replicate k .pick ++ h) = some (List.replicate i .pick ++ h) := by
    intro k
    induction k with
    | zero => intro h _ hk; omega
    | succ k ih =>
      intro h hp hk hk'
      rw [List.replicate_succ, List.cons_append, atTurn, picks_append, picks_replicate, hp, Nat.add_zero, Nat.mod_eq_of_lt (by omega)]
      by_cases hc : k = i
      · rw [if_pos hc, hc]
      · rw [if_neg hc]; exact ih h hp (by omega) (by omega)
  refine ⟨_, hturn sizes.length _ (by rw [picks_reverse, picks_writes]) (by omega) (Nat.le_refl _), ?_⟩
  rw [hw, List.reverse_append, List.reverse_cons, List.append_assoc, List.singleton_append, ← List.append_assoc]
  apply no_turn_since sizes init i v hsz
  · intro w hm
    rcases List.mem_append.mp hm with hm | hm
    · have := List.eq_of_mem_replicate hm; cases this
    · rw [List.mem_reverse, List.mem_map] at hm
      obtain ⟨p, hp, he⟩ := hm
      have := List.le_snd_of_mem_zipIdx hp
      have e : p.2 = i := by injection he
      omega
  · intro m hm
    rw [picks_append, picks_replicate, picks_reverse, picks_writes] at hm
    rw [picks_reverse, picks_writes, Nat.add_zero, Nat.mod_eq_of_lt (by omega)]
    omega

/-- a buffer of an RPDO after a history -/
structure RBufOk (sizes : List Nat) (init : Nat → Option (List Byte)) (i : Nat) (h : List ROp) (b : Buffer) : Prop where
  size : b.size = sizes.getD i 0
  len : b.buffer.length = b.size
  none : received sizes i h = .none → b.empty = (init i).isNone ∧ b.dirty = false
  some : ∀ v, received sizes i h = .some v → b.empty = false ∧ b.buffer = v
  dirty : b.dirty = true ↔ news sizes i h

structure RInv (sizes : List Nat) (init : Nat → Option (List Byte)) (r : Rpdo) (h : List ROp) : Prop where
  lenb : r.bufs.length = sizes.length
  buf : ∀ i, i < sizes.length → ∃ b, r.bufs[i]? = some b ∧ RBufOk sizes init i h b

theorem rinv_init (objs : List Obj) (hi : ∀ o, o ∈ objs → ∀ v, o.init = some v → v.length = o.size) (f : Frame) (ty : Byte) :
    RInv (sizesOf objs) (initOf objs) (Rpdo.fresh f ty objs) [] := by
  refine ⟨by simp [Rpdo.fresh, sizesOf], ?_⟩
  intro i hi'
  obtain ⟨o, h1, h2, h3⟩ := objs_get objs i hi'
  refine ⟨o.buffer, by simp [Rpdo.fresh, h1], h2, ?_, ?_, by simp [received], by simp [Obj.buffer, news]⟩
  · simp only [Obj.buffer]
    cases hv : o.init with
    | none => simp
    | some v => simpa using hi o (List.mem_of_getElem? h1) v hv
  · intro _; simp [Obj.buffer, h3]

theorem rinv_sizes {sizes : List Nat} {e : Nat → Option (List Byte)} {r : Rpdo} {h : List ROp} (inv : RInv sizes e r h) :
    r.bufs.map Buffer.size = sizes := by
  apply List.ext_getElem?
  intro i
  by_cases hi : i < sizes.length
  · obtain ⟨b, hb, ok⟩ := inv.buf i hi
    simp [hb, ok.size, List.getD, hi]
  · rw [List.getElem?_eq_none (by simp [inv.lenb]; omega), List.getElem?_eq_none (by omega)]

theorem rinv_lens {sizes : List Nat} {e : Nat → Option (List Byte)} {r : Rpdo} {h : List ROp} (inv : RInv sizes e r h) :
    ∀ b, b ∈ r.bufs → b.buffer.length = b.size := by
  intro b hb
  obtain ⟨i, hi, he⟩ := List.getElem_of_mem hb
  obtain ⟨b', hb', ok⟩ := inv.buf i (by rw [← inv.lenb]; exact hi)
  rw [List.getElem?_eq_getElem hi, he] at hb'
  cases hb'
  exact ok.len

theorem rinv_frame {sizes : List Nat} {e : Nat → Option (List Byte)} {r : Rpdo} {h : List ROp} (inv : RInv sizes e r h) (hsum : sizes.sum ≤ 8)
    (f : Frame) (hf : sizes.sum ≤ f.dlc.toNat) :
    ∃ r', r.step (.frame f) = .ok (r', none) ∧ RInv sizes e r' (.frame f :: h) := by
  have hs := rinv_sizes inv
  obtain ⟨bs', h1, h2, h3⟩ := deliver_full f r.bufs 0 (rinv_lens inv) (by rw [hs]; omega) (by rw [hs]; omega)
  refine ⟨{ r with bufs := bs', timeout := r.rearm }, by simp only [Rpdo.step, Rpdo.handleFrame, h1], by simp [h2, inv.lenb], ?_⟩
  intro i hi
  obtain ⟨b, hb, ok⟩ := inv.buf i hi
  refine ⟨_, h3 i b hb, ok.size, ?_, ?_, ?_, ?_⟩
  · rw [hs]
    have := offset_le sizes i hi
    have h8 : f.data.toList.length = 8 := by simp
    simp only [Nat.zero_add, List.length_take, List.length_drop, h8]
    rw [ok.size]; omega
  · intro hn; simp [received] at hn
  · intro v hv
    simp only [received, Option.some.injEq] at hv
    refine ⟨rfl, ?_⟩
    rw [hs]
    simp only [slice] at hv
    rw [← hv, ok.size, Nat.zero_add]
  · simp [news]

theorem set_same (l : List Buffer) (i : Nat) (b : Buffer) (h : l[i]? = some b) : l.set i b = l := by
  apply List.ext_getElem?
  intro j
  by_cases hij : i = j
  · subst hij
    have : i < l.length := by
      rcases Nat.lt_or_ge i l.length with h' | h'
      · exact h'
      · rw [List.getElem?_eq_none h'] at h; cases h
    simp [this]
    rw [List.getElem?_eq_getElem this] at h
    simpa using h.symm
  · simp [hij]

theorem rinv_read {sizes : List Nat} {e : Nat → Option (List Byte)} {r : Rpdo} {h : List ROp} (inv : RInv sizes e r h) (i : Nat) (data : List Byte) :
    ∃ r' out, r.step (.read i data) = .ok (r', some out) ∧ RInv sizes e r' (.read i data :: h) ∧
      (i < sizes.length → data.length = sizes.getD i 0 →
        (received sizes i h = none → e i = none → out = .throws .timeout) ∧
        (news sizes i h → ∀ v, received sizes i h = some v → out = .ok v) ∧
        (¬ news sizes i h → (received sizes i h ≠ none ∨ e i ≠ none) → out = .ok data)) ∧
      (i < sizes.length → data.length ≠ sizes.getD i 0 → out = .throws .badCast) := by
  by_cases hi : i < sizes.length
  · obtain ⟨b, hb, ok⟩ := inv.buf i hi
    -- a read that leaves the buffer as it is
    have same : (∀ j, j < sizes.length → (j = i → data.length = sizes.getD j 0 → ¬ news sizes j h)) → RInv sizes e r (.read i data :: h) := by
      intro hh
      refine ⟨inv.lenb, ?_⟩
      intro j hj
      obtain ⟨b', hb', ok'⟩ := inv.buf j hj
      refine ⟨b', hb', ok'.size, ok'.len, by simpa [received] using ok'.none, by simpa [received] using ok'.some, ?_⟩
      rw [ok'.dirty]
      simp only [news]
      constructor
      · intro hn
        refine ⟨?_, hn⟩
        rintro ⟨h1, h2⟩
        exact hh j hj h1.symm h2 hn
      · exact fun hn => hn.2
    by_cases hsz : data.length = sizes.getD i 0
    · cases hrec : received sizes i h with
      | none =>
        obtain ⟨h1, h2⟩ := ok.none hrec
        have hnn : ¬ news sizes i h := by rw [← ok.dirty, h2]; simp
        cases hei : e i with
        | none =>
          rw [hei] at h1
          have hre : b.readEntry data = .throws .timeout := by
            unfold Buffer.readEntry; rw [if_neg (by rw [ok.size, hsz]; simp), if_pos (by simpa using h1)]
          refine ⟨r, .throws .timeout, by simp only [Rpdo.step, Rpdo.read, hb, hre], same (fun j _ hj _ => hj ▸ hnn), ?_, fun _ hne => absurd hsz hne⟩
          exact fun _ _ => ⟨fun _ _ => rfl, fun hn => absurd hn hnn, fun _ ho => by simp at ho⟩
        | some v0 =>
          rw [hei] at h1
          have hre : b.readEntry data = .ok (b, data) := by
            unfold Buffer.readEntry
            rw [if_neg (by rw [ok.size, hsz]; simp), if_neg (by simp [h1]), if_neg (by simp [h2])]
          have hset : r.bufs.set i b = r.bufs := by
            exact set_same _ _ _ hb
          refine ⟨r, .ok data, ?_, same (fun j _ hj _ => hj ▸ hnn), ?_, fun _ hne => absurd hsz hne⟩
          · simp only [Rpdo.step, Rpdo.read, hb, hre]; rw [hset]
          exact fun _ _ => ⟨fun _ ho => by simp at ho, fun hn => absurd hn hnn, fun _ _ => rfl⟩
      | some v =>
        obtain ⟨h1, h2⟩ := ok.some v hrec
        cases hd : b.dirty with
        | true =>
          have hn : news sizes i h := ok.dirty.mp hd
          have hre : b.readEntry data = .ok ({ b with dirty := false }, v) := by
            unfold Buffer.readEntry
            rw [if_neg (by rw [ok.size, hsz]; simp), if_neg (by simp [h1]), if_pos hd, h2]
          refine ⟨{ r with bufs := r.bufs.set i { b with dirty := false } }, .ok v, by simp only [Rpdo.step, Rpdo.read, hb, hre], ?_, ?_, fun _ hne => absurd hsz hne⟩
          · refine ⟨by simp [inv.lenb], ?_⟩
            intro j hj
            by_cases hij : i = j
            · subst hij
              refine ⟨{ b with dirty := false }, by simp [inv.lenb, hj], ok.size, ok.len, ?_, ?_, ?_⟩
              · intro hc; simp only [received, hrec] at hc; cases hc
              · intro w hw; simp only [received, hrec] at hw; cases hw; exact ⟨h1, h2⟩
              · simp [news, hsz]
            · obtain ⟨b', hb', ok'⟩ := inv.buf j hj
              refine ⟨b', by simp [hij, hb'], ok'.size, ok'.len, by simpa [received] using ok'.none, by simpa [received] using ok'.some, ?_⟩
              simpa [news, hij] using ok'.dirty
          · exact fun _ _ => ⟨fun hc => (by cases hc), fun _ w hw => (by cases hw; rfl), fun hnn => absurd hn hnn⟩
        | false =>
          have hnn : ¬ news sizes i h := by rw [← ok.dirty, hd]; simp
          have hre : b.readEntry data = .ok (b, data) := by
            unfold Buffer.readEntry
            rw [if_neg (by rw [ok.size, hsz]; simp), if_neg (by simp [h1]), if_neg (by simp [hd])]
          have hset : r.bufs.set i b = r.bufs := by
            exact set_same _ _ _ hb
          refine ⟨r, .ok data, ?_, same (fun j _ hj _ => hj ▸ hnn), ?_, fun _ hne => absurd hsz hne⟩
          · simp only [Rpdo.step, Rpdo.read, hb, hre]; rw [hset]
          exact fun _ _ => ⟨fun hc => (by cases hc), fun hn => absurd hn hnn, fun _ _ => rfl⟩
    · have hre : b.readEntry data = .throws .badCast := by
        unfold Buffer.readEntry; rw [if_pos (by rw [ok.size]; exact fun e => hsz e.symm)]
      refine ⟨r, .throws .badCast, by simp only [Rpdo.step, Rpdo.read, hb, hre], same (fun j _ hj hc => absurd (hj ▸ hc) hsz), fun _ hc => absurd hc hsz, fun _ _ => rfl⟩
  · have hn : r.bufs[i]? = none := by rw [List.getElem?_eq_none]; rw [inv.lenb]; omega
    refine ⟨r, .throws .badCast, by simp only [Rpdo.step, Rpdo.read, hn], ⟨inv.lenb, ?_⟩, fun hc => absurd hc hi, fun hc => absurd hc hi⟩
    intro j hj
    obtain ⟨b', hb', ok'⟩ := inv.buf j hj
    have hij : i ≠ j := by omega
    refine ⟨b', hb', ok'.size, ok'.len, by simpa [received] using ok'.none, by simpa [received] using ok'.some, ?_⟩
    simpa [news, hij] using ok'.dirty

theorem rrun_append (s : Rpdo) (a : List ROp) (o : ROp) (s' : Rpdo) (outs) (h : s.run a = .ok (s', outs))
    (s'' : Rpdo) (out) (h2 : s'.step o = .ok (s'', out)) : s.run (a ++ [o]) = .ok (s'', outs ++ [out]) := by
  induction a generalizing s outs with
  | nil =>
    simp only [Rpdo.run] at h; cases h
    simp [Rpdo.run, h2]
  | cons x xs ih =>
    simp only [Rpdo.run] at h
    simp only [List.cons_append, Rpdo.run]
    cases hx : s.step x with
    | throws e => rw [hx] at h; cases h
    | ub => rw [hx] at h; cases h
    | ok r =>
      obtain ⟨s1, o1⟩ := r
      rw [hx] at h
      simp only at h ⊢
      cases hr : s1.run xs with
      | throws e => rw [hr] at h; cases h
      | ub => rw [hr] at h; cases h
      | ok r2 =>
        obtain ⟨s2, o2⟩ := r2
        rw [hr] at h; cases h
        rw [ih s1 o2 hr]
        rfl

theorem rrun (objs : List Obj) (fits : Fits objs) (f0 : Frame) (ty : Byte)
    (ops : List ROp) (hf : ∀ f, ROp.frame f ∈ ops → (sizesOf objs).sum ≤ f.dlc.toNat) :
    ∃ r' outs, (Rpdo.fresh f0 ty objs).run ops = .ok (r', outs) ∧ outs.length = ops.length ∧ RInv (sizesOf objs) (initOf objs) r' ops.reverse := by
  obtain ⟨hn, hsum, hi⟩ := fits
  suffices h : ∀ l : List ROp, (∀ f, ROp.frame f ∈ l → (sizesOf objs).sum ≤ f.dlc.toNat) →
      ∃ r' outs, (Rpdo.fresh f0 ty objs).run l.reverse = .ok (r', outs) ∧ outs.length = l.length ∧ RInv (sizesOf objs) (initOf objs) r' l by
    have := h ops.reverse (by simpa using hf)
    rw [List.reverse_reverse, List.length_reverse] at this
    exact this
  intro l
  induction l with
  | nil => intro _; exact ⟨_, [], rfl, rfl, rinv_init objs hi f0 ty⟩
  | cons o l ih =>
    intro hf
    obtain ⟨s, outs, h1, h2, h3⟩ := ih (fun f hm => hf f (List.mem_cons_of_mem _ hm))
    rw [List.reverse_cons]
    cases o with
    | frame f =>
      obtain ⟨s', h4, h5⟩ := rinv_frame h3 hsum f (hf f List.mem_cons_self)
      exact ⟨s', _, rrun_append _ _ _ _ _ h1 _ _ h4, by simp [h2], h5⟩
    | read i v =>
      obtain ⟨s', out, h4, h5, -⟩ := rinv_read h3 i v
      exact ⟨s', _, rrun_append _ _ _ _ _ h1 _ _ h4, by simp [h2], h5⟩

/-! ## supervision -/

/-- the value a supervised RPDO's counter starts from after a frame -/
def SInv (T : Nat) (h : List SEv) (t : Int) : Prop :=
  match silence h with
  | none => t = -1
  | some k => t = max 0 ((T : Int) + 2 - k)

theorem events_append (s : Rpdo) (a : List SEv) (o : SEv) (s' : Rpdo) (outs) (h : s.events a = .ok (s', outs))
    (s'' : Rpdo) (out) (h2 : s'.event o = .ok (s'', out)) : s.events (a ++ [o]) = .ok (s'', outs ++ [out]) := by
  induction a generalizing s outs with
  | nil =>
    simp only [Rpdo.events] at h; cases h
    simp [Rpdo.events, h2]
  | cons x xs ih =>
    simp only [Rpdo.events] at h
    simp only [List.cons_append, Rpdo.events]
    cases hx : s.event x with
    | throws e => rw [hx] at h; cases h
    | ub => rw [hx] at h; cases h
    | ok r =>
      obtain ⟨s1, o1⟩ := r
      rw [hx] at h
      simp only at h ⊢
      cases hr : s1.events xs with
      | throws e => rw [hr] at h; cases h
      | ub => rw [hr] at h; cases h
      | ok r2 =>
        obtain ⟨s2, o2⟩ := r2
        rw [hr] at h; cases h
        rw [ih s1 o2 hr]
        rfl

theorem event_ok (r : Rpdo) (hl : ∀ b, b ∈ r.bufs → b.buffer.length = b.size) (e : SEv) (he : ∀ f, e = .frame f → f.dlc.toNat ≤ 8) :
    ∃ r' out, r.event e = .ok (r', out) ∧ r'.transmissionType = r.transmissionType ∧ r'.frame = r.frame ∧
      (∀ b, b ∈ r'.bufs → b.buffer.length = b.size) ∧
      (∀ f, e = .frame f → r'.timeout = r.rearm ∧ out = (false, none)) ∧
      (e = .cycle → r'.timeout = (if r.cyclic && decide (r.timeout > 0) then r.timeout - 1 else r.timeout) ∧ out = (r.sync).2) := by
  cases e with
  | frame f =>
    obtain ⟨bs', h1, h2⟩ := deliver_ok f (he f rfl) r.bufs 0 hl
    refine ⟨{ r with bufs := bs', timeout := r.rearm }, (false, none), by simp only [Rpdo.event, Rpdo.handleFrame, h1], rfl, rfl, h2, ?_, ?_⟩
    · intro f' _; exact ⟨rfl, rfl⟩
    · intro hc; cases hc
  | cycle =>
    refine ⟨r.sync.1, r.sync.2, rfl, ?_, ?_, ?_, ?_, ?_⟩
    · simp only [Rpdo.sync]; split <;> rfl
    · simp only [Rpdo.sync]; split <;> rfl
    · simp only [Rpdo.sync]; split <;> exact hl
    · intro f hc; cases hc
    · intro _; refine ⟨?_, rfl⟩
      simp only [Rpdo.sync]; split <;> rfl

/-- every history of a supervised RPDO -/
theorem srun (r : Rpdo) (T : Nat) (hl : ∀ b, b ∈ r.bufs → b.buffer.length = b.size) (ht : r.timeout = -1) (hcyc : r.cyclic = true)
    (hT : ∀ r' : Rpdo, r'.transmissionType = r.transmissionType → r'.frame = r.frame → r'.rearm = (T : Int) + 2)
    (es : List SEv) (he : ∀ f, SEv.frame f ∈ es → f.dlc.toNat ≤ 8) :
    ∃ r' outs, r.events es = .ok (r', outs) ∧ outs.length = es.length ∧ SInv T es.reverse r'.timeout ∧
      r'.transmissionType = r.transmissionType ∧ r'.frame = r.frame ∧ (∀ b, b ∈ r'.bufs → b.buffer.length = b.size) := by
  suffices h : ∀ l : List SEv, (∀ f, SEv.frame f ∈ l → f.dlc.toNat ≤ 8) →
      ∃ r' outs, r.events l.reverse = .ok (r', outs) ∧ outs.length = l.length ∧ SInv T l r'.timeout ∧
      r'.transmissionType = r.transmissionType ∧ r'.frame = r.frame ∧ (∀ b, b ∈ r'.bufs → b.buffer.length = b.size) by
    have := h es.reverse (by simpa using he)
    rw [List.reverse_reverse, List.length_reverse] at this
    exact this
  intro l
  induction l with
  | nil => intro _; exact ⟨r, [], rfl, rfl, ht, rfl, rfl, hl⟩
  | cons o l ih =>
    intro hf
    obtain ⟨s, outs, h1, h2, h3, h4, h5, h6⟩ := ih (fun f hm => hf f (List.mem_cons_of_mem _ hm))
    obtain ⟨s', out, g1, g2, g3, g4, g5, g6⟩ := event_ok s h6 o (fun f hof => hf f (by rw [hof]; exact List.mem_cons_self))
    rw [List.reverse_cons]
    refine ⟨s', _, events_append _ _ _ _ _ h1 _ _ g1, by simp [h2], ?_, by rw [g2, h4], by rw [g3, h5], g4⟩
    cases o with
    | frame f =>
      obtain ⟨hh, -⟩ := g5 f rfl
      rw [hh, hT s h4 h5]
      simp only [SInv, silence]
      omega
    | cycle =>
      obtain ⟨hh, -⟩ := g6 rfl
      have hc : s.cyclic = true := by
        rw [← hcyc]; simp only [Rpdo.cyclic, h4]
      rw [hh, hc]
      simp only [SInv] at h3 ⊢
      simp only [silence]
      cases hsl : silence l with
      | none =>
        rw [hsl] at h3
        simp only [Option.map_none, Bool.true_and]
        simp only at h3
        rw [h3]; simp
      | some k =>
        rw [hsl] at h3
        simp only [Option.map_some, Bool.true_and, decide_eq_true_eq] at h3 ⊢
        split <;> omega

theorem events_ok (r : Rpdo) (hl : ∀ b, b ∈ r.bufs → b.buffer.length = b.size) (es : List SEv) (he : ∀ f, SEv.frame f ∈ es → f.dlc.toNat ≤ 8) :
    ∃ r' outs, r.events es = .ok (r', outs) ∧ r'.transmissionType = r.transmissionType ∧ r'.frame = r.frame ∧
      (∀ b, b ∈ r'.bufs → b.buffer.length = b.size) := by
  induction es generalizing r with
  | nil => exact ⟨r, [], rfl, rfl, rfl, hl⟩
  | cons e es ih =>
    obtain ⟨r1, out, g1, g2, g3, g4, -⟩ := event_ok r hl e (fun f hf => he f (by rw [hf]; exact List.mem_cons_self))
    obtain ⟨r2, outs, k1, k2, k3, k4⟩ := ih r1 g4 (fun f hf => he f (List.mem_cons_of_mem _ hf))
    exact ⟨r2, out :: outs, by simp only [Rpdo.events, g1, k1], by rw [k2, g2], by rw [k3, g3], k4⟩

theorem flatten_slice : ∀ (vals : List (List Byte)) (i : Nat) (v : List Byte), vals[i]? = some v →
    (vals.flatten.drop (offset (vals.map List.length) i)).take v.length = v := by
  intro vals
  induction vals with
  | nil => intro i v h; simp at h
  | cons x vals ih =>
    intro i v h
    cases i with
    | zero => simp only [List.getElem?_cons_zero, Option.some.injEq] at h; subst h; simp [offset]
    | succ i =>
      have := ih i v (by simpa using h)
      simp only [offset, List.map_cons, List.take_succ_cons, List.sum_cons, List.flatten_cons] at this ⊢
      rw [← List.drop_drop, List.drop_left]
      exact this

theorem bit_word (w : BitVec 32) (n : Nat) (hn : n < 32) : (w &&& BitVec.ofNat 32 (2 ^ n) != 0#32) = w.getLsbD n := by
  rw [Bool.eq_iff_iff, bne_iff_ne]
  have hb : ∀ i, (w &&& BitVec.ofNat 32 (2 ^ n)).getLsbD i = (w.getLsbD i && (decide (n = i) && decide (i < 32))) := by
    intro i
    rw [BitVec.getLsbD_and, BitVec.getLsbD_ofNat, Nat.testBit_two_pow]
    cases w.getLsbD i <;> simp [Bool.and_comm]
  constructor
  · intro h
    cases hw : w.getLsbD n with
    | true => rfl
    | false =>
      exfalso; apply h
      apply BitVec.eq_of_getLsbD_eq
      intro i _
      rw [hb]
      by_cases hni : n = i
      · subst hni; simp [hw]
      · simp [hni]
  · intro h h0
    have := hb n
    rw [h0, h] at this
    simp [hn] at this

end Verif.Pdo
