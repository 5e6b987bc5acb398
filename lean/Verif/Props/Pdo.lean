import Verif.Lemmas.PdoRx

/-!
# PDOs (C38 - C41)

The model is `Verif.Model.Pdo`, the specification `Verif.Spec.Pdo`.  `Fits objs` says that the mapping is not empty and has at most 8 bytes;
initial values have the size of their objects.
-/

namespace Verif.Props
open Verif Verif.Pdo Verif.Spec.Pdo

/-! ## C39 a written value is not lost -/

/-- **C39, sending.**  For every schedule of writes (by any thread, also in the middle of a cycle) and cycle steps: a frame leaves exactly at
the end of a cycle in which some object was picked up that had been written since it was last picked up, and in it every object with a known
value has the latest value at the moment it was picked up. -/
theorem C39_tpdo_sent (objs : List Obj) (fits : Fits objs) (f0 : Frame) (hdlc : f0.dlc.toNat = (sizesOf objs).sum) (ops : List TOp) :
    ∃ s outs out, (TSched.fresh f0 objs).run (ops ++ [.pick]) = .ok (s, outs ++ [out]) ∧ outs.length = ops.length ∧
      (out ≠ none ↔ picks (.pick :: ops.reverse) % objs.length = 0 ∧
        ∃ i, i < objs.length ∧ ∃ r, atTurn objs.length i (.pick :: ops.reverse) = some r ∧ written (sizesOf objs) i r) ∧
      ∀ f, out = some f → f.toHeader = f0.toHeader ∧ f.dlc = f0.dlc ∧
        ∀ i, i < objs.length → ∀ r v, atTurn objs.length i (.pick :: ops.reverse) = some r →
          latest (sizesOf objs) (initOf objs) i r = some v → slice (sizesOf objs) i f = v := by
  have hl : (sizesOf objs).length = objs.length := by simp [sizesOf]
  obtain ⟨s, outs, h1, h2, h3⟩ := trun objs fits f0 hdlc ops
  obtain ⟨hn, hsum, hi⟩ := fits
  obtain ⟨s', out, h4, h5, h6, h7⟩ := tinv_pick _ _ hsum (by simpa [sizesOf] using hn) _ s _ h3
  rw [hl] at h6 h7
  refine ⟨s', outs, out, run_append _ _ _ _ _ h1 _ _ h4, h2, ⟨?_, fun hh => h7 hh.1 hh.2⟩, ?_⟩
  · intro ho
    cases out with
    | none => exact absurd rfl ho
    | some f => exact ⟨(h6 f rfl).1, (h6 f rfl).2.1⟩
  · intro f hf
    obtain ⟨-, -, g1, g2, g3⟩ := h6 f hf
    exact ⟨g1, BitVec.eq_of_toNat_eq (by rw [g2, hdlc]), g3⟩

/-- two objects of 2 and 1 bytes -/
def objs2 : List Obj := [⟨2, none⟩, ⟨1, some [7]⟩]

/-- a frame of three bytes -/
def frame3 : Frame := { id := 0x201, isError := false, isRtr := false, isExtended := false, data := Vector.replicate 8 0, dlc := 3 }

/-- a write during a cycle whose object was already picked up is sent by the next cycle -/
example : Fits objs2 ∧ frame3.dlc.toNat = (sizesOf objs2).sum ∧
    (match (TSched.fresh frame3 objs2).run [.pick, .write 0 [1, 2], .pick, .pick, .pick, .pick, .pick] with
     | .ok (_, outs) => outs.map (Option.map fun f => f.data.toList.take 3)
     | _ => []) = [none, none, none, none, some [1, 2, 7], none, none] := by
  refine ⟨⟨by simp [objs2], by decide, ?_⟩, by decide, by decide +kernel⟩
  intro o ho v hv
  simp only [objs2, List.mem_cons, List.not_mem_nil, or_false] at ho
  rcases ho with rfl | rfl
  · cases hv
  · cases hv; rfl

/-- **C39, a write reaches the bus.**  A value written with the right size is in the frame sent at the end of the first cycle in which the object
is picked up again, unless it is overwritten.  (Object `i` is picked up `objs.length - i` steps before a cycle ends: `hturn` and `hfirst` say
that this happened once since the write.) -/
theorem C39_write_reaches_bus (objs : List Obj) (fits : Fits objs) (f0 : Frame) (hdlc : f0.dlc.toNat = (sizesOf objs).sum)
    (pre post : List TOp) (i : Nat) (hi : i < objs.length) (v : List Byte) (hv : v.length = (sizesOf objs).getD i 0)
    (hend : picks (pre ++ .write i v :: (post ++ [.pick])) % objs.length = 0)
    (hquiet : ∀ w, TOp.write i w ∉ post)
    (hfirst : picks (post ++ [.pick]) < 2 * objs.length - i)
    (hturn : objs.length - i ≤ picks (post ++ [.pick])) :
    ∃ s outs f, (TSched.fresh f0 objs).run (pre ++ .write i v :: (post ++ [.pick])) = .ok (s, outs ++ [some f]) ∧
      slice (sizesOf objs) i f = v := by
  obtain ⟨s, outs, out, h1, -, h2, h3⟩ := C39_tpdo_sent objs fits f0 hdlc (pre ++ .write i v :: post)
  have hops : pre ++ .write i v :: post ++ [.pick] = pre ++ .write i v :: (post ++ [.pick]) := by simp
  rw [hops] at h1
  have hrr : TOp.pick :: (pre ++ .write i v :: post).reverse = (.pick :: post.reverse) ++ .write i v :: pre.reverse := by simp
  rw [hrr] at h2 h3
  have hpq : picks (.pick :: post.reverse) = picks (post ++ [.pick]) := by
    rw [picks_append]; simp [picks, picks_reverse]
  have h0 : (picks (.pick :: post.reverse) + picks pre) % objs.length = 0 := by
    rw [picks_append] at hend; simp only [picks] at hend; rw [hpq, Nat.add_comm]; exact hend
  obtain ⟨r, t1, t2, t3⟩ := turn_of_write (sizesOf objs) (initOf objs) i (by simpa [sizesOf] using hi) v hv pre (.pick :: post.reverse)
    (by intro w hm; simp only [List.mem_cons, reduceCtorEq, List.mem_reverse, false_or] at hm; exact hquiet w hm)
    (by simpa [sizesOf] using h0) (by rw [hpq]; simpa [sizesOf] using hturn) (by rw [hpq]; simpa [sizesOf] using hfirst)
  have hl : (sizesOf objs).length = objs.length := by simp [sizesOf]
  rw [hl] at t1
  have hne : out ≠ none := h2.mpr ⟨by rw [picks_append]; simpa [picks, picks_reverse] using h0, i, hi, r, t1, t2⟩
  cases out with
  | none => exact absurd rfl hne
  | some f => exact ⟨s, outs, f, h1, (h3 f rfl).2.2 i hi r v t1 t3⟩

/-- hypotheses met: a write to the second object while the first one has just been picked up -/
example : (2 : Nat) = objs2.length ∧ [(9 : Byte)].length = (sizesOf objs2).getD 1 0 ∧
    picks ([.pick] ++ .write 1 [9] :: ([.write 0 [1, 1]] ++ [.pick])) % objs2.length = 0 ∧
    (∀ w, TOp.write 1 w ∉ [TOp.write 0 [1, 1]]) ∧ picks ([TOp.write 0 [1, 1]] ++ [.pick]) < 2 * objs2.length - 1 ∧
    objs2.length - 1 ≤ picks ([TOp.write 0 [1, 1]] ++ [.pick]) := by
  refine ⟨rfl, rfl, rfl, ?_, by decide, by decide⟩
  intro w; simp

/-- **C39, receiving.**  For every sequence of full-length frames and reads: a read of an object reports the value of the last frame if a frame
came in since the object was last read, otherwise it leaves the caller's value; without any frame or initial value it throws. -/
theorem C39_rpdo_read (objs : List Obj) (fits : Fits objs) (f0 : Frame) (ty : Byte) (ops : List ROp)
    (hf : ∀ f, ROp.frame f ∈ ops → (sizesOf objs).sum ≤ f.dlc.toNat) (i : Nat) (hi : i < objs.length) (data : List Byte)
    (hd : data.length = (sizesOf objs).getD i 0) :
    ∃ r outs out, (Rpdo.fresh f0 ty objs).run (ops ++ [.read i data]) = .ok (r, outs ++ [some out]) ∧
      (news (sizesOf objs) i ops.reverse → ∃ v, received (sizesOf objs) i ops.reverse = some v ∧ out = .ok v) ∧
      (¬ news (sizesOf objs) i ops.reverse → (received (sizesOf objs) i ops.reverse ≠ none ∨ initOf objs i ≠ none) → out = .ok data) ∧
      (received (sizesOf objs) i ops.reverse = none → initOf objs i = none → out = .throws .timeout) := by
  have hl : (sizesOf objs).length = objs.length := by simp [sizesOf]
  obtain ⟨r, outs, h1, h2, h3⟩ := rrun objs fits f0 ty ops hf
  obtain ⟨r', out, h4, h5, h6, -⟩ := rinv_read h3 i data
  obtain ⟨g1, g2, g3⟩ := h6 (by rw [hl]; exact hi) hd
  refine ⟨r', outs, out, rrun_append _ _ _ _ _ h1 _ _ h4, ?_, g3, g1⟩
  intro hn
  have hrec : ∀ l : List ROp, news (sizesOf objs) i l → received (sizesOf objs) i l ≠ none := by
    intro l
    induction l with
    | nil => intro h; cases h
    | cons o l ih =>
      intro h
      cases o with
      | frame f => simp [received]
      | read j w => simp only [received]; exact ih h.2
  cases hr : received (sizesOf objs) i ops.reverse with
  | none => exact absurd hr (hrec _ hn)
  | some v => exact ⟨v, rfl, g2 hn v hr⟩

example : (match (Rpdo.fresh frame3 1 objs2).run [.read 0 [0, 0], .read 1 [5], .frame { frame3 with data := #v[1, 2, 3, 4, 5, 6, 7, 8] }, .read 0 [0, 0], .read 0 [9, 9], .read 1 [5]] with
     | .ok (_, outs) => outs
     | _ => []) = [some (.throws .timeout), some (.ok [5]), none, some (.ok [1, 2]), some (.ok [9, 9]), some (.ok [3])] := by
  decide +kernel

/-! ## C38 layout -/

/-- **C38, sending.**  Writing a value to every mapped object and running a cycle sends one frame with the PDO's identifier, whose length is the
total size and whose payload is the values back to back in mapping order. -/
theorem C38_layout_sent (objs : List Obj) (fits : Fits objs) (f0 : Frame) (hdlc : f0.dlc.toNat = (sizesOf objs).sum)
    (vals : List (List Byte)) (hv : vals.map List.length = sizesOf objs) :
    ∃ s outs f, (TSched.fresh f0 objs).run (vals.zipIdx.map (fun p => .write p.2 p.1) ++ List.replicate objs.length .pick) = .ok (s, outs ++ [some f]) ∧
      (∀ o, o ∈ outs → o = none) ∧ f.toHeader = f0.toHeader ∧ f.dlc.toNat = (sizesOf objs).sum ∧
      f.data.toList.take f.dlc.toNat = vals.flatten := by
  have hl : (sizesOf objs).length = objs.length := by simp [sizesOf]
  have hvl : vals.length = objs.length := by rw [← hl, ← hv]; simp
  have hn0 : 0 < objs.length := List.length_pos_iff.mpr fits.1
  have hsplit : vals.zipIdx.map (fun p => TOp.write p.2 p.1) ++ List.replicate objs.length .pick =
      (List.replicate (objs.length - 1) TOp.pick ++ (vals.zipIdx.map (fun p => TOp.write p.2 p.1)).reverse).reverse ++ [.pick] := by
    rw [List.reverse_append, List.reverse_reverse, List.reverse_replicate, List.append_assoc]
    congr 1
    rw [← List.replicate_succ']
    congr 1
    omega
  have hhist : TOp.pick :: (List.replicate (objs.length - 1) TOp.pick ++ (vals.zipIdx.map (fun p => TOp.write p.2 p.1)).reverse) =
      List.replicate objs.length .pick ++ (vals.zipIdx.map (fun p => TOp.write p.2 p.1)).reverse := by
    rw [← List.cons_append, ← List.replicate_succ]
    congr 2
    omega
  obtain ⟨s, outs, h1, h2, h3⟩ := outs_none objs fits f0 hdlc
    (List.replicate (objs.length - 1) TOp.pick ++ (vals.zipIdx.map (fun p => TOp.write p.2 p.1)).reverse)
    (by rw [picks_append, picks_replicate, picks_reverse, picks_writes]; omega)
  obtain ⟨s', out, h4, h5, h6, h7⟩ := tinv_pick _ _ fits.2.1 (by simpa [sizesOf] using fits.1) _ s _ h3
  have hturn : ∀ i v, vals[i]? = some v → _ := turn_after_writes (sizesOf objs) (initOf objs) vals hv
  rw [hhist] at h6 h7
  have hne : out ≠ none := by
    apply h7
    · rw [picks_append, picks_replicate, picks_reverse, picks_writes, hl]; simp
    · obtain ⟨r, t1, t2, -⟩ := hturn 0 vals[0] (by simp [hvl, hn0])
      rw [hl] at t1
      exact ⟨0, by omega, r, by rw [hl]; exact t1, t2⟩
  cases out with
  | none => exact absurd rfl hne
  | some f =>
    obtain ⟨-, -, g1, g2, g3⟩ := h6 f rfl
    refine ⟨s', outs, f, ?_, h2, g1, g2, ?_⟩
    · rw [hsplit]; exact run_append _ _ _ _ _ h1 _ _ h4
    · rw [g2, ← hv]
      apply flatten_of_slices
      intro i v hi
      have hil : i < objs.length := by
        rw [← hvl]
        rcases Nat.lt_or_ge i vals.length with h | h
        · exact h
        · rw [List.getElem?_eq_none h] at hi; cases hi
      obtain ⟨r, t1, -, t3⟩ := hturn i v hi
      rw [hl] at t1
      have := g3 i (by rw [hl]; exact hil) r v (by rw [hl]; exact t1) t3
      simp only [slice] at this
      have hsz : v.length = (sizesOf objs).getD i 0 := by
        rw [← this]; rw [take_drop_length]
        have := offset_le (sizesOf objs) i (by rw [hl]; exact hil)
        have := fits.2.1
        omega
      rw [hv, hsz]; exact this

example : [[(1 : Byte), 2], [3]].map List.length = sizesOf objs2 ∧
    (match (TSched.fresh frame3 objs2).run ([[(1 : Byte), 2], [3]].zipIdx.map (fun p => .write p.2 p.1) ++ List.replicate objs2.length .pick) with
     | .ok (_, outs) => outs.map (Option.map fun f => f.data.toList.take 3)
     | _ => []) = [none, none, none, some [1, 2, 3]] := by
  decide +kernel

/-- **C38, receiving.**  After a frame of full length, reading each mapped object yields exactly its slice of the payload. -/
theorem C38_layout_received (objs : List Obj) (fits : Fits objs) (f0 : Frame) (ty : Byte) (f : Frame)
    (hf : (sizesOf objs).sum ≤ f.dlc.toNat) (i : Nat) (hi : i < objs.length) (data : List Byte)
    (hd : data.length = (sizesOf objs).getD i 0) :
    ∃ r, (Rpdo.fresh f0 ty objs).run [.frame f, .read i data] = .ok (r, [none, some (.ok (slice (sizesOf objs) i f))]) := by
  obtain ⟨r, h4, h5⟩ := rinv_frame (rinv_init objs fits.2.2 f0 ty) fits.2.1 f hf
  obtain ⟨r', out, g4, g5, g6, -⟩ := rinv_read h5 i data
  obtain ⟨-, g1, -⟩ := g6 (by simpa [sizesOf] using hi) hd
  have := g1 trivial (slice (sizesOf objs) i f) rfl
  subst this
  refine ⟨r', ?_⟩
  simp only [Rpdo.run, h4, g4]

example : (sizesOf objs2).sum ≤ frame3.dlc.toNat ∧ [(0 : Byte)].length = (sizesOf objs2).getD 1 0 ∧
    slice (sizesOf objs2) 1 { frame3 with data := #v[1, 2, 3, 4, 5, 6, 7, 8] } = [3] := by decide +kernel

/-- **C38, transfer.**  The frame sent for a set of values, received by an RPDO with the same mapping, gives back all values. -/
theorem C38_transfer (objs objs' : List Obj) (fits : Fits objs) (fits' : Fits objs') (hsame : sizesOf objs' = sizesOf objs)
    (f0 f0' : Frame) (hdlc : f0.dlc.toNat = (sizesOf objs).sum) (ty : Byte)
    (vals : List (List Byte)) (hv : vals.map List.length = sizesOf objs) :
    ∃ s outs f, (TSched.fresh f0 objs).run (vals.zipIdx.map (fun p => .write p.2 p.1) ++ List.replicate objs.length .pick) = .ok (s, outs ++ [some f]) ∧
      ∀ i v, vals[i]? = some v → ∀ data : List Byte, data.length = v.length →
        ∃ r, (Rpdo.fresh f0' ty objs').run [.frame f, .read i data] = .ok (r, [none, some (.ok v)]) := by
  obtain ⟨s, outs, f, h1, -, -, h3, h4⟩ := C38_layout_sent objs fits f0 hdlc vals hv
  refine ⟨s, outs, f, h1, ?_⟩
  intro i v hi data hd
  have hl : (sizesOf objs').length = objs'.length := by simp [sizesOf]
  have hil : i < vals.length := by
    rcases Nat.lt_or_ge i vals.length with h | h
    · exact h
    · rw [List.getElem?_eq_none h] at hi; cases hi
  have hvi : vals[i] = v := by rw [List.getElem?_eq_getElem hil] at hi; simpa using hi
  have hlv : (sizesOf objs).length = vals.length := by rw [← hv]; simp
  have hsz : v.length = (sizesOf objs).getD i 0 := by
    rw [← hv]; simp [List.getD, hil, hvi]
  have hi' : i < objs'.length := by rw [← hl, hsame, hlv]; exact hil
  obtain ⟨r, hr⟩ := C38_layout_received objs' fits' f0' ty f (by rw [hsame, h3]; exact Nat.le_refl _) i hi' data (by rw [hsame, hd, hsz])
  refine ⟨r, ?_⟩
  rw [hr, hsame]
  have hslice : slice (sizesOf objs) i f = v := by
    have hle := offset_le (sizesOf objs) i (by rw [hlv]; exact hil)
    have e1 : slice (sizesOf objs) i f = ((f.data.toList.take f.dlc.toNat).drop (offset (sizesOf objs) i)).take ((sizesOf objs).getD i 0) := by
      simp only [slice]
      rw [List.drop_take, List.take_take, Nat.min_eq_left]
      rw [h3]; omega
    rw [e1, h4, ← hsz, ← hv, flatten_slice vals i v hi]
  rw [hslice]

example : Fits objs2 ∧ sizesOf [⟨2, none⟩, ⟨1, none⟩] = sizesOf objs2 ∧ frame3.dlc.toNat = (sizesOf objs2).sum ∧
    [[(1 : Byte), 2], [3]].map List.length = sizesOf objs2 := by
  refine ⟨⟨by simp [objs2], by decide, ?_⟩, rfl, by decide, rfl⟩
  intro o ho v hv
  simp only [objs2, List.mem_cons, List.not_mem_nil, or_false] at ho
  rcases ho with rfl | rfl
  · cases hv
  · cases hv; rfl

/-- **Short frames.**  The length of a received frame is not checked against the mapping: an object that does not fit is skipped without advancing
the position, and the next one that fits is filled with the skipped object's bytes. -/
theorem C38_short_frame_misplaced : ∃ (objs : List Obj) (f : Frame), Fits objs ∧ f.dlc.toNat < (sizesOf objs).sum ∧
    ∃ r, (Rpdo.fresh f 1 objs).run [.frame f, .read 1 [0, 0]] = .ok (r, [none, some (.ok (f.data.toList.take 2))]) := by
  refine ⟨[⟨4, none⟩, ⟨2, none⟩], { frame3 with data := #v[1, 2, 3, 4, 5, 6, 7, 8] }, ⟨by simp, by decide, ?_⟩, by decide, ?_⟩
  · intro o ho v hv
    simp only [List.mem_cons, List.not_mem_nil, or_false] at ho
    rcases ho with rfl | rfl <;> cases hv
  · exact ⟨_, rfl⟩

/-- **More than 8 bytes.**  A mapping of more than 8 bytes is excluded by an `assert` only; with asserts compiled out, sending writes past the end of
the frame's data. -/
theorem C38_too_long_mapping_overflows : ∃ (objs : List Obj) (f : Frame), f.dlc.toNat = (sizesOf objs).sum ∧ 8 < (sizesOf objs).sum ∧
    (TSched.fresh f objs).run ([.write 0 (List.replicate 8 0), .write 1 [1]] ++ List.replicate 2 .pick) = .ub := by
  refine ⟨[⟨8, none⟩, ⟨1, none⟩], { frame3 with dlc := 9 }, by decide, by decide, by rfl⟩

/-! ## C40 supervision -/

/-- **C40.**  For a synchronous RPDO of type 1 ≤ T ≤ 240, whatever frames arrive in between (of any length up to 8): a cycle reports a warning
exactly if it is at least the (T+3)-th since the last frame; there is none before the first frame.  A synchronous RPDO never requests data. -/
theorem C40_timeout (objs : List Obj) (fits : Fits objs) (f0 : Frame) (ty : Byte) (hty : 1 ≤ ty.toNat ∧ ty.toNat ≤ 240)
    (es : List SEv) (he : ∀ f, SEv.frame f ∈ es → f.dlc.toNat ≤ 8) :
    ∃ r outs warn, (Rpdo.fresh f0 ty objs).events (es ++ [.cycle]) = .ok (r, outs ++ [(warn, none)]) ∧
      (warn = true ↔ ∃ k, silence (.cycle :: es.reverse) = some k ∧ ty.toNat + 3 ≤ k) := by
  have hlens : ∀ b, b ∈ (Rpdo.fresh f0 ty objs).bufs → b.buffer.length = b.size := rinv_lens (rinv_init objs fits.2.2 f0 ty)
  have hFC : (ty == 0xFC#8) = false ∧ (ty == 0xFD#8) = false := by
    constructor <;> (rw [beq_eq_false_iff_ne]; rintro rfl; simp at hty)
  obtain ⟨r, outs, h1, h2, h3, h4, h5, h6⟩ := srun (Rpdo.fresh f0 ty objs) ty.toNat hlens rfl
    (by simp [Rpdo.cyclic, Rpdo.fresh, hty])
    (by intro r' e1 _; simp only [Rpdo.rearm, e1]; rw [if_pos (by simpa [Rpdo.fresh] using hty)]; rfl) es he
  have e4 : r.transmissionType = ty := h4
  refine ⟨r.sync.1, outs, r.sync.2.1, ?_, ?_⟩
  · have hs : r.sync.2 = (r.sync.2.1, none) := by
      simp [Rpdo.sync, e4, hFC.1, hFC.2]
    rw [← hs]
    exact events_append _ _ _ _ _ h1 _ _ rfl
  · have hw : r.sync.2.1 = (r.timeout == 0) := by
      simp [Rpdo.sync, Rpdo.cyclic, e4, hty]
    rw [hw, beq_iff_eq]
    simp only [SInv] at h3
    simp only [silence]
    cases hsl : silence es.reverse with
    | none => rw [hsl] at h3; simp only at h3; rw [h3]; simp
    | some k =>
      rw [hsl] at h3; simp only at h3
      rw [h3]
      simp only [Option.map_some, Option.some.injEq]
      constructor
      · intro h; exact ⟨k + 1, rfl, by omega⟩
      · rintro ⟨k', rfl, hk⟩; omega

example : (match (Rpdo.fresh frame3 1 objs2).events ([.cycle, .cycle, .cycle, .cycle, .frame frame3] ++ List.replicate 4 .cycle) with
     | .ok (_, outs) => outs.map Prod.fst
     | _ => []) = [false, false, false, false, false, false, false, false, true] := by
  decide +kernel

/-- **C40, RTR-only RPDOs.**  Type 0xFC with remote requests allowed: supervised like type 1, and every cycle sends the remote request. -/
theorem C40_rtr_timeout (objs : List Obj) (fits : Fits objs) (f0 : Frame) (hrtr : f0.isRtr = true)
    (es : List SEv) (he : ∀ f, SEv.frame f ∈ es → f.dlc.toNat ≤ 8) :
    ∃ r outs warn, (Rpdo.fresh f0 0xFC objs).events (es ++ [.cycle]) = .ok (r, outs ++ [(warn, some f0)]) ∧
      (warn = true ↔ ∃ k, silence (.cycle :: es.reverse) = some k ∧ 4 ≤ k) := by
  have hlens : ∀ b, b ∈ (Rpdo.fresh f0 0xFC objs).bufs → b.buffer.length = b.size := rinv_lens (rinv_init objs fits.2.2 f0 0xFC)
  obtain ⟨r, outs, h1, h2, h3, h4, h5, h6⟩ := srun (Rpdo.fresh f0 0xFC objs) 1 hlens rfl
    (by simp [Rpdo.cyclic, Rpdo.fresh])
    (by intro r' e1 e2; simp only [Rpdo.rearm, e1, e2]; rw [if_neg (by simp [Rpdo.fresh]), if_pos (by simp [Rpdo.fresh, hrtr])]; rfl) es he
  have e4 : r.transmissionType = 0xFC#8 := h4
  have e5 : r.frame = f0 := h5
  refine ⟨r.sync.1, outs, r.sync.2.1, ?_, ?_⟩
  · have hs : r.sync.2 = (r.sync.2.1, some f0) := by
      simp [Rpdo.sync, e4, e5, hrtr]
    rw [← hs]
    exact events_append _ _ _ _ _ h1 _ _ rfl
  · have hw : r.sync.2.1 = (r.timeout == 0) := by
      simp [Rpdo.sync, Rpdo.cyclic, e4]
    rw [hw, beq_iff_eq]
    simp only [SInv] at h3
    simp only [silence]
    cases hsl : silence es.reverse with
    | none => rw [hsl] at h3; simp only at h3; rw [h3]; simp
    | some k =>
      rw [hsl] at h3; simp only at h3
      rw [h3]
      simp only [Option.map_some, Option.some.injEq]
      constructor
      · intro h; exact ⟨k + 1, rfl, by omega⟩
      · rintro ⟨k', rfl, hk⟩; omega

example : ({ frame3 with isRtr := true } : Frame).isRtr = true ∧
    (match (Rpdo.fresh { frame3 with isRtr := true } 0xFC objs2).events ([.cycle, .frame frame3] ++ List.replicate 4 .cycle) with
     | .ok (_, outs) => outs.map fun o => (o.1, o.2.isSome)
     | _ => []) = [(false, true), (false, false), (false, true), (false, true), (false, true), (true, true)] := by
  decide +kernel

/-- **C40, other types.**  Event-driven and acyclic RPDOs (0, 241 - 251, 0xFD - 0xFF) are never reported, and only types 0xFC and 0xFD with
remote requests allowed send something. -/
theorem C40_unsupervised (objs : List Obj) (fits : Fits objs) (f0 : Frame) (ty : Byte) (hty : ¬ (1 ≤ ty.toNat ∧ ty.toNat ≤ 240)) (hfc : ty ≠ 0xFC)
    (es : List SEv) (he : ∀ f, SEv.frame f ∈ es → f.dlc.toNat ≤ 8) :
    ∃ r outs, (Rpdo.fresh f0 ty objs).events (es ++ [.cycle]) = .ok (r, outs ++ [(false, if ty = 0xFD ∧ f0.isRtr = true then some f0 else none)]) := by
  have hlens : ∀ b, b ∈ (Rpdo.fresh f0 ty objs).bufs → b.buffer.length = b.size := rinv_lens (rinv_init objs fits.2.2 f0 ty)
  obtain ⟨r, outs, h1, h2, h3, h4⟩ := events_ok (Rpdo.fresh f0 ty objs) hlens es he
  have e4 : r.transmissionType = ty := h2
  have e5 : r.frame = f0 := h3
  refine ⟨r.sync.1, outs, ?_⟩
  have hs : r.sync.2 = (false, if ty = 0xFD ∧ f0.isRtr = true then some f0 else none) := by
    have hc : r.cyclic = false := by
      simp only [Rpdo.cyclic, e4, Bool.or_eq_false_iff, Bool.and_eq_false_iff, decide_eq_false_iff_not, beq_eq_false_iff_ne]
      exact ⟨by omega, hfc⟩
    have hfc' : (ty == 0xFC#8) = false := by rw [beq_eq_false_iff_ne]; exact hfc
    simp only [Rpdo.sync, hc, e4, e5, hfc', Bool.false_and, Bool.false_or, Bool.and_eq_true, beq_iff_eq]
    rfl
  rw [← hs]
  exact events_append _ _ _ _ _ h1 _ _ rfl

example : ¬ (1 ≤ (0xFF : Byte).toNat ∧ (0xFF : Byte).toNat ≤ 240) ∧ (0xFF : Byte) ≠ 0xFC := by decide

/-! ## C41 words -/

/-- **C41, COB-ID word.**  The word is determined by the parts it is split into: identifier (bits 0-28), frame type (29), RTR not allowed (30),
invalid (31). -/
theorem C41_cob_id (w : BitVec 32) :
    w.toNat = (PdoId.header ⟨w⟩ true).id.toNat + 2 ^ 29 * (PdoId.header ⟨w⟩ true).isExtended.toNat +
      2 ^ 30 * (!(PdoId.header ⟨w⟩ true).isRtr).toNat + 2 ^ 31 * (PdoId.isInvalid ⟨w⟩).toNat ∧
    (PdoId.header ⟨w⟩ true).isError = false ∧ PdoId.header ⟨w⟩ false = { PdoId.header ⟨w⟩ true with isRtr := false } := by
  refine ⟨?_, rfl, by simp [PdoId.header]⟩
  simp only [PdoId.header, PdoId.isInvalid]
  have hid : ((w &&& 0x1FFFFFFF#32).setWidth 29).toNat = w.toNat % 2 ^ 29 := by
    have : (0x1FFFFFFF : Nat) = 2 ^ 29 - 1 := by decide
    simp only [BitVec.toNat_setWidth, BitVec.toNat_and, BitVec.toNat_ofNat]
    rw [show (0x1FFFFFFF : Nat) % 2 ^ 32 = 2 ^ 29 - 1 by decide, Nat.and_two_pow_sub_one_eq_mod]
    omega
  rw [hid, bit_word w 29 (by omega), bit_word w 30 (by omega), bit_word w 31 (by omega)]
  simp only [Bool.true_and, Bool.not_not]
  have h := w.isLt
  have b1 : (w.getLsbD 29).toNat = w.toNat / 2 ^ 29 % 2 := by rw [BitVec.getLsbD, Nat.toNat_testBit]
  have b2 : (w.getLsbD 30).toNat = w.toNat / 2 ^ 30 % 2 := by rw [BitVec.getLsbD, Nat.toNat_testBit]
  have b3 : (w.getLsbD 31).toNat = w.toNat / 2 ^ 31 % 2 := by rw [BitVec.getLsbD, Nat.toNat_testBit]
  rw [b1, b2, b3]
  omega

example : PdoId.header ⟨0x40000185⟩ true = { id := 0x185, isExtended := false, isRtr := false, isError := false } ∧
    PdoId.isInvalid ⟨0x80000185⟩ = true ∧ PdoId.header ⟨0x20000185⟩ true = { id := 0x185, isExtended := true, isRtr := true, isError := false } := by
  decide +kernel

/-- **C41, mapping word.**  The word is determined by index (bits 16-31), sub-index (8-15) and length in bits (0-7). -/
theorem C41_mapping_word (w : BitVec 32) :
    w.toNat = (PdoMap.ofWord w).length.toNat + 2 ^ 8 * (PdoMap.ofWord w).subIndex.toNat + 2 ^ 16 * (PdoMap.ofWord w).index.toNat := by
  have h := w.isLt
  simp only [PdoMap.ofWord, BitVec.toNat_setWidth, BitVec.toNat_and, BitVec.toNat_ushiftRight, BitVec.toNat_ofNat]
  rw [show (0xFF : Nat) % 2 ^ 32 = 2 ^ 8 - 1 by decide, Nat.and_two_pow_sub_one_eq_mod, Nat.and_two_pow_sub_one_eq_mod,
    Nat.shiftRight_eq_div_pow, Nat.shiftRight_eq_div_pow]
  omega

example : PdoMap.ofWord 0x60640120 = { length := 0x20, subIndex := 1, index := 0x6064 } := by decide +kernel

end Verif.Props
