import Verif.Props.Filter
import Verif.Lemmas.Master

/-! # Emergencies and SYNC: C46 – C48 -/

namespace Verif.Props
open Verif Verif.Lay Verif.Spec.Master

/-- an emergency frame of eight bytes with this error register (only for the examples) -/
private def emcy (r : Byte) : Frame :=
  { id := 0x81, isError := false, isRtr := false, isExtended := false, data := #v[0, 0x10, r, 0, 0, 0, 0, 0], dlc := 8 }

/-- an NMT command (only for the examples) -/
private def nmt (cmd node : Byte) : Frame :=
  { id := 0, isError := false, isRtr := false, isExtended := false, data := #v[cmd, node, 0, 0, 0, 0, 0, 0], dlc := 2 }

private def syncHeader : Header := { id := 0x80, isError := false, isRtr := false, isExtended := false }

/-! ## C46: emergencies -/

/-- C46.  After any history of eight-byte emergency frames, initialisations and recoveries, a read cycle reports an error exactly if the layer
is ready and the last frame or successful initialisation left an error: a frame does so exactly if its error register has a bit other than bit 5.
Partial: the property also asks that malformed frames change nothing, which is not so, see `C46_malformed_counts`. -/
theorem C46_emergency_partial (hasList : Bool) (es : List Emcy.Ev) (hw : ∀ f, Emcy.Ev.frame f ∈ es → wellFormed f) (st : LayerState) :
    ((Emcy.Handler.fresh hasList).run es).handleRead st = true ↔ st = .ready ∧ InError hasList es := by
  unfold Emcy.Handler.handleRead
  rw [Bool.and_eq_true, decide_eq_true_eq, Emcy.run_inError hasList es hw]

/-- an initialisation, then an emergency, then one with only the profile bit -/
example : (∀ f, Emcy.Ev.frame f ∈ [.init (some 0) true, .frame (emcy 0x81)] → wellFormed f) ∧
    InError true [.init (some 0) true, .frame (emcy 0x81)] ∧
    ((Emcy.Handler.fresh true).run [.init (some 0) true, .frame (emcy 0x81), .frame (emcy 0x20)]).handleRead .ready = false := by
  refine ⟨?_, .frame [.init (some 0) true] _ rfl ⟨0, by decide, by decide, by decide +kernel⟩, by decide +kernel⟩
  intro f hf
  simp at hf
  rw [hf]
  rfl

/-- What is missing: the length of a frame is not looked at.  Every frame with the identifier of the emergencies, however short, decides by what
its third payload byte happens to be. -/
theorem C46_malformed_counts (h : Emcy.Handler) (f : Frame) :
    (h.run [.frame f]).handleRead .ready = true ↔ Alarming f.data[2] := by
  simp only [Emcy.Handler.run, Emcy.Handler.step, Emcy.Handler.handleEMCY, Emcy.Handler.handleRead, Bool.and_eq_true, decide_eq_true_eq, true_and]
  exact Emcy.alarming_iff _

/-- an empty frame raises an error -/
example : ∃ f : Frame, f.dlc = 0 ∧ Alarming f.data[2] :=
  ⟨{ emcy 1 with dlc := 0 }, rfl, 0, by decide, by decide, by decide +kernel⟩

/-- C46, which frames are emergencies: the listener is called for exactly the data frames with the identifier of object 0x1014, of the length its
bit 29 says (whether or not bit 31 says that the object is not used). -/
theorem C46_listens (cob : BitVec 32) (h : Header) :
    h.key = (Emcy.header cob).key ↔
      h.isError = false ∧ h.isRtr = false ∧ h.id.toNat = cob.toNat % 2 ^ 29 ∧ (h.isExtended = true ↔ cob.toNat / 2 ^ 29 % 2 = 1) := by
  have hid : (Emcy.header cob).id.toNat = cob.toNat % 2 ^ 29 := by simp [Emcy.header]
  have hbit : cob.getLsbD 29 = true ↔ cob.toNat / 2 ^ 29 % 2 = 1 := by
    rw [BitVec.getLsbD, Nat.testBit_eq_decide_div_mod_eq, decide_eq_true_eq]
  cases he : h.isError with
  | true =>
    have hk := (C04_key_error h (Emcy.header cob) he)
    constructor
    · intro e
      exact absurd (hk.1 e) (by simp [Emcy.header])
    · rintro ⟨hf, -⟩
      cases hf
  | false =>
    rw [C04_key_data h (Emcy.header cob) he rfl]
    constructor
    · rintro rfl
      exact ⟨rfl, rfl, hid, hbit⟩
    · rintro ⟨-, h2, h3, h4⟩
      rw [← hid] at h3
      have h5 : h.isExtended = (Emcy.header cob).isExtended := by
        rw [Bool.eq_iff_iff, h4]
        exact hbit.symm
      obtain ⟨i, er, rt, ex⟩ := h
      dsimp only at he h2 h3 h5
      rw [he, h2, h5, BitVec.eq_of_toNat_eq h3]
      rfl

/-- the emergencies of node 5, and an identifier of 29 bits -/
example : (Header.msg 0x85#32).key = (Emcy.header 0x85#32).key ∧ (Header.ext 0x85#32).key = (Emcy.header 0x20000085#32).key ∧
    (Header.msg 0x85#32).key = (Emcy.header 0x80000085#32).key := by decide

/-- C46, initialisation: it succeeds exactly if the register can be read, its generic bit is clear and the error list, if any, can be cleared. -/
theorem C46_init (h : Emcy.Handler) (reg : Option Byte) (clears : Bool) :
    (h.handleInit reg clears).2 = true ↔ ∃ r, reg = some r ∧ r.getLsbD 0 = false ∧ (h.hasList = true → clears = true) := by
  unfold Emcy.Handler.handleInit Emcy.Handler.resetErrors
  cases reg with
  | none => simp
  | some r =>
    simp only [Emcy.bit0_all]
    cases hb : r.getLsbD 0 <;> cases h.hasList <;> cases clears <;> simp [-BitVec.getLsbD_eq_getElem, hb]

example : ((Emcy.Handler.fresh true).handleInit (some 0x20) true).2 = true := by decide +kernel

/-- C46, diagnostics: an error if the register cannot be read or its generic bit is set, a warning if any other bit but the profile specific
one is set, nothing otherwise. -/
theorem C46_diag (r : Byte) :
    Emcy.diag none = .error ∧ (Emcy.diag (some r) = .error ↔ r.getLsbD 0 = true) ∧
    (Emcy.diag (some r) = .warn ↔ r.getLsbD 0 = false ∧ Alarming r) ∧ (Emcy.diag (some r) = .ok ↔ ¬ Alarming r) := by
  have key : ∀ x : Fin 256, let r : Byte := ⟨x⟩
      Emcy.diag (some r) = if r.getLsbD 0 then .error else if r &&& ~~~ (32 : Byte) ≠ 0 then .warn else .ok := by decide +kernel
  have hk : Emcy.diag (some r) = if r.getLsbD 0 then .error else if r &&& ~~~ (32 : Byte) ≠ 0 then .warn else .ok := key r.toFin
  have ha := Emcy.alarming_iff r
  have h0 : r.getLsbD 0 = true → Alarming r := fun h => ⟨0, by decide, by decide, h⟩
  rw [hk]
  refine ⟨rfl, ?_, ?_, ?_⟩ <;> cases hb : r.getLsbD 0 <;> by_cases hx : Alarming r <;> simp_all

example : Emcy.diag (some 0x21) = .error ∧ Emcy.diag (some 0x22) = .warn ∧ Emcy.diag (some 0x20) = .ok := by decide

/-- C46, the list of errors: as long as the device answers, the entries 1 to `num` in order, each with its code (low half) and additional
information (high half), and a mark for each that the dictionary lacks; a time-out ends the list with a mark. -/
theorem C46_error_list (get : Nat → Emcy.ListRead) (num : Nat) :
    (∀ k, k ≤ num → (∀ i, 1 ≤ i → i ≤ k → get i ≠ .timeout) → (Emcy.errorList get num 0).length ≥ k ∧
      ∀ i, 1 ≤ i → i ≤ k → (Emcy.errorList get num 0)[i - 1]? = some (match get i with
        | .value v => .error (BitVec.ofNat 16 v.toNat) (BitVec.ofNat 16 (v.toNat / 65536))
        | _ => .notInDict)) ∧
    (∀ k, 1 ≤ k → k ≤ num → (∀ i, 1 ≤ i → i < k → get i ≠ .timeout) → get k = .timeout →
      (Emcy.errorList get num 0).length = k ∧ (Emcy.errorList get num 0)[k - 1]? = some .underflow) ∧
    ((∀ i, 1 ≤ i → i ≤ num → get i ≠ .timeout) → (Emcy.errorList get num 0).length = num) := by
  have hlo : ∀ v : BitVec 32, v.extractLsb' 0 16 = BitVec.ofNat 16 v.toNat := by
    intro v; apply BitVec.eq_of_toNat_eq; simp [BitVec.extractLsb']
  have hhi : ∀ v : BitVec 32, v.extractLsb' 16 16 = BitVec.ofNat 16 (v.toNat / 65536) := by
    intro v; apply BitVec.eq_of_toNat_eq; simp [BitVec.extractLsb', Nat.shiftRight_eq_div_pow]
  have g1 : ∀ (num o k : Nat), k ≤ num → (∀ i, 1 ≤ i → i ≤ k → get (o + i) ≠ .timeout) → (Emcy.errorList get num o).length ≥ k ∧
      ∀ i, 1 ≤ i → i ≤ k → (Emcy.errorList get num o)[i - 1]? = some (match get (o + i) with
        | .value v => .error (BitVec.ofNat 16 v.toNat) (BitVec.ofNat 16 (v.toNat / 65536))
        | _ => .notInDict) := by
    intro num
    induction num with
    | zero => intro o k hk h; exact ⟨by simp [Emcy.errorList]; omega, fun i h1 h2 => by omega⟩
    | succ n ih =>
      intro o k hk h
      cases k with
      | zero => exact ⟨Nat.zero_le _, fun i h1 h2 => by omega⟩
      | succ k =>
        have h1 := h 1 (by omega) (by omega)
        obtain ⟨l, q⟩ := ih (o + 1) k (by omega) (fun i hi hk => by
          have := h (i + 1) (by omega) (by omega)
          rwa [show o + (i + 1) = o + 1 + i by omega] at this)
        have rest : ∀ (x : Emcy.ListItem) i, 1 ≤ i → i ≤ k + 1 → i ≠ 1 →
            (x :: Emcy.errorList get n (o + 1))[i - 1]? = (Emcy.errorList get n (o + 1))[(i - 1) - 1]? := by
          intro x i h1 h2 h3
          obtain ⟨j, rfl⟩ : ∃ j, i = j + 2 := ⟨i - 2, by omega⟩
          simp
        rw [Emcy.errorList]
        cases hg : get (o + 1) with
        | timeout => exact absurd hg h1
        | value v =>
          refine ⟨by simpa using l, fun i hi hk => ?_⟩
          by_cases h0 : i = 1
          · subst h0; simp [hg, hlo, hhi]
          · rw [rest _ i hi hk h0, q (i - 1) (by omega) (by omega), show o + 1 + (i - 1) = o + i by omega]
        | notInDict =>
          refine ⟨by simpa using l, fun i hi hk => ?_⟩
          by_cases h0 : i = 1
          · subst h0; simp [hg]
          · rw [rest _ i hi hk h0, q (i - 1) (by omega) (by omega), show o + 1 + (i - 1) = o + i by omega]
  have g2 : ∀ (num o k : Nat), 1 ≤ k → k ≤ num → (∀ i, 1 ≤ i → i < k → get (o + i) ≠ .timeout) → get (o + k) = .timeout →
      (Emcy.errorList get num o).length = k ∧ (Emcy.errorList get num o)[k - 1]? = some .underflow := by
    intro num
    induction num with
    | zero => intro o k h1 h2; omega
    | succ n ih =>
      intro o k h1 h2 h3 h4
      rw [Emcy.errorList]
      by_cases hk : k = 1
      · subst hk
        rw [h4]; exact ⟨rfl, rfl⟩
      · obtain ⟨j, rfl⟩ : ∃ j, k = j + 2 := ⟨k - 2, by omega⟩
        have hne := h3 1 (by omega) (by omega)
        obtain ⟨l, q⟩ := ih (o + 1) (j + 1) (by omega) (by omega) (fun i hi hj => by
          have := h3 (i + 1) (by omega) (by omega)
          rwa [show o + (i + 1) = o + 1 + i by omega] at this) (by rw [← h4]; congr 1; omega)
        simp only [Nat.add_sub_cancel] at q
        cases hg : get (o + 1) with
        | timeout => exact absurd hg hne
        | value v => exact ⟨by simpa using l, by simpa using q⟩
        | notInDict => exact ⟨by simpa using l, by simpa using q⟩
  have g3 : ∀ (num o : Nat), (∀ i, 1 ≤ i → i ≤ num → get (o + i) ≠ .timeout) → (Emcy.errorList get num o).length = num := by
    intro num
    induction num with
    | zero => intro o _; rfl
    | succ n ih =>
      intro o h
      have := ih (o + 1) (fun i hi hj => by
        have := h (i + 1) (by omega) (by omega)
        rwa [show o + (i + 1) = o + 1 + i by omega] at this)
      rw [Emcy.errorList]
      cases hg : get (o + 1) with
      | timeout => exact absurd hg (h 1 (by omega) (by omega))
      | value v => simpa using this
      | notInDict => simpa using this
  refine ⟨fun k hk h => ?_, fun k h1 h2 h3 h4 => ?_, fun h => ?_⟩
  · have := g1 num 0 k hk (by simpa using h)
    simpa using this
  · exact g2 num 0 k h1 h2 (by simpa using h3) (by simpa using h4)
  · exact g3 num 0 (by simpa using h)

example : Emcy.errorList (fun i => if i = 1 then .value 0x12348130 else if i = 2 then .notInDict else .timeout) 5 0 =
    [.error 0x8130 0x1234, .notInDict, .underflow] := by decide

/-! ## C47: the SYNC producer -/

/-- C47, construction.  The producer is rejected exactly for an overflow of 1 or above 240. -/
theorem C47_rejected (p : Sync.Props) (junk : Vector Byte 8) :
    Sync.Simple.create p junk = none ↔ p.overflow.toNat = 1 ∨ 240 < p.overflow.toNat := by
  unfold Sync.Simple.create
  dsimp only
  have h1 : p.overflow = 1 ↔ p.overflow.toNat = 1 := ⟨fun h => by rw [h]; rfl, fun h => BitVec.eq_of_toNat_eq h⟩
  rw [← h1]
  by_cases h : p.overflow = 1 ∨ p.overflow.toNat > 240
  · rw [if_pos h]; exact ⟨fun _ => h, fun _ => rfl⟩
  · rw [if_neg h]
    constructor
    · intro h'; split at h' <;> cases h'
    · intro h'; exact absurd h' h

example : ∃ p : Sync.Props, (Sync.Simple.create p (Vector.replicate 8 0)).isSome = true ∧ p.overflow = 240 :=
  ⟨{ header := syncHeader, period := 10, overflow := 240 }, by decide +kernel, rfl⟩

/-- C47, sending.  Whatever nodes came and went before: a write cycle past the initialisation sends one SYNC frame if some node takes part, and
nothing otherwise.  Without overflow the frame is empty; with overflow `o` the counter of the `k`-th cycle is `k % o + 1`. -/
theorem C47_sync (p : Sync.Props) (junk : Vector Byte 8) (s : Sync.Simple) (hs : Sync.Simple.create p junk = some s) (es : List Sync.Ev) (st : LayerState)
    (hst : LayerState.init.toNat < st.toNat) :
    ((∃ n, Member es n) → ∃ f, (s.run (es ++ [.write st])).2 = (s.run es).2 ++ [f] ∧
      IsSync p.header f (if p.overflow.toNat = 0 then none else some ((cycles es + 1) % p.overflow.toNat + 1))) ∧
    ((¬ ∃ n, Member es n) → (s.run (es ++ [.write st])).2 = (s.run es).2) := by
  obtain ⟨hn, hcases⟩ := Sync.create_cases p junk s hs
  have hmem := Sync.run_nodes s hn es
  rw [Sync.run_snoc]
  simp only [Sync.Simple.step, Sync.Simple.handleWrite]
  rw [if_pos hst]
  dsimp only
  constructor
  · rintro ⟨n, hm⟩
    have hne : (s.run es).1.update.nodes.length ≠ 0 := by
      rw [(Sync.update_nodes _).1]
      intro h0
      have := (hmem n).mpr hm
      rw [List.length_eq_zero_iff.mp h0] at this
      cases this
    rw [if_pos hne]
    refine ⟨_, rfl, ?_⟩
    rcases hcases with ⟨h0, h1, h2⟩ | ⟨h0, h1, h2⟩
    · rw [if_pos h0]
      have : (s.run es).1.update.frame = s.frame := by
        have e := Sync.run_plain s h1 (es ++ [.write .ready])
        rw [Sync.run_snoc] at e
        exact e
      rw [this]
      exact ⟨h2, h1⟩
    · rw [if_neg (by omega)]
      have := Sync.update_counts h0 h1 (Sync.run_counts h0 h1 h2 es)
      exact ⟨this.head, this.len, this.val⟩
  · intro hno
    have : (s.run es).1.update.nodes.length = 0 := by
      rw [(Sync.update_nodes _).1]
      cases hc : (s.run es).1.nodes with
      | nil => rfl
      | cons a l => exact absurd ⟨a, (hmem a).mp (by rw [hc]; simp)⟩ hno
    rw [if_neg (by rw [this]; simp)]
    simp

/-- C47, nothing else is sent: only write cycles past the initialisation send. -/
theorem C47_nothing_else (s : Sync.Simple) (e : Sync.Ev) (h : (s.step e).2 ≠ []) : ∃ st, e = .write st ∧ LayerState.init.toNat < st.toNat := by
  cases e with
  | add n => exact absurd rfl h
  | remove n => exact absurd rfl h
  | write st =>
    refine ⟨st, rfl, ?_⟩
    simp only [Sync.Simple.step, Sync.Simple.handleWrite] at h
    split at h
    · assumption
    · exact absurd rfl h

/-- C47, the counter as the property words it: always in 1..overflow, one more than in the cycle before or 1 after the overflow. -/
theorem C47_counter_range (o k : Nat) (ho : 2 ≤ o) :
    1 ≤ k % o + 1 ∧ k % o + 1 ≤ o ∧ ((k + 1) % o + 1 = if k % o + 1 = o then 1 else (k % o + 1) + 1) := by
  have hm := Nat.mod_lt k (show 0 < o by omega)
  refine ⟨by omega, by omega, ?_⟩
  have h1 : 1 % o = 1 := Nat.mod_eq_of_lt (by omega)
  split
  · rename_i h
    have hk : k % o = o - 1 := by omega
    rw [Nat.add_mod, hk, h1, Nat.sub_add_cancel (by omega), Nat.mod_self]
  · rw [Nat.add_mod, h1, Nat.mod_eq_of_lt (by omega)]

/-- overflow 3: two nodes, four cycles, counters 2, 3, 1, 2 -/
example : ∃ s, Sync.Simple.create { header := syncHeader, period := 10, overflow := 3 } (Vector.replicate 8 7) = some s ∧
    ((s.run [.add 1, .write .ready, .add 2, .remove 1, .write .ready, .write .halt, .write .ready]).2.map fun f => f.data[0]) = [2, 3, 1, 2] ∧
    Member [.add 1, .write .ready] 1 := by
  refine ⟨{ nodes := [], frame := { syncHeader with data := #v[1, 7, 7, 7, 7, 7, 7, 7], dlc := 1 }, overflow := 3 }, by rfl, by decide +kernel, [], [.write .ready], rfl, by simp⟩

/-! ## C48: SYNC by the kernel -/

/-- C48.  Take a layer that was just initialised.  After any sequence of frames without broadcast commands, and halts, the kernel runs a SYNC
job exactly while some watched node is started, and that job is the configured one.  The kernel is assumed to accept every job. -/
theorem C48_bcm (p : Sync.Props) (junk : Vector Byte 8) (monitored ignored : List Nat) (es : List Seen)
    (hnb : ∀ f, Seen.frame f ∈ es → ∀ cmd, ¬ IsNmt f cmd 0) :
    (((Bcm.State.create p junk monitored ignored).run (.init true true :: es.map toEv)).job.isSome = true ↔
      ∃ n, watched monitored ignored n ∧ Started es n) ∧
    ∀ j, ((Bcm.State.create p junk monitored ignored).run (.init true true :: es.map toEv)).job = some j →
      j = Bcm.txSetup p.period.toNat p.header (Bcm.State.create p junk monitored ignored).syncFrames := by
  generalize hs : (Bcm.State.create p junk monitored ignored).handleInit true true = s
  have hg : Bcm.Good s := by rw [← hs]; exact ⟨rfl, rfl, rfl, rfl⟩
  have h0 : s.started = [] := by rw [← hs]; rfl
  obtain ⟨h1, h2, h3⟩ := Bcm.watch_run s hg h0 es hnb
  have hm : s.monitored = monitored := by rw [← hs]; rfl
  have hi : s.ignored = ignored := by rw [← hs]; rfl
  have hp : s.period = p.period.toNat := by rw [← hs]; rfl
  have hh : s.header = p.header := by rw [← hs]; rfl
  have hf : s.syncFrames = (Bcm.State.create p junk monitored ignored).syncFrames := by rw [← hs]; rfl
  simp only [Bcm.State.run, Bcm.State.step, hs]
  rw [h1.job, h1.run]
  constructor
  · cases hl : (s.run (es.map toEv)).started with
    | nil =>
      simp
      intro n hw hst
      have := (h3 n).mpr ⟨by rw [hm, hi]; exact hw, hst⟩
      rw [hl] at this
      cases this
    | cons a l =>
      simp
      have := (h3 a).mp (by rw [hl]; simp)
      exact ⟨a, by rw [← hm, ← hi]; exact this.1, this.2⟩
  · intro j hj
    split at hj
    · cases hj
      rw [h2.pe, h2.he, h2.fr, hp, hh, hf]
    · cases hj

/-- C48, the frames of the job: without overflow one empty frame, with overflow `o` the counters 1, …, `o`. -/
theorem C48_frames (p : Sync.Props) (junk : Vector Byte 8) (monitored ignored : List Nat) :
    (Bcm.txSetup p.period.toNat p.header (Bcm.State.create p junk monitored ignored).syncFrames).frames =
      if p.overflow = 0 then [(0, [])] else (List.range p.overflow.toNat).map fun i => (1, [BitVec.ofNat 8 (i + 1)]) := by
  unfold Bcm.txSetup Bcm.State.create
  dsimp only
  split
  · simp
  · rw [List.map_map]
    congr 1
    funext i
    have hcons : ∀ v : Vector Byte 8, (v.toList.take 1) = [v[0]] := by
      intro v
      have hl : v.toList.length = 8 := by simp
      have h0 : v[0] = v.toList[0]'(by omega) := by simp
      rw [h0]
      have : ∀ (l : List Byte) (h : 0 < l.length), l.take 1 = [l[0]] := by
        intro l h
        cases l with
        | nil => cases h
        | cons a l => simp
      exact this _ _
    simp only [Function.comp]
    have h1 : (1 : Byte).toNat = 1 := rfl
    rw [h1, hcons]
    simp

/-- start node 3, and node 4 which is ignored; stop node 4, then node 3 -/
example : (∀ f, Seen.frame f ∈ [Seen.frame (nmt 1 3), .frame (nmt 1 4), .frame (nmt 2 4)] → ∀ cmd, ¬ IsNmt f cmd 0) ∧
    (∃ n, watched [] [4] n ∧ Started [Seen.frame (nmt 1 3), .frame (nmt 1 4), .frame (nmt 2 4)] n) := by
  refine ⟨?_, 3, ⟨by decide, .inl rfl⟩, [], nmt 1 3, _, rfl, ⟨rfl, by decide +kernel, by decide +kernel, by decide +kernel⟩, ?_, by simp⟩
  · intro f hf cmd h
    simp only [List.mem_cons, Seen.frame.injEq, List.not_mem_nil, or_false] at hf
    have := h.2.2.2
    rcases hf with rfl | rfl | rfl <;> exact absurd this (by decide +kernel)
  · intro g hg
    simp only [List.mem_cons, Seen.frame.injEq, List.not_mem_nil, or_false] at hg
    rintro (⟨c, -, h⟩ | ⟨h, -⟩)
    · have := h.2.2.2
      rcases hg with rfl | rfl <;> exact absurd this (by decide +kernel)
    · rcases hg with rfl | rfl <;> exact absurd h (by decide +kernel)

/-- Broadcast commands are left out of C48 for a reason.  First, with a list of monitored nodes (that does not contain 0) a broadcast command is
ignored altogether. -/
theorem C48_broadcast_ignored (s : Bcm.State) (hm : s.monitored ≠ []) (h0 : 0 ∉ s.monitored) (f : Frame) (cmd : Byte) (hf : IsNmt f cmd 0) (ok : Bool) :
    s.step (.frame f ok) = s := by
  have hsk : s.skipNode f.data[1].toNat = true := by
    cases h : s.skipNode f.data[1].toNat with
    | true => rfl
    | false =>
      have := (Bcm.skip_iff s _).mp h
      rw [hf.2.2.2] at this
      rcases this.2 with h1 | h1
      · exact absurd h1 hm
      · exact absurd h1 h0
  simp only [Bcm.State.step]
  split
  · unfold Bcm.State.handleFrame
    rw [if_pos hf.1, if_pos hf.2.1]
    dsimp only
    rw [if_pos hsk]
  · rfl

example : ∃ (s : Bcm.State) (f : Frame), s.monitored ≠ [] ∧ 0 ∉ s.monitored ∧ s.listening = true ∧ IsNmt f 1 0 :=
  ⟨(Bcm.State.create { header := syncHeader, period := 10, overflow := 0 } (Vector.replicate 8 0) [5] []).handleInit true true, nmt 1 0,
    by simp [Bcm.State.create, Bcm.State.handleInit], by simp [Bcm.State.create, Bcm.State.handleInit], rfl, rfl, by decide +kernel, by decide +kernel, by decide +kernel⟩

/-- Second, without such a list a broadcast start makes 0 a started node, so that stopping every node one by one does not end SYNC. -/
theorem C48_broadcast_start_sticks :
    ((Bcm.State.create { header := syncHeader, period := 10, overflow := 0 } (Vector.replicate 8 0) [] []).run
      [.init true true, .frame (nmt 1 5) true, .frame (nmt 1 0) true, .frame (nmt 2 5) true]).job.isSome = true ∧
    ((Bcm.State.create { header := syncHeader, period := 10, overflow := 0 } (Vector.replicate 8 0) [] []).run
      [.init true true, .frame (nmt 1 5) true, .frame (nmt 2 5) true]).job.isSome = false := by
  constructor <;> decide +kernel

/-- C48, silence: after any history, a layer that is shut down or halted has no cyclic frames on the bus and, when shut down, does not react
to any frames until it is initialised again. -/
theorem C48_silent (p : Sync.Props) (junk : Vector Byte 8) (monitored ignored : List Nat) (es : List Bcm.Ev) :
    ((Bcm.State.create p junk monitored ignored).run (es ++ [.halt])).job = none ∧
    ∀ fs : List (Frame × Bool), ((Bcm.State.create p junk monitored ignored).run (es ++ .shutdown :: fs.map fun q => .frame q.1 q.2)).job = none := by
  have happ : ∀ (a b : List Bcm.Ev) (s : Bcm.State), s.run (a ++ b) = (s.run a).run b := by
    intro a; induction a with
    | nil => intro b s; rfl
    | cons x a ih => intro b s; exact ih b _
  -- the kernel runs a job only while the layer believes so and has a socket
  have hT : ∀ (s : Bcm.State) ok, (s.job.isSome = true → s.running = true ∧ s.open_ = true) →
      ((s.toggle ok).job.isSome = true → (s.toggle ok).running = true ∧ (s.toggle ok).open_ = true) := by
    intro s ok h
    unfold Bcm.State.toggle Bcm.State.stopTX Bcm.State.startTX
    cases hj : s.job <;> cases hr : s.running <;> cases ho : s.open_ <;> cases he : s.started.isEmpty <;> cases ok <;> simp_all
  have hF : ∀ (s : Bcm.State) f ok, (s.job.isSome = true → s.running = true ∧ s.open_ = true) →
      ((s.handleFrame f ok).job.isSome = true → (s.handleFrame f ok).running = true ∧ (s.handleFrame f ok).open_ = true) := by
    intro s f ok h
    unfold Bcm.State.handleFrame
    dsimp only
    (repeat' split) <;> first | exact h | exact hT _ _ h
  have hI : ∀ (es : List Bcm.Ev) (s : Bcm.State), (s.job.isSome = true → s.running = true ∧ s.open_ = true) →
      ((s.run es).job.isSome = true → (s.run es).running = true ∧ (s.run es).open_ = true) := by
    intro es
    induction es with
    | nil => intro s h; exact h
    | cons e es ih =>
      intro s h
      apply ih
      have hinit : ∀ (s : Bcm.State) b f, (s.handleInit b f).job = none := by
        intro s b f; unfold Bcm.State.handleInit; cases b <;> cases f <;> rfl
      cases e with
      | frame f ok =>
        simp only [Bcm.State.step]
        split
        · exact hF s f ok h
        · exact h
      | init b f => simp only [Bcm.State.step, hinit]; simp
      | recover b f => simp only [Bcm.State.step, hinit]; simp
      | shutdown => simp [Bcm.State.step, Bcm.State.handleShutdown]
      | halt =>
        simp only [Bcm.State.step, Bcm.State.handleHalt]
        split
        · intro hx
          unfold Bcm.State.stopTX at hx ⊢
          split
          · rename_i hc; rw [if_pos hc] at hx; simp at hx
          · rename_i hc
            rw [if_neg hc] at hx
            exact absurd ⟨(h hx).2, hx⟩ hc
        · exact h
  have h0 := hI es (Bcm.State.create p junk monitored ignored) (by simp [Bcm.State.create])
  refine ⟨?_, fun fs => ?_⟩
  · rw [happ]
    generalize (Bcm.State.create p junk monitored ignored).run es = s at h0 ⊢
    simp only [Bcm.State.run, Bcm.State.step, Bcm.State.handleHalt, Bcm.State.stopTX]
    cases hj : s.job <;> cases hr : s.running <;> cases ho : s.open_ <;> simp_all
  · rw [happ]
    have : ∀ (fs : List (Frame × Bool)) (s : Bcm.State), s.listening = false → s.job = none → (s.run (fs.map fun q => .frame q.1 q.2)).job = none := by
      intro fs
      induction fs with
      | nil => intro s _ h; exact h
      | cons q fs ih =>
        intro s hl hj
        simp only [List.map_cons, Bcm.State.run, Bcm.State.step, hl, Bool.false_eq_true, if_false]
        exact ih s hl hj
    exact this fs _ rfl rfl

example : let s := Bcm.State.create { header := syncHeader, period := 10, overflow := 0 } (Vector.replicate 8 0) [] []
    (s.run [.init true true, .frame (nmt 1 5) true]).job.isSome = true ∧ (s.run [.init true true, .frame (nmt 1 5) true, .halt]).job = none ∧
    (s.run [.init true true, .shutdown, .frame (nmt 1 5) true]).job = none := by decide +kernel

/-- Recovering the layer while SYNC runs ends it for good: the kernel's job is gone with the socket, but the layer still believes it to run, and no
sequence of frames brings it back. -/
theorem C48_recover_stops_sync_forever (s : Bcm.State) (hr : s.running = true) (fs : List (Frame × Bool)) :
    (s.run (.recover true true :: fs.map fun q => .frame q.1 q.2)).job = none := by
  have : ∀ (fs : List (Frame × Bool)) (t : Bcm.State), Bcm.Stuck t → Bcm.Stuck (t.run (fs.map fun q => .frame q.1 q.2)) := by
    intro fs
    induction fs with
    | nil => intro t h; exact h
    | cons q fs ih =>
      intro t h
      simp only [List.map_cons, Bcm.State.run, Bcm.State.step]
      apply ih
      split
      · exact Bcm.stuck_frame t h _ _
      · exact h
  simp only [Bcm.State.run, Bcm.State.step]
  exact (this fs _ ⟨by simp [Bcm.State.handleInit, Bcm.State.handleShutdown, hr], by simp [Bcm.State.handleInit, Bcm.State.handleShutdown]⟩).job

example : ∃ s : Bcm.State, s.running = true ∧ s.job.isSome = true :=
  ⟨(Bcm.State.create { header := syncHeader, period := 10, overflow := 0 } (Vector.replicate 8 0) [] []).run [.init true true, .frame (nmt 1 5) true],
    by decide +kernel, by decide +kernel⟩

end Verif.Props
