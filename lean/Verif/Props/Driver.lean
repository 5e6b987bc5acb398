import Verif.Lemmas.Driver

/-!
# C13, C14, C15, C61: SocketCAN driver
-/

namespace Verif.Props
open Verif Verif.Drv Verif.Spec

/-- C13.  A valid data or remote frame survives the way to the kernel and back, whatever was received before; the identifier
word on the socket is the identifier plus 2^31 for extended and 2^30 for remote frames. -/
theorem C13_socket_roundtrip (f old : Frame) (hv : ValidFrame f) (he : f.isError = false) :
    ∃ k : KFrame, toKernel (ε := Empty) f = .ok k ∧ SameFrame f (fromKernel old k) ∧
      k.dlc = f.dlc ∧
      (∀ i : Nat, k.canId.getLsbD i =
        (f.id.getLsbD i || (f.isExtended && decide (i = 31)) || (f.isRtr && decide (i = 30)))) := by
  have hw := word_getLsbD f.id f.isExtended f.isRtr
  unfold toKernel
  rw [if_pos hv.1]
  refine ⟨_, rfl, ?_, rfl, fun i => hw i⟩
  generalize hW : f.id.setWidth 32 ||| (if f.isExtended then CAN_EFF_FLAG else 0#32)
      ||| (if f.isRtr then CAN_RTR_FLAG else 0#32) = W at hw
  have b29 : W.getLsbD 29 = false := by rw [hw, BitVec.getLsbD_of_ge f.id 29 (by omega)]; simp
  have b30 : W.getLsbD 30 = f.isRtr := by rw [hw, BitVec.getLsbD_of_ge f.id 30 (by omega)]; simp
  have b31 : W.getLsbD 31 = f.isExtended := by rw [hw, BitVec.getLsbD_of_ge f.id 31 (by omega)]; simp
  have hE : ¬ (W &&& CAN_ERR_FLAG ≠ 0#32) := by
    rw [ERR_FLAG_eq, and_twoPow_ne _ _ (by omega), b29]; simp
  have hX : (W &&& CAN_EFF_FLAG != 0#32) = f.isExtended := by
    rw [Bool.eq_iff_iff, bne_iff_ne, EFF_FLAG_eq, and_twoPow_ne _ _ (by omega), b31]
  have hR : (W &&& CAN_RTR_FLAG != 0#32) = f.isRtr := by
    rw [Bool.eq_iff_iff, bne_iff_ne, RTR_FLAG_eq, and_twoPow_ne _ _ (by omega), b30]
  unfold fromKernel
  simp only [if_neg hE, hX, hR]
  refine ⟨?_, he, rfl, rfl, rfl, ?_⟩
  · apply BitVec.eq_of_getLsbD_eq
    intro i hi
    simp only [BitVec.getLsbD_setWidth, BitVec.getLsbD_and, hw, hi, decide_true, Bool.true_and]
    have n31 : ¬ i = 31 := by omega
    have n30 : ¬ i = 30 := by omega
    cases hx : f.isExtended
    · simp only [n31, n30, decide_false, Bool.and_false, Bool.or_false, Bool.false_eq_true, if_false, SFF_MASK_getLsbD]
      by_cases hlt : i < 11
      · simp [hlt]
      · rw [getLsbD_of_small f.id (hv.2 hx) i (by omega)]; simp
    · simp only [n31, n30, decide_false, Bool.and_false, Bool.or_false, if_true, EFF_MASK_getLsbD]
      simp [hi]
  · intro i h8 hi
    simp [hi]

/-- a remote frame; its word on the socket -/
example : let f : Frame := { id := 0x123, isError := false, isRtr := true, isExtended := false, data := #v[1,2,3,4,5,6,7,8], dlc := 3 }
    ValidFrame f ∧ f.isError = false ∧ ∃ k, toKernel (ε := Empty) f = .ok k ∧ k.canId = 0x40000123#32 :=
  ⟨⟨by decide, by decide⟩, rfl, _, rfl, by decide⟩

/-- C13.  Every non-error frame of the kernel is received with its own fields and is valid. -/
theorem C13_kernel_frame_received (k : KFrame) (old : Frame) (hd : k.dlc.toNat ≤ 8) (he : k.canId.getLsbD 29 = false) :
    let f := fromKernel old k
    ValidFrame f ∧ f.isError = false ∧ f.isExtended = k.canId.getLsbD 31 ∧ f.isRtr = k.canId.getLsbD 30 ∧ f.dlc = k.dlc ∧
    (∀ i : Nat, f.id.getLsbD i = (k.canId.getLsbD i && decide (i < if k.canId.getLsbD 31 then 29 else 11))) ∧
    (∀ i : Nat, (h : i < 8) → i < k.dlc.toNat → f.data[i] = k.data[i]) := by
  have hE : ¬ (k.canId &&& CAN_ERR_FLAG ≠ 0#32) := by
    rw [ERR_FLAG_eq, and_twoPow_ne _ _ (by omega), he]; simp
  have hX : (k.canId &&& CAN_EFF_FLAG != 0#32) = k.canId.getLsbD 31 := by
    rw [Bool.eq_iff_iff, bne_iff_ne, EFF_FLAG_eq, and_twoPow_ne _ _ (by omega)]
  have hR : (k.canId &&& CAN_RTR_FLAG != 0#32) = k.canId.getLsbD 30 := by
    rw [Bool.eq_iff_iff, bne_iff_ne, RTR_FLAG_eq, and_twoPow_ne _ _ (by omega)]
  simp only
  unfold fromKernel
  simp only [if_neg hE, hX, hR]
  refine ⟨⟨hd, ?_⟩, trivial, trivial, trivial, trivial, ?_, ?_⟩
  · intro hx
    simp only at hx
    simp only [hx, Bool.false_eq_true, if_false, BitVec.toNat_setWidth, BitVec.toNat_and]
    have : CAN_SFF_MASK.toNat = 2 ^ 11 - 1 := by decide
    rw [this, Nat.and_two_pow_sub_one_eq_mod]
    omega
  · intro i
    simp only [BitVec.getLsbD_setWidth, BitVec.getLsbD_and]
    cases hx : k.canId.getLsbD 31
    · simp only [Bool.false_eq_true, if_false, SFF_MASK_getLsbD]
      by_cases h : i < 11
      · simp [h]; omega
      · simp [h]
    · simp only [if_true, EFF_MASK_getLsbD]
      by_cases h : i < 29
      · simp [h]
      · simp [h]
  · intro i h8 hi
    simp [hi]

example : let k : KFrame := { canId := 0x80012345#32, dlc := 2, data := #v[1,2,0,0,0,0,0,0] }
    k.dlc.toNat ≤ 8 ∧ k.canId.getLsbD 29 = false ∧ (fromKernel default k).id = 0x12345#29 := by decide

/-- C13.  A frame with `dlc > 8` makes the send path read outside the payload. -/
theorem C13_dlc_out_of_range (f : Frame) (h : 8 < f.dlc.toNat) : toKernel (ε := Empty) f = .ub := by
  unfold toKernel; rw [if_neg (by omega)]

example : 8 < (9#8).toNat := by decide

/-- C13.  The error flag of a frame given to `send` does not reach the socket: the word has no error bit. -/
theorem C13_error_flag_not_sent (f : Frame) (k : KFrame) (h : toKernel (ε := Empty) f = .ok k) :
    k.canId.getLsbD 29 = false := by
  unfold toKernel at h
  split at h
  · simp only [Outcome.ok.injEq] at h
    subst h
    simp only [word_getLsbD, BitVec.getLsbD_of_ge f.id 29 (by omega)]
    simp
  · cases h

/-- an error frame given to `send` -/
example : let f : Frame := { id := 0x40, isError := true, isRtr := false, isExtended := false, data := Vector.replicate 8 0, dlc := 8 }
    ∃ k, toKernel (ε := Empty) f = .ok k ∧ k.canId = 0x40#32 := ⟨_, rfl, by decide⟩

example : let f : Frame := { id := 0x123, isError := false, isRtr := true, isExtended := false, data := #v[1,2,3,4,5,6,7,8], dlc := 3 }
    ValidFrame f ∧ f.isError = false := by
  simp [ValidFrame]

/-- C13.  For every history, the frames given to the application are those read from the socket, in order, each with its own
identifier, flags, length and payload. -/
theorem C13_delivered (junk : Vector Byte 8) (os : List Op) (d : Driver) (h : (Driver.initial junk).run os = .ok d) :
    Pointwise Received (kernelReads os) d.dispatched := by
  obtain ⟨fs, a, b, _⟩ := run_disp os _ d h
  rw [a]; exact b

example : ∃ d, (Driver.initial (Vector.replicate 8 0)).run
    [.init "can0".toList false 0x1FF 0x40 .ok, .runBegin, .readOk { canId := 0x123, dlc := 2, data := Vector.replicate 8 7 },
     .readOk { canId := 0x80000123, dlc := 0, data := Vector.replicate 8 0 }] = .ok d ∧
    d.dispatched.map (fun f => (f.id, f.isExtended)) = [(0x123, false), (0x123, true)] := ⟨_, rfl, by decide +kernel⟩

/-- C13.  The remote flag of an error frame is whatever the previously read frame had. -/
theorem C13_error_frame_stale_flags (old : Frame) (k : KFrame) (he : k.canId.getLsbD 29 = true) :
    (fromKernel old k).isRtr = old.isRtr ∧ (fromKernel old k).isExtended = old.isExtended := by
  have hE : k.canId &&& CAN_ERR_FLAG ≠ 0#32 := by rw [ERR_FLAG_eq, and_twoPow_ne _ _ (by omega), he]
  unfold fromKernel
  rw [if_pos hE]
  exact ⟨rfl, rfl⟩

example : (0x20000040#32).getLsbD 29 = true := by decide

/-- C14.  For every sequence of updates of the recorded state, the listeners are called exactly with the recorded states that
differ from the previously recorded one, in order. -/
theorem C14_notified_exactly_on_change (us : List Update) (d : Driver) :
    let d' := us.foldl (fun d u => match u with
      | .errorCode e => d.setErrorCode e
      | .internalError e => d.setInternalError e
      | .driver x => d.setDriverState x) d
    d'.state = us.foldl applyUpdate d.state ∧ d'.notified = d.notified ++ changes d.state (states d.state us) := by
  have : (fun (d : Driver) (u : Update) => match u with
      | .errorCode e => d.setErrorCode e
      | .internalError e => d.setInternalError e
      | .driver x => d.setDriverState x) = doUpdate := by
    funext d u; cases u <;> rfl
  simp only [this]
  exact ⟨(updates_spec us d).2, (updates_spec us d).1⟩

/-- the second of two equal updates is not announced -/
example : changes State.initial (states State.initial [.driver .opened, .driver .opened, .errorCode 5]) =
    [{ State.initial with driver := .opened }, { State.initial with driver := .opened, errorCode := 5 }] := by decide

/-- C14.  After every history of calls, the last state the listeners saw is the recorded state. -/
theorem C14_last_view_is_current (junk : Vector Byte 8) (os : List Op) (d : Driver)
    (h : (Driver.initial junk).run os = .ok d) : d.notified.getLast?.getD .initial = d.state :=
  run_synced os _ d (by simp [Synced, Driver.initial]) h

example : ∃ d, (Driver.initial (Vector.replicate 8 0)).run [.init "can0".toList false 0x1FF 0x40 .ok, .runBegin] = .ok d ∧
    d.notified.getLast?.map (·.driver) = some .ready := ⟨_, rfl, rfl⟩

/-- C14.  `send` fails and changes nothing unless the driver is ready; a ready driver writes exactly the one frame, or records
the error of the write and is not ready any more. -/
theorem C14_send (d : Driver) (f : Frame) (ec : Int) (h8 : f.dlc.toNat ≤ 8) :
    ∃ r d', d.send f ec = .ok (r, d') ∧
      (d.state.driver ≠ .ready → r = false ∧ d' = d) ∧
      (d.state.driver = .ready → ec = 0 → r = true ∧ d'.state = d.state ∧ d'.notified = d.notified ∧
        ∃ k, toKernel (ε := Empty) f = .ok k ∧ d'.wire = d.wire ++ [k]) ∧
      (d.state.driver = .ready → ec ≠ 0 → r = false ∧ d'.wire = d.wire ∧ d'.state.errorCode = ec ∧
        d'.state.driver ≠ .ready) := by
  obtain ⟨k, hk⟩ : ∃ k, toKernel (ε := Empty) f = .ok k := by unfold toKernel; rw [if_pos h8]; exact ⟨_, rfl⟩
  unfold Driver.send
  by_cases hr : d.state.driver = .ready
  · rw [if_pos hr, hk]
    simp only
    by_cases he : ec = 0
    · rw [if_neg (by simpa using he)]
      exact ⟨_, _, rfl, fun h => absurd hr h, fun _ _ => ⟨rfl, rfl, rfl, _, rfl, rfl⟩, fun _ h => absurd he h⟩
    · rw [if_pos he]
      exact ⟨_, _, rfl, fun h => absurd hr h, fun _ h => absurd h he,
        fun _ _ => ⟨rfl, by simp, by simp, setNotReady_driver _⟩⟩
  · rw [if_neg hr]
    exact ⟨_, _, rfl, fun _ => ⟨rfl, rfl⟩, fun h => absurd h hr, fun h => absurd h hr⟩

/-- a ready driver and a failing write -/
example : let d := { Driver.initial (Vector.replicate 8 0) with state := { State.initial with driver := .ready } }
    d.state.driver = .ready ∧ ∃ d', d.send default 105 = .ok (false, d') ∧ d'.state.errorCode = 105 := ⟨rfl, _, rfl, rfl⟩

/-- C14.  Opening, running and closing: a closed driver whose device could be opened is open without errors; `run` makes it
ready; after `shutdown` the end of `run` leaves it closed, whatever the event loop returned. -/
theorem C14_life_cycle (d d1 : Driver) (dev : Text) (l : Bool) (em fm : BitVec 32) (r : Bool) (ec : Int)
    (hc : d.state.driver = .closed) (h : d.init dev l em fm .ok = .ok (r, d1)) :
    r = true ∧ d1.state = { driver := .opened, errorCode := 0, internalError := 0 } ∧
    d1.runBegin.1 = true ∧ d1.runBegin.2.state = { driver := .ready, errorCode := 0, internalError := 0 } ∧
    (d1.runBegin.2.shutdown.runEnd ec).state = { driver := .closed, errorCode := ec, internalError := 0 } := by
  obtain ⟨h1, h2, h3, h4, h5, h6⟩ := init_ok d d1 dev l em fm r hc h
  have hb : d1.runBegin = (true, d1.setNotReady.setDriverState .ready) := by
    unfold Driver.runBegin
    simp only [setNotReady_drv, h5, if_true]
  have st : ∀ (s : State) x e i, s.driver = x → s.errorCode = e → s.internalError = i →
      s = { driver := x, errorCode := e, internalError := i } := by
    rintro ⟨_, _, _⟩ _ _ _ rfl rfl rfl; rfl
  refine ⟨h1, st _ _ _ _ h2 h3 h4, by rw [hb], ?_, ?_⟩
  · rw [hb]
    exact st _ _ _ _ (by simp) (by simp [h3]) (by simp [h4])
  · rw [hb]
    exact st _ _ _ _ (by simp [Driver.runEnd, Driver.shutdown, setNotReady_drv])
      (by simp [Driver.runEnd]) (by simp [Driver.runEnd, Driver.shutdown, h4])

example : (Driver.initial (Vector.replicate 8 0)).state.driver = .closed ∧
    ∃ d1, (Driver.initial (Vector.replicate 8 0)).init "can0".toList false 0x1FF 0x40 .ok = .ok (true, d1) := ⟨rfl, _, rfl⟩

/-- C14.  A failed read leaves the driver not ready, with the error recorded. -/
theorem C14_read_error (d : Driver) (e : Int) :
    (d.readError e).state.driver ≠ .ready ∧ (d.readError e).state.errorCode = e :=
  ⟨setNotReady_driver _, by simp [Driver.readError]⟩

/-- a history that opens, runs, sends and ends: it is accepted and leaves a recorded state that differs from the first -/
example : ∃ d, (Driver.initial (Vector.replicate 8 0)).run
    [.init "can0".toList false 0x1FF 0x40 .ok, .runBegin, .send default 0, .shutdown, .runEnd 0] = .ok d ∧
    d.notified.length = 4 ∧ d.wire.length = 1 := ⟨_, rfl, rfl, rfl⟩

/-- C15.  Whatever the settings say (as long as they are readable): a class is fatal iff it is bus-off or its setting (by
default: TX timeout, bus error, restarted) says so; a class is reported iff it is fatal or its setting says so (default: yes);
no other bit is ever set. -/
theorem C15_masks (st : Settings) (em fm : BitVec 32) (h : masks st = .ok (em, fm)) :
    (∀ c, fm.getLsbD (errBitNo c) = true ↔ c = .busoff ∨
      (st ("fatal_error_mask".toList ++ '/' :: c.name) = none ∧ fatalByDefault c = true) ∨
      (∃ r, st ("fatal_error_mask".toList ++ '/' :: c.name) = some r ∧ lexicalBool r = some true)) ∧
    (∀ c, em.getLsbD (errBitNo c) = true ↔ fm.getLsbD (errBitNo c) = true ∨
      (st ("error_mask".toList ++ '/' :: c.name) = none ∧ fatalByDefault c = false) ∨
      (∃ r, st ("error_mask".toList ++ '/' :: c.name) = some r ∧ lexicalBool r = some true)) ∧
    (∀ i, em.getLsbD i = true ∨ fm.getLsbD i = true → i < 9) := by
  obtain ⟨m, m', h1, h2, h3, h4⟩ := masks_ok st em fm h
  obtain ⟨p1, q1⟩ := parse_bits _ _ _ _ h1
  obtain ⟨p2, q2⟩ := parse_bits _ _ _ _ h3
  have fbits : ∀ i, fm.getLsbD i = true ↔ m.getLsbD i = true ∨ i = 6 := by
    intro i; rw [h2, BitVec.getLsbD_or, getLsbD_bit, Bool.or_eq_true, decide_eq_true_iff]; rfl
  have ebits : ∀ i, em.getLsbD i = true ↔ m'.getLsbD i = true ∨ fm.getLsbD i = true := by
    intro i; rw [h4, BitVec.getLsbD_or]; simp
  refine ⟨?_, ?_, ?_⟩
  · intro c
    rw [fbits, p1, selected_iff, fatalDefaults_bit]
    have : errBitNo c = 6 ↔ c = .busoff := by cases c <;> decide
    rw [this, or_comm]
  · intro c
    rw [ebits, p2, selected_iff, BitVec.getLsbD_or, reportDefaults_bit]
    cases hf : fm.getLsbD (errBitNo c) <;> simp
  · intro i hi
    rcases hi with hi | hi
    · rcases (ebits i).1 hi with hi | hi
      · exact q2 i hi
      · rcases (fbits i).1 hi with hi | hi
        · exact q1 i hi
        · omega
    · rcases (fbits i).1 hi with hi | hi
      · exact q1 i hi
      · omega

/-- the settings make controller problems fatal and switch the report of lost arbitration off -/
example : ∃ em fm, masks (fun n => if n = "fatal_error_mask/CAN_ERR_CRTL".toList then some ['1'] else
      if n = "error_mask/CAN_ERR_LOSTARB".toList then some ['0'] else none) = .ok (em, fm) ∧
    fm.getLsbD (errBitNo .crtl) = true ∧ em.getLsbD (errBitNo .lostarb) = false :=
  ⟨0x1FD#32, 0x1C5#32, by decide, by decide, by decide⟩

/-- C15.  `init` fails with an exception exactly if one of the consulted settings is not a boolean text. -/
theorem C15_masks_readable (st : Settings) :
    (∃ em fm, masks st = .ok (em, fm)) ↔
      ∀ (c : ErrClass) (r : Text), (st ("fatal_error_mask".toList ++ '/' :: c.name) = some r ∨ st ("error_mask".toList ++ '/' :: c.name) = some r) →
        lexicalBool r ≠ none := by
  have sel : ∀ entry defaults c, (∃ b, classSelected st entry defaults c = .ok b) ↔
      ∀ r, st (entry ++ '/' :: c.name) = some r → lexicalBool r ≠ none := by
    intro entry defaults c
    unfold classSelected
    cases hs : st (entry ++ '/' :: c.name) with
    | none => simp
    | some r => cases hl : lexicalBool r <;> simp [hl]
  constructor
  · rintro ⟨em, fm, h⟩ c r hr
    obtain ⟨m, m', h1, h2, h3, h4⟩ := masks_ok st em fm h
    rcases hr with hr | hr
    · exact (sel _ _ c).1 (addBits_ok_selected _ _ _ _ _ _ h1 c (mem_errOrder c)) r hr
    · exact (sel _ _ c).1 (addBits_ok_selected _ _ _ _ _ _ h3 c (mem_errOrder c)) r hr
  · intro h
    obtain ⟨m, hm⟩ := addBits_ok_of st "fatal_error_mask".toList fatalDefaults errOrder 0#32
      (fun c _ => (sel _ _ c).2 (fun r hr => h c r (Or.inl hr)))
    obtain ⟨m', hm'⟩ := addBits_ok_of st "error_mask".toList (reportDefaults ||| (m ||| ErrClass.busoff.bit)) errOrder 0#32
      (fun c _ => (sel _ _ c).2 (fun r hr => h c r (Or.inr hr)))
    refine ⟨m' ||| (m ||| ErrClass.busoff.bit), m ||| ErrClass.busoff.bit, ?_⟩
    unfold masks parseErrorMask
    rw [hm]
    simp only
    rw [hm']

/-- `true` is not one of the texts the code reads as a boolean: the masks cannot be made -/
example : lexicalBool "true".toList = none ∧ lexicalBool "1".toList = some true := by decide

/-- C15.  An error frame of a class in the fatal mask leaves the driver not ready, with the error recorded, from any state. -/
theorem C15_fatal_error_stops (d : Driver) (k : KFrame) (c : ErrClass) (he : k.canId.getLsbD 29 = true)
    (hc : k.canId.getLsbD (errBitNo c) = true) (hf : d.fatalMask.getLsbD (errBitNo c) = true) :
    (d.readOk k).state.driver ≠ .ready ∧
    (∀ i, (d.readOk k).state.internalError.getLsbD i = (k.canId.getLsbD i && decide (i < 29))) := by
  have hE : k.canId &&& CAN_ERR_FLAG ≠ 0#32 := by
    rw [ERR_FLAG_eq, and_twoPow_ne _ _ (by omega), he]
  have hF : k.canId &&& d.fatalMask ≠ 0#32 := by
    intro h0
    have := congrArg (fun x => x.getLsbD (errBitNo c)) h0
    simp [hc, hf] at this
  have hlt : errBitNo c < 32 := by have := errBitNo_lt c; omega
  unfold Driver.readOk
  simp only [if_pos (And.intro hE hF)]
  refine ⟨setNotReady_driver _, ?_⟩
  intro i
  simp only [setNotReady_ie, setInternalError_val]
  unfold fromKernel
  simp only [if_pos hE, BitVec.getLsbD_setWidth, BitVec.getLsbD_and, EFF_MASK_getLsbD]
  by_cases h : i < 29
  · have : i < 32 := by omega
    simp [h, this]
  · simp [h]

/-- a ready driver and a bus-off error frame -/
example : let d := { Driver.initial (Vector.replicate 8 0) with state := { State.initial with driver := .ready }, fatalMask := 0x1C1#32 }
    let k : KFrame := { canId := 0x20000040#32, dlc := 8, data := Vector.replicate 8 0 }
    d.state.driver = .ready ∧ k.canId.getLsbD 29 = true ∧ k.canId.getLsbD (errBitNo .busoff) = true ∧
    d.fatalMask.getLsbD (errBitNo .busoff) = true := by decide

/-- C15.  Any other frame, an error frame of classes not in the fatal mask included, leaves the recorded state alone and the
listeners undisturbed. -/
theorem C15_other_frames_harmless (d : Driver) (k : KFrame)
    (h : k.canId.getLsbD 29 = false ∨ ∀ i, k.canId.getLsbD i = true → d.fatalMask.getLsbD i = false) :
    (d.readOk k).state = d.state ∧ (d.readOk k).notified = d.notified ∧ (d.readOk k).wire = d.wire := by
  have : ¬ (k.canId &&& CAN_ERR_FLAG ≠ 0#32 ∧ k.canId &&& d.fatalMask ≠ 0#32) := by
    rintro ⟨h1, h2⟩
    rw [ERR_FLAG_eq, and_twoPow_ne _ _ (by omega)] at h1
    rcases h with h | h
    · rw [h1] at h; cases h
    · apply h2
      apply BitVec.eq_of_getLsbD_eq
      intro i hi
      rw [BitVec.getLsbD_and]
      cases hb : k.canId.getLsbD i
      · simp
      · rw [h i hb]; simp
  unfold Driver.readOk
  simp only [this, if_false, and_self]

/-- an error frame of a class that is not fatal -/
example : ∀ i, (0x20000002#32).getLsbD i = true → (0x1C1#32).getLsbD i = false := by
  intro i hi
  have all : ∀ i : Fin 32, (0x20000002#32).getLsbD i = true → (0x1C1#32).getLsbD i = false := by decide
  by_cases h : i < 32
  · exact all ⟨i, h⟩ hi
  · rw [BitVec.getLsbD_of_ge _ _ (by omega)] at hi; cases hi

/-- C15.  From the settings to the effect: opened with the masks of the settings, after any history without another `init`, an
error frame of a class that the settings make fatal leaves the driver not ready. -/
theorem C15_settings_take_effect (d d1 d2 : Driver) (dev : Text) (l : Bool) (st : Settings) (em fm : BitVec 32) (r : Bool)
    (hc : d.state.driver = .closed) (hm : masks st = .ok (em, fm)) (hi : d.init dev l em fm .ok = .ok (r, d1))
    (os : List Op) (ho : ∀ o ∈ os, ∀ dev l em fm sys, o ≠ .init dev l em fm sys) (hr : d1.run os = .ok d2)
    (k : KFrame) (c : ErrClass) (he : k.canId.getLsbD 29 = true) (hk : k.canId.getLsbD (errBitNo c) = true)
    (hf : c = .busoff ∨ (st ("fatal_error_mask".toList ++ '/' :: c.name) = none ∧ fatalByDefault c = true) ∨
      (∃ t, st ("fatal_error_mask".toList ++ '/' :: c.name) = some t ∧ BoolText t true)) :
    (d2.readOk k).state.driver ≠ .ready := by
  obtain ⟨_, _, _, hfm⟩ := run_disp os d1 d2 hr
  have h2 : d2.fatalMask = fm := by rw [hfm ho, (init_ok d d1 dev l em fm r hc hi).2.2.2.2.2]
  refine (C15_fatal_error_stops d2 k c he hk ?_).1
  rw [h2]
  refine ((C15_masks st em fm hm).1 c).2 ?_
  rcases hf with h | h | ⟨t, ht, hb⟩
  · exact Or.inl h
  · exact Or.inr (Or.inl h)
  · exact Or.inr (Or.inr ⟨t, ht, (lexicalBool_iff t true).2 hb⟩)

/-- closed driver, no settings, some traffic, then bus-off -/
example : let d := Driver.initial (Vector.replicate 8 0)
    ∃ em fm d1 d2, masks (fun _ => none) = .ok (em, fm) ∧ d.state.driver = .closed ∧ d.init "can0".toList false em fm .ok = .ok (true, d1) ∧
      d1.run [.runBegin, .send default 0] = .ok d2 ∧ d2.state.driver = .ready ∧ (0x20000040#32).getLsbD (errBitNo .busoff) = true :=
  ⟨0x1FF#32, 0x1C1#32, _, _, by decide, rfl, rfl, rfl, rfl, by decide⟩

/-- C15.  Which texts are accepted as a boolean setting, and their value. -/
theorem C15_boolean_texts (s : Text) (b : Bool) : lexicalBool s = some b ↔ BoolText s b := lexicalBool_iff s b

example : BoolText "1".toList true ∧ BoolText "-00".toList false ∧ ¬ BoolText "true".toList true :=
  ⟨⟨[], 0, rfl, Or.inl rfl⟩, ⟨['-'], 1, rfl, Or.inr (Or.inr ⟨rfl, rfl⟩)⟩, by rw [← lexicalBool_iff]; decide⟩

/-- C15.  Once not ready, no history of reads, sends, re-initialisations and shutdowns makes the driver ready or writes a
frame, until `run` is started again. -/
theorem C15_stays_stopped (os : List Op) (d d' : Driver) (h : d.state.driver ≠ .ready) (ho : ∀ o ∈ os, o ≠ .runBegin)
    (hs : d.run os = .ok d') : d'.state.driver ≠ .ready ∧ d'.wire = d.wire :=
  run_notReady os d d' ho h hs

example : ∃ em fm, masks (fun n => if n = "fatal_error_mask/CAN_ERR_BUSOFF".toList then some ['0'] else none) = .ok (em, fm) ∧
    fm.getLsbD 6 = true ∧ fm ≠ 0 := ⟨0x1FF#32, 0x1C1#32, by decide, by decide, by decide⟩

/-- a ready driver and a bus-off error frame meet the hypotheses of `C15_fatal_error_stops` -/
example : let d := { Driver.initial (Vector.replicate 8 0) with state := { State.initial with driver := .ready }, fatalMask := 0x1C1#32 }
    let k : KFrame := { canId := 0x20000040#32, dlc := 8, data := Vector.replicate 8 0 }
    d.state.driver = .ready ∧ k.canId.getLsbD 29 = true ∧ k.canId.getLsbD (errBitNo .busoff) = true ∧
    d.fatalMask.getLsbD (errBitNo .busoff) = true := by decide

/-- the classes `translateError` knows a text for -/
def hasText : ErrClass → Bool
  | .ack | .buserror => false
  | _ => true

/-- C61.  `translateError` reports success exactly for "no error" and for errors with a class it knows; the classes `ACK` and
`BUSERROR` are not among them. -/
theorem C61_translate_result (e : BitVec 32) (str : Text) :
    (translateError e str).1 = true ↔ e = 0#32 ∨ ∃ c, hasText c = true ∧ e.getLsbD (errBitNo c) = true := by
  have gen : ∀ (l : List (ErrClass × String)) (r : Bool × Text),
      (l.foldl (fun r c => if e &&& c.1.bit ≠ 0#32 then (true, r.2 ++ c.2.toList) else r) r).1 = true ↔
        r.1 = true ∨ ∃ c ∈ l, e.getLsbD (errBitNo c.1) = true := by
    intro l
    induction l with
    | nil => simp
    | cons a l ih =>
      intro r
      rw [List.foldl_cons, ih]
      by_cases h : e &&& a.1.bit ≠ 0#32
      · simp [h, (and_bit_ne e a.1).1 h]
      · rw [if_neg h]
        have : ¬ e.getLsbD (errBitNo a.1) = true := fun hc => h ((and_bit_ne e a.1).2 hc)
        simp [this]
  unfold translateError
  rw [gen]
  by_cases h0 : e = 0#32
  · simp [h0]
  · simp only [h0, if_false, Bool.false_eq_true, false_or]
    constructor
    · rintro ⟨c, hm, hb⟩
      refine ⟨c.1, ?_, hb⟩
      simp only [translateTable, List.mem_cons, List.not_mem_nil, or_false] at hm
      rcases hm with h | h | h | h | h | h | h <;> subst h <;> rfl
    · rintro ⟨c, ht, hb⟩
      cases c with
      | ack => cases ht
      | buserror => cases ht
      | lostarb => exact ⟨_, by simp [translateTable]; exact Or.inr (Or.inl rfl), hb⟩
      | crtl => exact ⟨_, by simp [translateTable]; exact Or.inr (Or.inr (Or.inl rfl)), hb⟩
      | prot => exact ⟨_, by simp [translateTable]; exact Or.inr (Or.inr (Or.inr (Or.inl rfl))), hb⟩
      | trx => exact ⟨_, by simp [translateTable]; exact Or.inr (Or.inr (Or.inr (Or.inr (Or.inl rfl)))), hb⟩
      | txTimeout => exact ⟨_, by simp [translateTable]; exact Or.inl rfl, hb⟩
      | busoff => exact ⟨_, by simp [translateTable]; exact Or.inr (Or.inr (Or.inr (Or.inr (Or.inr (Or.inl rfl))))), hb⟩
      | restarted => exact ⟨_, by simp [translateTable]; exact Or.inr (Or.inr (Or.inr (Or.inr (Or.inr (Or.inr rfl))))), hb⟩

/-- a bus error, fatal by default, has no text; bus-off has -/
example : (translateError 0x80#32 []).1 = false ∧ (translateError 0x40#32 []).1 = true := by decide

/-- C61.  The text: "OK" followed by nothing for no error, otherwise the old text followed by the texts of the classes in the error
word, in the order of the table, whatever else is set. -/
theorem C61_translate_text (e : BitVec 32) (str : Text) :
    (translateError e str).2 = if e = 0#32 then "OK".toList
      else str ++ ((errTexts.filter fun c => e.getLsbD c.1).map fun c => c.2.toList).flatten := by
  have gen : ∀ (l : List (ErrClass × String)) (r : Bool × Text),
      (l.foldl (fun r c => if e &&& c.1.bit ≠ 0#32 then (true, r.2 ++ c.2.toList) else r) r).2 =
        r.2 ++ (((l.map fun c => (errBitNo c.1, c.2)).filter fun c => e.getLsbD c.1).map fun c => c.2.toList).flatten := by
    intro l
    induction l with
    | nil => simp
    | cons a l ih =>
      intro r
      rw [List.foldl_cons, ih]
      by_cases h : e &&& a.1.bit ≠ 0#32
      · have hb := (and_bit_ne e a.1).1 h
        rw [if_pos h, List.map_cons, List.filter_cons_of_pos (by exact hb), List.map_cons, List.flatten_cons, List.append_assoc]
      · rw [if_neg h]
        have : ¬ e.getLsbD (errBitNo a.1) = true := fun hc => h ((and_bit_ne e a.1).2 hc)
        rw [List.map_cons, List.filter_cons_of_neg (by exact this)]
  have ht : (translateTable.map fun c => (errBitNo c.1, c.2)) = errTexts := rfl
  unfold translateError
  dsimp only
  rw [gen, ht]
  by_cases h0 : e = 0#32
  · subst h0; simp
  · simp [h0]

example : translateError 0x42#32 "x".toList = (true, "xlost arbitration;bus off;".toList) := by decide
example : (translateError 0xA0#32 []).1 = false := by decide

end Verif.Props
