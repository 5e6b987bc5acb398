import Verif.Lemmas.BcmSocket
import Verif.Props.Text
import Verif.Props.Master

/-! # C100: cyclic frames are sent as given -/

namespace Verif.Props
open Verif Verif.Txt Verif.Spec Verif.BcmS Verif.Spec.BcmS

private def okFrame (data : List Byte) (h : Header) : Frame :=
  { toHeader := h, data := copyInto (Vector.replicate 8 0xee) data, dlc := BitVec.ofNat 8 data.length }

/-- C100, the message: for every header, every period and 1 to 256 data frames with at most 8 bytes the message written is read by the kernel as the order to
send exactly these payloads, in this order, with this identifier and this period.  No byte outside of the message is touched. -/
theorem C100_message (nd : Bool) (usec : Int) (h : Header) (fs : List Frame) (hn : 1 ≤ fs.length ∧ fs.length ≤ 256) (hf : ∀ f ∈ fs, f.dlc.toNat ≤ 8)
    (hv : h.isValid = true) (hr : h.isRtr = false) (hu : 0 ≤ usec ∧ usec < 2 ^ 63) :
    ∃ m, txMsg nd usec h fs.length fs = .ok m ∧
      decode m = some (.setup (jobNumber h) { period := usec, frames := fs.map fun f => Wire.of h (payload f) }) := by
  refine ⟨_, by simpa using txMsg_eq nd usec h fs [] (.inl hn.2) hf, ?_⟩
  rw [decode_setup usec h fs hn hf hv hu]
  simp [Wire.of, hr]

example : ∃ m, txMsg false 1500000 (Header.ext 0x12345#32) 2 [okFrame [1, 2] (Header.ext 0x12345#32), okFrame [] (Header.ext 0x12345#32)] = .ok m ∧
    decode m = some (.setup 0x80012345 { period := 1500000, frames := [⟨0x12345, true, false, [1, 2]⟩, ⟨0x12345, true, false, []⟩] }) :=
  C100_message false 1500000 (Header.ext 0x12345#32) [okFrame [1, 2] (Header.ext 0x12345#32), okFrame [] (Header.ext 0x12345#32)]
    (by decide) (by decide) (by decide) (by decide) (by decide)

/-- C100, start: after any history of the object, starting a transmission with valid arguments asks the kernel once.  A refusal is reported and changes
nothing.  If the kernel accepts, this is reported and the job of this identifier is the given one; other jobs and other sockets are as before. -/
theorem C100_start (nd : Bool) (ops : List Op) (s : Sock) (rs : List Bool) (cs : List Call) (hrun : Sock.new.run nd ops = .ok (s, rs, cs))
    (usec : Int) (h : Header) (fs : List Frame) (hn : 1 ≤ fs.length ∧ fs.length ≤ 256) (hf : ∀ f ∈ fs, f.dlc.toNat ≤ 8)
    (hv : h.isValid = true) (hr : h.isRtr = false) (hu : 0 ≤ usec ∧ usec < 2 ^ 63) (ret : Int) (hopen : 0 < ret → 0 ≤ s.fd) :
    ∃ m, s.step nd (.start usec h fs.length fs ret) = .ok (s, decide (0 < ret), [.write s.fd m ret]) ∧
      (ret ≤ 0 → Kernel.none.after (cs ++ [.write s.fd m ret]) = Kernel.none.after cs) ∧
      (0 < ret → ∃ jobs, Kernel.none.after cs s.fd = some jobs ∧
        ∀ fd, Kernel.none.after (cs ++ [.write s.fd m ret]) fd =
          if fd = s.fd then some (fun k => if k = jobNumber h then some { period := usec, frames := fs.map fun f => Wire.of h (payload f) } else jobs k)
          else Kernel.none.after cs fd) := by
  obtain ⟨m, hm, hd⟩ := C100_message nd usec h fs hn hf hv hr hu
  refine ⟨m, by simp only [Sock.step, Sock.startTX, hm, andThen], ?_, ?_⟩
  · intro h0
    rw [after_append]
    simp only [Kernel.after, List.foldl_cons, List.foldl_nil, Kernel.apply]
    rw [if_neg (by omega)]
  · intro h0
    have := run_inv (nd := nd) (fun s k => 0 ≤ s.fd → (k s.fd).isSome = true) (fun s k op s' b cs => open_inv s k op s' b cs) ops Sock.new Kernel.none s rs cs
      (by intro h; exact absurd h (by decide)) hrun (hopen h0)
    obtain ⟨jobs, hj⟩ := Option.isSome_iff_exists.mp this
    refine ⟨jobs, hj, fun fd => ?_⟩
    rw [after_append]
    generalize Kernel.none.after cs = K at *
    simp only [Kernel.after, List.foldl_cons, List.foldl_nil, Kernel.apply]
    rw [if_pos h0]
    by_cases hx : fd = s.fd
    · subst hx; simp [hj, serve, hd]
    · simp [hx]

example : Sock.new.run false [.init "vcan0".toList ⟨5, 0, 0⟩] =
    .ok (⟨5⟩, [true], [.socket 5, .ifindex 5 "vcan0".toList 0, .connect 5 0]) := by decide +kernel

/-- C100, stop: after any history, stopping a transmission asks the kernel once.  If it accepts, the job of this identifier is gone, and only this one;
a refusal is reported and changes nothing. -/
theorem C100_stop (nd : Bool) (s : Sock) (k : Kernel) (h : Header) (ret : Int) :
    ∃ m, s.step nd (.stop h ret) = .ok (s, decide (0 < ret), [.write s.fd m ret]) ∧
      ∀ fd, k.after [.write s.fd m ret] fd =
        if 0 < ret ∧ fd = s.fd then (k fd).map (fun jobs n => if n = jobNumber h then none else jobs n) else k fd := by
  refine ⟨_, by simp only [Sock.step, Sock.stopTX, delMsg_eq, andThen]; rfl, fun fd => ?_⟩
  simp only [Kernel.after, List.foldl_cons, List.foldl_nil, Kernel.apply, decode_delete]
  by_cases h0 : 0 < ret
  · by_cases hx : fd = s.fd
    · simp [h0, hx, serve]
    · simp [h0, hx]
  · simp [h0]

example (k : Kernel) : ∃ m, (⟨5⟩ : Sock).step false (.stop (Header.msg 0x80#32) 56) = .ok (⟨5⟩, true, [.write 5 m 56]) ∧
    ∀ fd, k.after [.write 5 m 56] fd = if 0 < (56 : Int) ∧ fd = 5 then (k fd).map (fun jobs n => if n = 0x80 then none else jobs n) else k fd :=
  C100_stop false ⟨5⟩ k (Header.msg 0x80#32) 56

private theorem shutdown_step (s : Sock) (k : Kernel) (nd : Bool) (s' : Sock) (b : Bool) (cs : List Call)
    (hs : s.step nd .shutdown = .ok (s', b, cs)) (h0 : s.fd ≠ 0) :
    s'.fd < 0 ∧ ∀ fd, k.after cs fd = if fd = s.fd ∧ 0 < s.fd then none else k fd := by
  simp only [Sock.step] at hs
  unfold Sock.shutdown at hs
  by_cases hp : 0 < s.fd
  · rw [if_pos hp] at hs
    cases hs
    refine ⟨show (-1 : Int) < 0 by decide, fun fd => ?_⟩
    simp only [Kernel.after, List.foldl_cons, List.foldl_nil, Kernel.apply]
    simp [hp]
  · rw [if_neg hp] at hs
    cases hs
    refine ⟨show s.fd < 0 by omega, fun fd => ?_⟩
    simp [Kernel.after, hp]

private theorem tidy_run {nd : Bool} : ∀ (ops : List Op) (o : Bool) (s : Sock) (k : Kernel) s' rs cs, Tidy o ops → s.fd ≠ 0 → (o = false → s.fd < 0) →
    (∀ fd, (k fd).isSome = true ↔ fd = s.fd ∧ 0 < fd) → s.run nd ops = .ok (s', rs, cs) →
    s'.fd ≠ 0 ∧ ∀ fd, (k.after cs fd).isSome = true ↔ fd = s'.fd ∧ 0 < fd := by
  intro ops
  induction ops with
  | nil =>
    intro o s k s' rs cs _ h0 _ hk hr
    simp only [Sock.run] at hr
    cases hr
    exact ⟨h0, hk⟩
  | cons op ops ih =>
    intro o s k s' rs cs ht h0 ho hk hr
    rw [Sock.run] at hr
    obtain ⟨⟨s1, b1, c1⟩, h1, hr⟩ := andThen_ok hr
    obtain ⟨⟨s2, b2, c2⟩, h2, hr⟩ := andThen_ok hr
    cases hr
    rw [after_append]
    cases op with
    | init d a =>
      obtain ⟨t1, t2, t3⟩ := ht
      have hneg := ho t1
      have hk0 : ∀ fd, k fd = none := by
        intro fd
        cases hx : k fd with
        | none => rfl
        | some v =>
          have := (hk fd).mp (by rw [hx]; rfl)
          omega
      rcases init_cases (s := s) h1 k with ⟨e1, _, e2, e3⟩ | ⟨e1, _, eo, e2, e3⟩ | ⟨e1, _, eo, e2, e3⟩ | ⟨e1, _, eo, e2, e3⟩
      · refine ih _ s1 _ _ _ _ t3 (by omega) (fun _ => by omega) ?_ h2
        intro fd; rw [e3, hk0]; simp; omega
      · refine ih _ s1 _ _ _ _ t3 (by omega) (fun h => by simp [eo] at h) ?_ h2
        intro fd; rw [e3]; by_cases hx : fd = a.socket
        · simp [hx, e2]; omega
        · simp [hx, hk0, e2]
      · refine ih _ s1 _ _ _ _ t3 (by omega) (fun _ => by omega) ?_ h2
        intro fd; rw [e3]; by_cases hx : fd = a.socket
        · simp [hx, e2]; omega
        · simp [hx, hk0, e2]; omega
      · exact absurd e1 t2
    | start usec hd num fs ret =>
      obtain ⟨e1, m, _, _, e2⟩ := step_start h1
      subst e1 e2
      exact ih o s1 _ _ _ _ ht h0 ho (fun fd => by rw [write_isSome]; exact hk fd) h2
    | stop hd ret =>
      obtain ⟨e1, m, _, _, e2⟩ := step_stop h1
      subst e1 e2
      exact ih o s1 _ _ _ _ ht h0 ho (fun fd => by rw [write_isSome]; exact hk fd) h2
    | shutdown =>
      obtain ⟨e1, e2⟩ := shutdown_step s k nd s1 b1 c1 h1 h0
      refine ih false s1 _ _ _ _ ht (by omega) (fun _ => e1) ?_ h2
      intro fd
      rw [e2]
      have := hk fd
      split
      · simp; omega
      · rw [this]; omega

/-- C100, end: if the object is never initialised while it is open (and never gets descriptor 0), at most one socket is open at any time, and after a
shut-down or the object's end none is, so no frame is sent any more.  (Partial: see the two following theorems.) -/
theorem C100_closed_partial (nd : Bool) (ops : List Op) (ht : Tidy false ops) (s : Sock) (rs : List Bool) (cs : List Call) :
    (Sock.new.run nd ops = .ok (s, rs, cs) → ∀ fd, (Kernel.none.after cs fd).isSome = true ↔ fd = s.fd ∧ 0 < fd) ∧
    (Sock.new.run nd (ops ++ [.shutdown]) = .ok (s, rs, cs) → Kernel.none.after cs = Kernel.none) := by
  have base : ∀ fd, (Kernel.none fd).isSome = true ↔ fd = Sock.new.fd ∧ 0 < fd := by
    intro fd; simp [Kernel.none, Sock.new]; omega
  constructor
  · intro hr
    exact (tidy_run ops false Sock.new Kernel.none s rs cs ht (by decide) (fun _ => by decide) base hr).2
  · intro hr
    rw [run_append] at hr
    obtain ⟨⟨s1, b1, c1⟩, h1, hr⟩ := andThen_ok hr
    obtain ⟨⟨s2, b2, c2⟩, h2, hr⟩ := andThen_ok hr
    cases hr
    obtain ⟨e0, e1⟩ := tidy_run ops false Sock.new Kernel.none s1 b1 c1 ht (by decide) (fun _ => by decide) base h1
    rw [Sock.run] at h2
    obtain ⟨⟨s3, b3, c3⟩, h3, hr⟩ := andThen_ok h2
    simp only [Sock.run, andThen] at hr
    cases hr
    obtain ⟨e2, e3⟩ := shutdown_step s1 (Kernel.none.after c1) nd _ b3 c3 h3 e0
    rw [after_append, List.append_nil]
    funext fd
    rw [e3]
    split
    · rfl
    · rename_i hx
      have := e1 fd
      cases hy : Kernel.none.after c1 fd with
      | none => rfl
      | some v =>
        rw [hy] at this
        have := this.mp rfl
        exact absurd ⟨this.1, by omega⟩ hx

private def sync80 : List Frame := [okFrame [] (Header.msg 0x80#32)]

private def tidyOps : List Op :=
  [.init "vcan7".toList ⟨3, -1, 0⟩, .init "vcan0".toList ⟨3, 0, 0⟩, .start 10000 (Header.msg 0x80#32) 1 sync80 72, .shutdown, .init "vcan0".toList ⟨3, 0, 0⟩,
   .start 10000 (Header.msg 0x80#32) 1 sync80 72]

example : Tidy false tidyOps := by
  simp only [tidyOps, Tidy]
  decide

/-- C100, initialised twice: initialising an open object opens a second socket and forgets the first; what the first one sends cannot be ended by the object any
more, not even by its destruction. -/
theorem C100_reinit_false :
    ∃ cs, Sock.new.run false [.init "vcan0".toList ⟨3, 0, 0⟩, .start 10000 (Header.msg 0x80#32) 1 sync80 72, .init "vcan0".toList ⟨4, 0, 0⟩, .shutdown] =
        .ok (⟨-1⟩, [true, true, true, true], cs) ∧
      Kernel.none.after cs 3 ≠ none ∧
      (Kernel.none.after cs 3).bind (fun jobs => jobs 0x80) = some { period := 10000, frames := [⟨0x80, false, false, []⟩] } := by
  refine ⟨_, by rfl, ?_, ?_⟩
  · decide +kernel
  · decide +kernel

/-- C100, descriptor 0: a socket with descriptor 0 (the program was started without standard input) is not closed. -/
theorem C100_descriptor0_false :
    ∃ cs, Sock.new.run false [.init "vcan0".toList ⟨0, 0, 0⟩, .start 10000 (Header.msg 0x80#32) 1 sync80 72, .shutdown] =
        .ok (⟨0⟩, [true, true, true], cs) ∧
      (Kernel.none.after cs 0).bind (fun jobs => jobs 0x80) = some { period := 10000, frames := [⟨0x80, false, false, []⟩] } := by
  refine ⟨_, by rfl, ?_⟩
  decide +kernel

/-- C100, remote frames: an order to send remote frames is accepted, but data frames are sent. -/
theorem C100_remote_false (nd : Bool) (usec : Int) (h : Header) (fs : List Frame) (hn : 1 ≤ fs.length ∧ fs.length ≤ 256) (hf : ∀ f ∈ fs, f.dlc.toNat ≤ 8)
    (hv : h.isValid = true) (_hr : h.isRtr = true) (hu : 0 ≤ usec ∧ usec < 2 ^ 63) :
    ∃ m j, txMsg nd usec h fs.length fs = .ok m ∧ decode m = some (.setup (jobNumber h) j) ∧ j.frames ≠ [] ∧ ∀ w ∈ j.frames, w.remote = false := by
  refine ⟨_, _, by simpa using txMsg_eq nd usec h fs [] (.inl hn.2) hf, decode_setup usec h fs hn hf hv hu, ?_, ?_⟩
  · intro h0
    have := congrArg List.length h0
    simp at this
    simp [this] at hn
  · intro w hw
    simp only [List.mem_map] at hw
    obtain ⟨f, _, rfl⟩ := hw
    rfl

example : (Header.msg 0x123#32 true).isRtr = true ∧ (Header.msg 0x123#32 true).isValid = true := by decide

/-- what the object relies on: names shorter than 16 bytes, frames with at most 8 bytes, as many as announced and not more than 256 -/
def wellUsed : Op → Prop
  | .init d _ => d.length < 16
  | .start _ _ num fs _ => num ≤ 256 ∧ num ≤ fs.length ∧ ∀ f ∈ fs, f.dlc.toNat ≤ 8
  | _ => True

/-- C100, memory: every history of calls with such arguments is free of undefined behaviour and assertion failures, for every answer of the operating system. -/
theorem C100_safe (nd : Bool) (ops : List Op) (hw : ∀ op ∈ ops, wellUsed op) (s : Sock) : ∃ r, s.run nd ops = .ok r := by
  induction ops generalizing s with
  | nil => exact ⟨_, rfl⟩
  | cons op ops ih =>
    have hstep : ∃ r, s.step nd op = .ok r := by
      have h1 := hw op (by simp)
      cases op with
      | init d a =>
        simp only [wellUsed] at h1
        simp only [Sock.step, Sock.init]
        split
        · exact ⟨_, rfl⟩
        · rw [if_neg (by omega)]
          split
          · exact ⟨_, rfl⟩
          · split <;> exact ⟨_, rfl⟩
      | start usec h num fs ret =>
        obtain ⟨a1, a2, a3⟩ := h1
        have := txMsg_eq nd usec h (fs.take num) (fs.drop num) (.inl (by simp; omega)) (fun f hf => a3 f (List.mem_of_mem_take hf))
        rw [List.take_append_drop, List.length_take, Nat.min_eq_left a2] at this
        exact ⟨_, by simp only [Sock.step, Sock.startTX, this, andThen]; rfl⟩
      | stop h ret => exact ⟨_, by simp only [Sock.step, Sock.stopTX, delMsg_eq, andThen]; rfl⟩
      | shutdown => exact ⟨_, rfl⟩
    obtain ⟨r, hr⟩ := hstep
    obtain ⟨q, hq⟩ := ih (fun op h => hw op (by simp [h])) r.1
    exact ⟨_, by rw [Sock.run, hr]; simp only [andThen]; rw [hq]⟩

example : ∀ op ∈ tidyOps, wellUsed op := by
  intro op hop
  simp only [tidyOps, List.mem_cons, List.not_mem_nil, or_false] at hop
  rcases hop with rfl | rfl | rfl | rfl | rfl | rfl <;> simp only [wellUsed] <;> decide

/-- C100, long names: a device name of 16 or more characters is written beyond the buffer of the request, whenever a socket could be opened. -/
theorem C100_long_name_false (nd : Bool) (s : Sock) (d : Text) (hd : 16 ≤ d.length) (a : Answers) (ha : 0 ≤ a.socket) : s.step nd (.init d a) = .ub := by
  simp only [Sock.step, Sock.init]
  rw [if_neg (by omega), if_pos hd]

example : 16 ≤ "can_of_the_left_arm".toList.length := by decide

private theorem payload_copy (junk : Vector Byte 8) (h : Header) (bs : List Byte) (h8 : bs.length ≤ 8) :
    payload { toHeader := h, data := copyInto junk bs, dlc := BitVec.ofNat 8 bs.length } = bs := by
  have hn : (BitVec.ofNat 8 bs.length).toNat = bs.length := by simp; omega
  unfold payload
  rw [hn]
  apply List.ext_getElem
  · simp; omega
  · intro i h1 h2
    simp [copyInto, h2]

private theorem printFrames_ok (fs : List Frame) (hf : ∀ f ∈ fs, f.dlc.toNat ≤ 8) :
    printFrames fs = .ok (fs.map fun f => headerToString f.toHeader true ++ '#' :: buffer2hex (payload f) true) := by
  induction fs with
  | nil => rfl
  | cons f fs ih =>
    have h1 : (frameToString f true : Outcome Err Text) = .ok (headerToString f.toHeader true ++ '#' :: buffer2hex (payload f) true) := by
      unfold frameToString
      rw [bytes_ok (hf f (by simp))]
      rfl
    rw [printFrames, h1]
    simp only [andThen]
    rw [ih (fun g hg => hf g (by simp [hg]))]
    rfl

private theorem toolFrames_dlc (e : Env) : ∀ f ∈ toolFrames e, f.dlc.toNat ≤ 8 := by
  intro f hf
  simp only [toolFrames, List.mem_cons, List.mem_mapIdx] at hf
  rcases hf with rfl | ⟨i, _, rfl⟩ <;> exact C03_toframe_dlc _ _

private theorem toolFrames_length (e : Env) : (toolFrames e).length = 1 + (e.args.length - 3) := by
  simp [toolFrames]; omega

/-- the program with a device that can be opened -/
private theorem main_open (nd : Bool) (e : Env) (h3 : 3 ≤ e.args.length) (hd : (e.args.getD 0 []).length < 16) (ho : opens e.answers)
    (hl : (toolFrames e).length ≤ 256) :
    ∃ m, txMsg nd (e.usec (e.args.getD 1 [])) (toframe (e.junk 0) (e.args.getD 2 [])).toHeader (toolFrames e).length (toolFrames e) = .ok m ∧
      main nd e = .ok (
        let p : Prog := { printed := (toolFrames e).map fun f => headerToString f.toHeader true ++ '#' :: buffer2hex (payload f) true,
                          calls := [.socket e.answers.socket, .ifindex e.answers.socket (e.args.getD 0 []) e.answers.ifindex,
                            .connect e.answers.socket e.answers.connect] ++ [.write e.answers.socket m e.writeRet],
                          sock := ⟨e.answers.socket⟩, exit := .waiting }
        if 0 < e.writeRet then p else p.leave 4) := by
  have htx := txMsg_eq nd (e.usec (e.args.getD 1 [])) (toframe (e.junk 0) (e.args.getD 2 [])).toHeader (toolFrames e) [] (.inl hl) (toolFrames_dlc e)
  rw [List.append_nil] at htx
  refine ⟨_, htx, ?_⟩
  unfold main
  dsimp only
  rw [if_neg (by omega)]
  have hi : Sock.new.init (e.args.getD 0 []) e.answers = .ok (⟨e.answers.socket⟩, true, [.socket e.answers.socket,
      .ifindex e.answers.socket (e.args.getD 0 []) e.answers.ifindex, .connect e.answers.socket e.answers.connect]) := by
    obtain ⟨o1, o2, o3⟩ := ho
    unfold Sock.init
    dsimp only
    rw [if_neg (by omega), if_neg (by omega), if_neg (by simp [o2]), if_neg (by omega)]
  rw [hi]
  simp only [andThen, Bool.not_true, Bool.false_eq_true, if_false]
  rw [printFrames_ok _ (toolFrames_dlc e)]
  simp only [Sock.startTX, htx, andThen]
  by_cases hw : 0 < e.writeRet
  · simp [hw]
  · simp [hw]

private theorem mapIdx_denote (h : Header) (hv : h.isValid = true) (junk : Nat → Vector Byte 8) (pls : List Text) (ds : List (List Byte)) (hd : DenoteAll pls ds) :
    (pls.mapIdx fun i d => toframe (junk i) (headerToString h true ++ '#' :: d)).map payload = ds ∧
    ∀ f ∈ (pls.mapIdx fun i d => toframe (junk i) (headerToString h true ++ '#' :: d)), f.toHeader = toheader (headerToString h true) := by
  induction pls generalizing ds junk with
  | nil =>
    cases ds with
    | nil => simp
    | cons d ds => exact absurd hd (by simp [DenoteAll])
  | cons t ts ih =>
    cases ds with
    | nil => exact absurd hd (by simp [DenoteAll])
    | cons d ds =>
      obtain ⟨h1, h8, h2⟩ := hd
      obtain ⟨i1, i2⟩ := ih (fun i => junk (i + 1)) ds h2
      have hvalid : (toheader (headerToString h true)).isValid = true := by
        rw [toheader_headerToString]
        unfold Header.isValid at hv ⊢
        have := h.id.isLt
        cases hx : h.isExtended with
        | false =>
          rw [hx] at hv
          have hv' : h.id.toNat < 2 ^ 11 := by simpa using hv
          have : ¬ 2 ^ 11 ≤ h.id.toNat := by omega
          simp only [decide_eq_true_eq]
          rw [if_neg (by simp; omega)]
          omega
        | true =>
          have hl := headerToString_length_ext h true hx
          simp only [decide_eq_true_eq]
          by_cases hb : 2 ^ 11 ≤ h.id.toNat
          · rw [if_pos (by simp [hl]; omega)]; omega
          · rw [if_neg (by simp; omega)]; omega
      have ht := toframe_text (junk 0) (headerToString h true) t (header_no_hash h true) d hvalid h1 h8
      rw [List.mapIdx_cons]
      constructor
      · rw [List.map_cons, ht, payload_copy _ _ _ h8, i1]
      · intro f hf
        rw [List.mem_cons] at hf
        rcases hf with rfl | hf
        · rw [ht]
        · exact i2 f hf

private theorem denoteAll_length : ∀ (pls : List Text) (ds : List (List Byte)), DenoteAll pls ds → pls.length = ds.length := by
  intro pls
  induction pls with
  | nil => intro ds h; cases ds with
    | nil => rfl
    | cons => exact absurd h (by simp [DenoteAll])
  | cons t ts ih => intro ds h; cases ds with
    | nil => exact absurd h (by simp [DenoteAll])
    | cons d ds => simp [ih ds h.2.2]

/-- C100, the program canbcm: with an identifier of up to three digits below 0x800 or of eight digits (extended), payloads in hexadecimal digits, a device that can be
opened and a kernel that accepts the order, the program prints the frames and waits; meanwhile exactly the given payloads are sent, in this order, with this
identifier and period.  When the program is left, nothing is sent any more. -/
theorem C100_canbcm (nd : Bool) (e : Env) (dev per hd pl : Text) (pls : List Text) (ds : List (List Byte)) (n : Nat) (ext : Bool)
    (hargs : e.args = dev :: per :: (hd ++ '#' :: pl) :: pls) (hdev : dev.length < 16) (hhd : HexNumeral hd n)
    (hid : (n < 2 ^ 11 ∧ ext = false) ∨ (2 ^ 11 ≤ n ∧ n < 2 ^ 29 ∧ hd.length = 8 ∧ ext = true))
    (hds : DenoteAll (pl :: pls) ds) (hlen : ds.length ≤ 256) (ho : opens e.answers) (hfd : e.answers.socket ≠ 0) (hw : 0 < e.writeRet)
    (hu : 0 ≤ e.usec per ∧ e.usec per < 2 ^ 63) :
    ∃ p, main nd e = .ok p ∧ p.exit = .waiting ∧ p.printed.length = ds.length ∧
      (∀ i (h1 : i < p.printed.length) (h2 : i < ds.length), IsLine n ds[i] p.printed[i]) ∧
      (∀ fd, Kernel.none.after p.calls fd = if fd = e.answers.socket then
          some (fun k => if k = n + (if ext then 2 ^ 31 else 0) then some { period := e.usec per, frames := ds.map fun d => ⟨n, ext, false, d⟩ } else none)
        else none) ∧
      p.resumed.exit = .code 0 ∧ Kernel.none.after p.resumed.calls = Kernel.none := by
  obtain ⟨d0, ds', rfl⟩ : ∃ d0 ds', ds = d0 :: ds' := by
    cases ds with
    | nil => exact absurd hds (by simp [DenoteAll])
    | cons a b => exact ⟨a, b, rfl⟩
  obtain ⟨hd0, hd8, hdr⟩ := hds
  have hn : n < 2 ^ 29 := by omega
  have hnum : toheader hd = { id := BitVec.ofNat 29 n, isError := false, isRtr := false, isExtended := ext } := by
    rw [toheader_numeral hd n hhd (by omega), Nat.testBit_lt_two_pow (i := 29) (by omega), Nat.testBit_lt_two_pow (i := 30) (by omega),
      Nat.testBit_lt_two_pow (i := 31) (by omega)]
    congr 1
    rcases hid with ⟨h1, h2⟩ | ⟨h1, h2, h3, h4⟩
    · rw [h2]; simp; omega
    · rw [h4]; simp [h3]; omega
  have hidn : (toheader hd).id.toNat = n := by rw [hnum]; simp; omega
  have hv : (toheader hd).isValid = true := by
    unfold Header.isValid
    rw [hidn, hnum]
    rcases hid with ⟨h1, h2⟩ | ⟨h1, h2, h3, h4⟩
    · simp [h2]; omega
    · simp [h4]; omega
  have hno : ∀ c ∈ hd, c ≠ '#' := by
    intro c hc
    have := hhd.2.1 c hc
    rintro rfl
    exact absurd this (by decide)
  have hfirst : toframe (e.junk 0) (e.args.getD 2 []) = { toHeader := toheader hd, data := copyInto (e.junk 0) d0, dlc := BitVec.ofNat 8 d0.length } := by
    rw [hargs]
    exact toframe_text (e.junk 0) hd pl hno d0 hv hd0 hd8
  have hfh : (toframe (e.junk 0) (e.args.getD 2 [])).toHeader = toheader hd := by rw [hfirst]
  obtain ⟨q1, q2⟩ := mapIdx_denote (toheader hd) hv (fun i => e.junk (i + 1)) pls ds' hdr
  have hfs : toolFrames e = toframe (e.junk 0) (e.args.getD 2 []) ::
      pls.mapIdx fun i d => toframe (e.junk (i + 1)) (headerToString (toheader hd) true ++ '#' :: d) := by
    unfold toolFrames
    dsimp only
    rw [hfh]
    congr 1
    rw [hargs]; rfl
  have hpay : (toolFrames e).map payload = d0 :: ds' := by
    rw [hfs, List.map_cons, q1, hfirst, payload_copy _ _ _ hd8]
  have hflen : (toolFrames e).length = (d0 :: ds').length := by rw [← hpay, List.length_map]
  obtain ⟨m, hm, hmain⟩ := main_open nd e (by rw [hargs]; simp) (by rw [hargs]; exact hdev) ho (by rw [hflen]; exact hlen)
  rw [if_pos hw] at hmain
  have hper : e.args.getD 1 [] = per := by rw [hargs]; rfl
  obtain ⟨m', hm', hdec⟩ := C100_message nd (e.usec per) (toheader hd) (toolFrames e) (by rw [hflen]; exact ⟨by simp, hlen⟩) (toolFrames_dlc e) hv
    (by rw [hnum]) hu
  rw [hper, hfh] at hm
  obtain rfl : m' = m := by rw [hm] at hm'; cases hm'; rfl
  have hkernel : ∀ fd, Kernel.none.after ([.socket e.answers.socket, .ifindex e.answers.socket (e.args.getD 0 []) e.answers.ifindex,
        .connect e.answers.socket e.answers.connect] ++ [.write e.answers.socket m' e.writeRet]) fd =
      if fd = e.answers.socket then
          some (fun k => if k = n + (if ext then 2 ^ 31 else 0) then some { period := e.usec per, frames := (d0 :: ds').map fun d => ⟨n, ext, false, d⟩ } else none)
        else none := by
    intro fd
    simp only [Kernel.after, List.cons_append, List.nil_append, List.foldl_cons, List.foldl_nil, Kernel.apply]
    rw [if_pos hw, if_pos ho.1]
    by_cases hx : fd = e.answers.socket
    · simp only [hx, if_true, Option.map_some, hdec, serve]
      have hj : jobNumber (toheader hd) = n + (if ext then 2 ^ 31 else 0) := by
        unfold jobNumber; rw [hidn, hnum]
      have hfr : (toolFrames e).map (fun f => Wire.of (toheader hd) (payload f)) = (d0 :: ds').map fun d => ⟨n, ext, false, d⟩ := by
        rw [← hpay, List.map_map]
        congr 1
        funext f
        simp only [Function.comp, Wire.of]
        rw [hidn, hnum]
      rw [hj, hfr]
    · simp [hx, Kernel.none]
  refine ⟨_, hmain, rfl, by simp [hflen], ?_, hkernel, rfl, ?_⟩
  · intro i h1 h2
    have hhi : ∀ f ∈ toolFrames e, f.id.toNat = n ∧ f.isError = false ∧ f.isRtr = false := by
      intro f hf
      rw [hfs, List.mem_cons] at hf
      rcases hf with rfl | hf
      · rw [hfirst]; exact ⟨hidn, by rw [hnum], by rw [hnum]⟩
      · have := q2 f hf
        rw [show f.id = f.toHeader.id from rfl, show f.isError = f.toHeader.isError from rfl, show f.isRtr = f.toHeader.isRtr from rfl, this,
          toheader_headerToString]
        exact ⟨hidn, by rw [hnum], by rw [hnum]⟩
    have hi : i < (toolFrames e).length := by rw [hflen]; exact h2
    simp only [List.getElem_map]
    have hpi : payload (toolFrames e)[i] = (d0 :: ds')[i] := by
      have : ((toolFrames e).map payload)[i]'(by simpa using hi) = payload (toolFrames e)[i] := by simp
      rw [← this]
      simp only [hpay]
    refine ⟨_, _, rfl, ?_, by rw [hpi]; exact buffer2hex_denotes _ _⟩
    obtain ⟨a1, a2, a3⟩ := hhi _ (List.getElem_mem hi)
    have := headerToString_numeral (toolFrames e)[i].toHeader true
    have hz : 2 ^ 29 * (flagVal (toolFrames e)[i].toHeader % 4) + (toolFrames e)[i].toHeader.id.toNat = n := by
      unfold flagVal
      rw [a1, a2, a3]
      cases (toolFrames e)[i].isExtended <;> simp
    rw [hz] at this
    exact this
  · simp only [Prog.resumed, Prog.leave, Sock.shutdown]
    rw [if_pos (by have := ho.1; omega)]
    dsimp only
    rw [after_append]
    funext fd
    generalize hK : Kernel.none.after ([.socket e.answers.socket, .ifindex e.answers.socket (e.args.getD 0 []) e.answers.ifindex,
        .connect e.answers.socket e.answers.connect] ++ [.write e.answers.socket m' e.writeRet]) = K at hkernel ⊢
    simp only [Kernel.after, List.foldl_cons, List.foldl_nil, Kernel.apply]
    by_cases hx : fd = e.answers.socket
    · simp [hx, Kernel.none]
    · simp [hx, hkernel, Kernel.none]

private def toolEnv (args : List String) (ret : Int) : Env :=
  { args := args.map String.toList, answers := ⟨3, 0, 0⟩, writeRet := ret, usec := fun _ => 500000, junk := fun _ => Vector.replicate 8 0xee }

example : (toolEnv ["vcan0", "0.5", "12345678#0102", "FF", ""] 104).args =
      "vcan0".toList :: "0.5".toList :: ("12345678".toList ++ '#' :: "0102".toList) :: ["FF".toList, []] ∧
    HexNumeral "12345678".toList 0x12345678 ∧ DenoteAll ["0102".toList, "FF".toList, []] [[1, 2], [0xff], []] := by
  refine ⟨by decide +kernel, ⟨by decide, by decide, by decide⟩, ?_⟩
  exact ⟨⟨⟨0, 1, by decide, by decide, by decide⟩, ⟨0, 2, by decide, by decide, by decide⟩, trivial⟩, by decide,
    ⟨⟨15, 15, by decide, by decide, by decide⟩, trivial⟩, by decide, trivial, by decide, trivial⟩

/-- C100, exit codes: for all arguments (with a short device name and at most 256 frames) the exit code tells what happened, and the program that has ended left
no socket and no job behind. -/
theorem C100_canbcm_exit (nd : Bool) (e : Env) (hd : (e.args.getD 0 []).length < 16) (hl : e.args.length ≤ 258) (hfd : e.answers.socket ≠ 0) :
    ∃ p, main nd e = .ok p ∧
      (p.exit = .code 1 ↔ e.args.length < 3) ∧
      (p.exit = .code 2 ↔ 3 ≤ e.args.length ∧ ¬ opens e.answers) ∧
      (p.exit = .code 4 ↔ 3 ≤ e.args.length ∧ opens e.answers ∧ e.writeRet ≤ 0) ∧
      (p.exit = .waiting ↔ 3 ≤ e.args.length ∧ opens e.answers ∧ 0 < e.writeRet) ∧
      (p.exit ≠ .waiting → Kernel.none.after p.calls = Kernel.none) := by
  by_cases h3 : e.args.length < 3
  · refine ⟨_, by unfold main; dsimp only; rw [if_pos h3], ?_⟩
    have h3' : ¬ 3 ≤ e.args.length := by omega
    simp [Prog.leave, Sock.shutdown, Sock.new, h3, Kernel.after]
    exact ⟨fun h => absurd h h3', fun h => absurd h h3', fun h => absurd h h3'⟩
  · by_cases ho : opens e.answers
    · obtain ⟨m, hm, hmain⟩ := main_open nd e (by omega) hd ho (by rw [toolFrames_length]; omega)
      refine ⟨_, hmain, ?_⟩
      dsimp only
      have h3' : 3 ≤ e.args.length := by omega
      by_cases hw : 0 < e.writeRet
      · have hw' : ¬ e.writeRet ≤ 0 := by omega
        simp [hw, ho, h3, h3', hw']
      · have hw' : e.writeRet ≤ 0 := by omega
        rw [if_neg hw]
        have hpos : 0 < e.answers.socket := by have := ho.1; omega
        simp only [Prog.leave, ho, h3', hw, hw', h3]
        refine ⟨by simp, by simp, by simp, by simp, fun _ => ?_⟩
        simp only [Sock.shutdown, hpos, if_true]
        funext fd
        simp only [Kernel.after, List.cons_append, List.nil_append, List.foldl_cons, List.foldl_nil, Kernel.apply]
        rw [if_neg hw, if_pos ho.1]
        by_cases hx : fd = e.answers.socket <;> simp [hx, Kernel.none]
    · have hinit : ∃ s cs, Sock.new.init (e.args.getD 0 []) e.answers = .ok (s, false, cs) := by
        unfold Sock.init
        dsimp only
        by_cases h0 : e.answers.socket < 0
        · rw [if_pos h0]; exact ⟨_, _, rfl⟩
        · rw [if_neg h0, if_neg (by omega)]
          by_cases h1 : e.answers.ifindex ≠ 0
          · rw [if_pos h1]; exact ⟨_, _, rfl⟩
          · rw [if_neg h1]
            by_cases h2 : e.answers.connect < 0
            · rw [if_pos h2]; exact ⟨_, _, rfl⟩
            · exact absurd ⟨by omega, by simpa using h1, by omega⟩ ho
      obtain ⟨s, cs, hi⟩ := hinit
      have hmain : main nd e = .ok (({ printed := [], calls := [] ++ cs, sock := s, exit := .waiting } : Prog).leave 2) := by
        unfold main
        dsimp only
        rw [if_neg h3, hi]
        simp only [andThen, Bool.not_false, if_true]
      have h3' : 3 ≤ e.args.length := by omega
      refine ⟨_, hmain, by simp [Prog.leave, h3], by simp [Prog.leave, h3', ho], by simp [Prog.leave, ho], by simp [Prog.leave, ho], fun _ => ?_⟩
      have hk : s.fd < 0 ∧ Kernel.none.after cs = Kernel.none := by
        rcases init_cases (s := Sock.new) hi Kernel.none with ⟨e1, _, e2, e3⟩ | ⟨e1, eb, _⟩ | ⟨e1, _, eo, e2, e3⟩ | ⟨e1, _⟩
        · exact ⟨by omega, e3⟩
        · cases eb
        · refine ⟨by omega, ?_⟩
          rw [e3]; funext fd; simp [Kernel.none]
        · exact absurd e1 hfd
      simp only [Prog.leave, Sock.shutdown]
      rw [if_neg (by omega)]
      simpa using hk.2

example : ((toolEnv ["vcan0", "0.5"] 1).args.getD 0 []).length < 16 ∧ (toolEnv ["vcan0", "0.5"] 1).args.length < 3 := by decide +kernel

/-- C100, malformed arguments: texts that are no frames are not refused.  For "garbage" the identifier 0x7ff is sent cyclically, for an odd number of digits the
frame is sent without payload, and the program reports success. -/
theorem C100_canbcm_malformed_false :
    (∃ p, main false (toolEnv ["vcan0", "0.5", "garbage"] 72) = .ok p ∧ p.exit = .waiting ∧
      (Kernel.none.after p.calls 3).bind (fun jobs => jobs 0xfff) = some { period := 500000, frames := [⟨0x7ff, false, false, []⟩] }) ∧
    (∃ p, main false (toolEnv ["vcan0", "0.5", "123#123"] 72) = .ok p ∧ p.exit = .waiting ∧
      (Kernel.none.after p.calls 3).bind (fun jobs => jobs 0x123) = some { period := 500000, frames := [⟨0x123, false, false, []⟩] }) := by
  constructor
  · obtain ⟨m, hm, hmain⟩ := main_open false (toolEnv ["vcan0", "0.5", "garbage"] 72) (by decide) (by decide) (by decide) (by decide)
    refine ⟨_, hmain, rfl, ?_⟩
    have : m = (match txMsg false 500000 (toframe (Vector.replicate 8 0xee) "garbage".toList).toHeader 1 [toframe (Vector.replicate 8 0xee) "garbage".toList] with
      | .ok m => m | _ => []) := by
      have h2 : txMsg false 500000 (toframe (Vector.replicate 8 0xee) "garbage".toList).toHeader 1 [toframe (Vector.replicate 8 0xee) "garbage".toList] = .ok m := hm
      rw [h2]
    rw [this]
    decide +kernel
  · obtain ⟨m, hm, hmain⟩ := main_open false (toolEnv ["vcan0", "0.5", "123#123"] 72) (by decide) (by decide) (by decide) (by decide)
    refine ⟨_, hmain, rfl, ?_⟩
    have : m = (match txMsg false 500000 (toframe (Vector.replicate 8 0xee) "123#123".toList).toHeader 1 [toframe (Vector.replicate 8 0xee) "123#123".toList] with
      | .ok m => m | _ => []) := by
      have h2 : txMsg false 500000 (toframe (Vector.replicate 8 0xee) "123#123".toList).toHeader 1 [toframe (Vector.replicate 8 0xee) "123#123".toList] = .ok m := hm
      rw [h2]
    rw [this]
    decide +kernel

/-- C100, SYNC: what the SYNC producer of the broadcast manager hands to the kernel is the order to send, with the configured header and period, an empty frame or
(with a counter) the frames 1, 2, … up to the overflow value. -/
theorem C100_sync (nd : Bool) (p : Sync.Props) (junk : Vector Byte 8) (monitored ignored : List Nat) (hv : p.header.isValid = true) (hr : p.header.isRtr = false) :
    ∃ m, txMsg nd (1000 * p.period.toNat) p.header (Bcm.State.create p junk monitored ignored).syncFrames.length
        (Bcm.State.create p junk monitored ignored).syncFrames = .ok m ∧
      decode m = some (.setup (jobNumber p.header)
        { period := 1000 * p.period.toNat
          frames := if p.overflow = 0 then [Wire.of p.header []] else (List.range p.overflow.toNat).map fun i => Wire.of p.header [BitVec.ofNat 8 (i + 1)] }) := by
  have hC := C48_frames p junk monitored ignored
  simp only [Bcm.txSetup] at hC
  have hlt := p.overflow.isLt
  have hpl := p.period.isLt
  have hlen : (Bcm.State.create p junk monitored ignored).syncFrames.length = if p.overflow = 0 then 1 else p.overflow.toNat := by
    have := congrArg List.length hC
    rw [List.length_map] at this
    rw [this]
    split <;> simp
  have hf : ∀ f ∈ (Bcm.State.create p junk monitored ignored).syncFrames, f.dlc.toNat ≤ 8 := by
    intro f hf
    simp only [Bcm.State.create] at hf
    split at hf
    · simp at hf; rw [hf]; simp
    · simp only [List.mem_map] at hf
      obtain ⟨i, _, rfl⟩ := hf
      simp
  have hz : p.overflow ≠ 0 → 1 ≤ p.overflow.toNat := by
    intro h0
    have : p.overflow.toNat ≠ 0 := fun h => h0 (BitVec.eq_of_toNat_eq (by simpa using h))
    omega
  obtain ⟨m, h1, h2⟩ := C100_message nd (1000 * p.period.toNat) p.header (Bcm.State.create p junk monitored ignored).syncFrames
    (by rw [hlen]; split
        · simp
        · rename_i h0; have := hz h0; omega) hf hv hr (by omega)
  refine ⟨m, h1, ?_⟩
  rw [h2]
  congr 3
  have := congrArg (List.map fun x : Byte × List Byte => Wire.of p.header x.2) hC
  rw [List.map_map] at this
  rw [show (fun f : Frame => Wire.of p.header (payload f)) =
    (fun x : Byte × List Byte => Wire.of p.header x.2) ∘ (fun f : Frame => (f.dlc, f.data.toList.take f.dlc.toNat)) from rfl, this]
  split
  · rfl
  · rw [List.map_map]; rfl

example : (Header.msg 0x80#32).isValid = true ∧ (Header.msg 0x80#32).isRtr = false := by decide

end Verif.Props
