import Verif.Lemmas.Threaded

/-!
# C98: the driver and its threads
-/

set_option linter.unusedSimpArgs false

namespace Verif.Props
open Verif Verif.Drv Verif.Thr Verif.Spec Verif.Spec.Thr

private def jk98 : Vector Byte 8 := Vector.replicate 8 0
private def kf (id n : Nat) : KFrame := { canId := BitVec.ofNat 32 id, dlc := 1, data := Vector.replicate 8 (BitVec.ofNat 8 n) }
private def fresh98 : TD := TD.fresh jk98 (kf 0 0)
private def initEv : Ev := .init "can0".toList false 0x1FF#32 0x40#32 .ok
private def upEvs : List Ev := [initEv, .begin, .reset, .spawn, .waited false]
private def downEvs : List Ev := [.shutdown, .close, .stop, .endLoop, .exit 0, .join .ok]

/-- a new driver has nothing to do -/
theorem C98_new_quiet (junk : Vector Byte 8) (kjunk : KFrame) : Quiet (TD.fresh junk kjunk) := ⟨rfl, rfl, rfl, rfl, rfl, rfl, rfl, rfl, rfl⟩

/-- C98.  In a session that begins with a driver without left-overs, for every schedule: the listeners are called for the frames that arrived, in their order, each
once; at most one frame that arrived has not been handed on to the thread that calls them. -/
theorem C98_frames_partial (s : TD) (hq : Quiet s) (dev : Text) (lb : Bool) (em fm : BitVec 32) (sys : SysInit) (es : List Ev)
    (hn : ∀ e ∈ es, isInit e = false ∧ isRecover e = false) :
    ∃ done pending fs, (s.run (.init dev lb em fm sys :: es)).arrived = s.arrived ++ done ++ pending ∧ pending.length ≤ 1 ∧
      (s.run (.init dev lb em fm sys :: es)).delivered ++ (s.run (.init dev lb em fm sys :: es)).strand = s.delivered ++ fs ∧ Pointwise Received done fs := by
  obtain ⟨⟨done, fs, h1, h2, h3⟩, -, -⟩ := sess_run _ _ es _ (sess_init s hq dev lb em fm sys) hn
  exact ⟨done, _, fs, h1, by split <;> simp, h2, h3⟩

example : Quiet fresh98 ∧ (∀ e ∈ ([.begin, .reset, .spawn, .waited false, .arrive (kf 0x123 1), .read .main, .arrive (kf 0x123 2), .enter (.post 0), .read .main, .call (.post 0),
      .ret (.post 0)] : List Ev), isInit e = false ∧ isRecover e = false) ∧
    (fresh98.run (initEv :: [.begin, .reset, .spawn, .waited false, .arrive (kf 0x123 1), .read .main, .arrive (kf 0x123 2), .enter (.post 0), .read .main, .call (.post 0),
      .ret (.post 0)])).delivered.map (fun f => f.data[0]) = [1] ∧
    (fresh98.run (initEv :: [.begin, .reset, .spawn, .waited false, .arrive (kf 0x123 1), .read .main, .arrive (kf 0x123 2), .enter (.post 0), .read .main, .call (.post 0),
      .ret (.post 0)])).strand.map (fun f => f.data[0]) = [2] :=
  ⟨C98_new_quiet _ _, by decide, by decide +kernel, by decide +kernel⟩

/-- C98.  While the driver runs and is not stopped, its threads can always go on until the listeners have been called for all frames that have arrived. -/
theorem C98_delivers (s : TD) (hq : Quiet s) (dev : Text) (lb : Bool) (em fm : BitVec 32) (sys : SysInit) (es : List Ev)
    (hn : ∀ e ∈ es, isInit e = false ∧ isRecover e = false) (hl : (s.run (.init dev lb em fm sys :: es)).thread = .loop)
    (hs : (s.run (.init dev lb em fm sys :: es)).stopped = false) :
    ∃ (ws : List Ev) (done : List KFrame) (fs : List Frame), (∀ e ∈ ws, ownStep e = true) ∧
      (s.run (.init dev lb em fm sys :: es ++ ws)).arrived = s.arrived ++ done ∧ (s.run (.init dev lb em fm sys :: es)).arrived = s.arrived ++ done ∧
      (s.run (.init dev lb em fm sys :: es ++ ws)).delivered = s.delivered ++ fs ∧ Pointwise Received done fs := by
  have hsess := sess_run _ _ es _ (sess_init s hq dev lb em fm sys) hn
  have hact := active_owned (.init dev lb em fm sys :: es) s (fun _ => hq.active)
  simp only [run_append]
  generalize hg : s.run (.init dev lb em fm sys :: es) = t at *
  have hg' : (s.step (.init dev lb em fm sys)).run es = t := hg
  rw [hg'] at hsess
  -- everybody leaves the strand
  let t1 : TD := { t with owner := none, active := none }
  have e1 : t.run (freed t.owner) = t1 := free_owner t hact
  have hs1 : Sess s.arrived s.delivered t1 := ⟨hsess.frames, hsess.tokens, hsess.early⟩
  -- the read is handled
  let t2 : TD := t1.step (.read .main)
  have hs2 : Sess s.arrived s.delivered t2 := sess_step _ _ _ hs1 _ rfl rfl
  have hw : t1.canWork .main = true := (canWork_main t1).2 ⟨(fun h => by cases h), hl⟩
  have h2 : t2.handlers ≠ [0] ∧ t2.owner = none ∧ t2.active = none ∧ t2.thread = .loop ∧ t2.stopped = false ∧ t2.arrived = t.arrived := by
    have hst : t1.stopped = false := hs
    have hlen := hs1.tokens
    have hif : t2 = match t1.handlers with
        | e :: hs => TD.readDone { t1 with handlers := hs } e
        | [] => t1 := by
      show t1.step (.read .main) = _
      simp only [TD.step]
      rw [if_pos ⟨by rw [hst]; rfl, hw⟩]
      rfl
    cases hh : t1.handlers with
    | nil =>
      rw [hh] at hif
      dsimp only at hif
      rw [hif]
      exact ⟨by rw [hh]; simp, rfl, rfl, hl, hs, rfl⟩
    | cons e rest =>
      have hrest : rest = [] := List.eq_nil_of_length_eq_zero (by rw [hh] at hlen; simp at hlen; omega)
      subst hrest
      rw [hh] at hif
      dsimp only at hif
      rw [hif]
      obtain ⟨r1, r2, -, r4, -, -, -, -, r9, -⟩ := readDone_spec { t1 with handlers := [] } e
      refine ⟨?_, by rw [r4], by rw [r9], by rw [r1]; exact hl, by rw [r2]; exact hs, ?_⟩
      · unfold TD.readDone
        split
        · unfold TD.trigger
          dsimp only
          split <;> simp [badDescriptor]
        · simp
      · unfold TD.readDone
        split
        · unfold TD.trigger
          dsimp only
          split <;> rfl
        · rfl
  obtain ⟨hh2, ho2, ha2, hl2, hst2, harr⟩ := h2
  obtain ⟨⟨done, fs, f1, f2, f3⟩, -, -⟩ := hs2
  rw [if_neg hh2, List.append_nil] at f1
  by_cases hstr : t2.strand = []
  · refine ⟨freed t.owner ++ [.read .main], done, fs, ?_, ?_, ?_, ?_, f3⟩
    · intro e he
      simp only [List.mem_append, List.mem_cons, List.not_mem_nil, or_false] at he
      rcases he with he | rfl
      · exact freed_ev _ e he
      · rfl
    · rw [run_append, e1]; exact f1
    · rw [← harr]; exact f1
    · rw [run_append, e1]
      show t2.delivered = _
      rw [hstr, List.append_nil] at f2
      exact f2
  · let t3 : TD := { t2 with owner := some .main }
    have e3 : t2.step (.enter .main) = t3 := by
      simp only [TD.step]
      rw [if_pos]
      exact ⟨by rw [hst2]; rfl, (canWork_main t2).2 ⟨(by rw [ho2]; intro h; cases h), hl2⟩, ho2, hstr⟩
    have e4 := drain .main t2.strand t3 rfl ha2 rfl
    refine ⟨freed t.owner ++ ([.read .main, .enter .main] ++ t2.strand.flatMap fun _ => [.call .main, .ret .main]), done, fs, ?_, ?_, ?_, ?_, f3⟩
    · intro e he
      simp only [List.mem_append, List.mem_cons, List.not_mem_nil, or_false, List.mem_flatMap] at he
      rcases he with he | (rfl | rfl) | ⟨_, -, rfl | rfl⟩
      · exact freed_ev _ e he
      all_goals rfl
    · rw [run_append, e1, run_append]
      show TD.arrived (((t2.step (.enter .main))).run _) = _
      rw [e3, e4]
      exact f1
    · rw [← harr]; exact f1
    · rw [run_append, e1, run_append]
      show TD.delivered (((t2.step (.enter .main))).run _) = _
      rw [e3, e4]
      exact f2

example : (fresh98.run (upEvs ++ [.arrive (kf 0x123 1), .read .main, .arrive (kf 0x123 2)])).thread = .loop ∧
    (fresh98.run (upEvs ++ [.arrive (kf 0x123 1), .read .main, .arrive (kf 0x123 2)])).stopped = false ∧
    (fresh98.run (upEvs ++ [.arrive (kf 0x123 1), .read .main, .arrive (kf 0x123 2)])).delivered = [] := ⟨rfl, rfl, rfl⟩

/-- C98.  Calls of the listeners do not overlap: for every history, a call for a frame begins only while none is running, and one that is running ends only when the thread that
makes it returns from it. -/
theorem C98_one_at_a_time (junk : Vector Byte 8) (kjunk : KFrame) (es : List Ev) (e : Ev) :
    let s := (TD.fresh junk kjunk).run es
    ((s.step e).delivered ≠ s.delivered → s.active = none ∧ ∃ w f, e = .call w ∧ s.owner = some w ∧ (s.step e).delivered = s.delivered ++ [f] ∧ (s.step e).active = some f) ∧
    (∀ f, s.active = some f → ∃ w, s.owner = some w ∧ ((s.step e).active = some f ∧ (s.step e).owner = some w ∨ e = .ret w)) := by
  intro s
  have hx : s.owner = none → s.active = none := active_owned es _ (fun _ => rfl)
  have hsome : ∀ f, s.active = some f → ∃ w, s.owner = some w := by
    intro f hf
    cases ho : s.owner with
    | none => rw [hx ho] at hf; cases hf
    | some w => exact ⟨w, rfl⟩
  have keep : ∀ s' : TD, s'.delivered = s.delivered → s'.owner = s.owner → s'.active = s.active →
      (s'.delivered ≠ s.delivered → s.active = none ∧ ∃ w f, e = .call w ∧ s.owner = some w ∧ s'.delivered = s.delivered ++ [f] ∧ s'.active = some f) ∧
      (∀ f, s.active = some f → ∃ w, s.owner = some w ∧ (s'.active = some f ∧ s'.owner = some w ∨ e = .ret w)) := by
    intro s' h1 h2 h3
    refine ⟨fun h => absurd h1 h, fun f hf => ?_⟩
    obtain ⟨w, hw⟩ := hsome f hf
    exact ⟨w, hw, .inl ⟨by rw [h3, hf], by rw [h2, hw]⟩⟩
  generalize s = s at *
  cases e with
  | read w =>
    simp only [TD.step]
    split
    · split
      · rename_i e hs hh
        obtain ⟨-, -, -, r4, -, r6, -, -, r9, -⟩ := readDone_spec { s with handlers := hs } e
        exact keep _ (readDone_delivered _ _) r4 r9
      · exact keep _ rfl rfl rfl
    · exact keep _ rfl rfl rfl
  | spawn =>
    simp only [TD.step]
    split
    · exact keep _ (by simp) (by simp) (by simp)
    · exact keep _ rfl rfl rfl
  | init dev lb em fm sys =>
    simp only [TD.step, TD.init]
    repeat' split
    all_goals exact keep _ rfl rfl rfl
  | join sys =>
    simp only [TD.step, TD.joined]
    repeat' split
    all_goals exact keep _ rfl rfl rfl
  | call w =>
    simp only [TD.step]
    split
    · rename_i hc
      split
      · rename_i f fs hs
        refine ⟨fun _ => ⟨hc.2, w, f, rfl, hc.1, rfl, rfl⟩, fun g hg => ?_⟩
        rw [hc.2] at hg; cases hg
      · exact keep _ rfl rfl rfl
    · exact keep _ rfl rfl rfl
  | enter w =>
    simp only [TD.step]
    split
    · rename_i hc
      refine ⟨fun h => absurd rfl h, fun g hg => ?_⟩
      rw [hx hc.2.2.1] at hg; cases hg
    · exact keep _ rfl rfl rfl
  | ret w =>
    simp only [TD.step]
    split
    · rename_i hc
      exact ⟨fun h => absurd rfl h, fun g hg => ⟨w, hc, .inr rfl⟩⟩
    · exact keep _ rfl rfl rfl
  | leave w =>
    simp only [TD.step]
    split
    · rename_i hc
      refine ⟨fun h => absurd rfl h, fun g hg => ?_⟩
      rw [hc.2] at hg; cases hg
    · exact keep _ rfl rfl rfl
  | _ =>
    simp only [TD.step]
    repeat' split
    all_goals exact keep _ rfl rfl rfl

example : ((fresh98.run (upEvs ++ [.arrive (kf 0x123 1), .read .main, .enter (.post 0)])).step (.call (.post 0))).delivered.length = 1 ∧
    (fresh98.run (upEvs ++ [.arrive (kf 0x123 1), .read .main, .enter (.post 0), .call (.post 0), .enter .main, .call .main, .leave (.post 0)])).owner = some (.post 0) ∧
    (fresh98.run (upEvs ++ [.arrive (kf 0x123 1), .read .main, .enter (.post 0), .call (.post 0), .enter .main, .call .main, .leave (.post 0)])).active.isSome = true :=
  ⟨by decide +kernel, by decide +kernel, by decide +kernel⟩

/-- C98 fails: a driver that is shut down and initialised again can lose a frame and deliver the next one twice: the handler of the old read is still there, is run in the
new session with the buffer of the new read, and starts a second chain of reads (two reads are under way from then on). -/
theorem C98_restart_frames_false : ∃ (es : List Ev) (k1 k2 : KFrame), (∀ e ∈ es, isRecover e = false) ∧ k1 ≠ k2 ∧
    (fresh98.run es).arrived = [k1, k2] ∧ (fresh98.run es).strand = [] ∧ (fresh98.run es).handlers = [] ∧ (fresh98.run es).reads = 2 ∧
    ∃ f1 f2, (fresh98.run es).delivered = [f1, f2] ∧ ¬ Received k1 f1 ∧ Received k2 f1 ∧ Received k2 f2 := by
  refine ⟨upEvs ++ [.arrive (kf 0x123 1)] ++ downEvs ++ upEvs ++ [.arrive (kf 0x123 2), .read .main, .read .main, .enter .main, .call .main, .ret .main, .call .main, .ret .main],
    kf 0x123 1, kf 0x123 2, by decide, by decide, rfl, rfl, rfl, rfl, fromKernel (fresh98.d.input) (kf 0x123 2),
    fromKernel (fromKernel (fresh98.d.input) (kf 0x123 2)) (kf 0x123 2), by decide +kernel, ?_, fromKernel_received _ _, fromKernel_received _ _⟩
  rintro ⟨-, -, h, -⟩
  have := h 0 (by decide) (by decide)
  exact absurd this (by decide +kernel)

/-! ## The state -/

private structure Up (fatal : BitVec 32) (s : TD) : Prop where
  mask : s.d.fatalMask = fatal
  sock : s.d.socketOpen = true
  user : s.user = .idle ∨ s.user = .waiting
  thread : (s.thread = .created ∨ s.thread = .checked) ∧ s.d.state.driver = .opened ∨ (s.thread = .begun ∨ s.thread = .loop) ∧ s.d.state.driver = .ready ∧ s.stopped = false
  handlers : ∀ e ∈ s.handlers, e = 0
  buffer : s.handlers ≠ [] → ¬ (s.buffer.canId &&& CAN_ERR_FLAG ≠ 0#32 ∧ s.buffer.canId &&& fatal ≠ 0#32)
  token : s.reads + s.handlers.length = if s.thread = .loop then 1 else 0

private theorem up_step (fatal : BitVec 32) (s : TD) (h : Up fatal s) (e : Ev) (hf : faultless fatal e) :
    Up fatal (s.step e) ∧ (s.isReady = true → (s.step e).isReady = true) := by
  have h0 := h
  obtain ⟨u1, u2, u3, u4, u5, u6, u7⟩ := h
  cases e with
  | fail _ => exact hf.elim
  | shutdown => exact hf.elim
  | recover => exact hf.elim
  | init dev lb em fm sys =>
    simp only [TD.step, TD.init]
    have : s.thread ≠ .none := by
      rcases u4 with ⟨h | h, -⟩ | ⟨h | h, -⟩ <;> rw [h] <;> decide
    rw [if_neg this]
    split
    · exact ⟨⟨u1, u2, u3, u4, u5, u6, u7⟩, fun h => h⟩
    · exact ⟨h0, fun h => h⟩
  | waited t =>
    simp only [TD.step]
    split
    · exact ⟨⟨u1, u2, .inl rfl, u4, u5, u6, u7⟩, fun h => h⟩
    · exact ⟨h0, fun h => h⟩
  | close =>
    simp only [TD.step]
    split
    · rename_i r hr; rw [hr] at u3; rcases u3 with h | h <;> cases h
    · exact ⟨h0, fun h => h⟩
  | stop =>
    simp only [TD.step]
    split
    · rename_i r hr; rw [hr] at u3; rcases u3 with h | h <;> cases h
    · exact ⟨h0, fun h => h⟩
  | join sys =>
    simp only [TD.step]
    split
    · rename_i r hr; rw [hr] at u3; rcases u3 with h | h <;> cases h
    · exact ⟨h0, fun h => h⟩
  | begin =>
    simp only [TD.step]
    split
    · rename_i hc
      have hsn := setNotReady_eq s.d
      rw [u2] at hsn
      have hsn' : s.d.setNotReady.state.driver = .opened := hsn
      rw [if_pos hsn']
      refine ⟨⟨by simp [u1], by simp [u2], u3, .inl ⟨.inr rfl, hsn'⟩, u5, u6, by rw [hc] at u7; exact u7⟩, ?_⟩
      intro hr
      rcases u4 with ⟨-, h⟩ | ⟨h, -⟩
      · simp [TD.isReady, h] at hr
      · rw [hc] at h; rcases h with h | h <;> cases h
    · exact ⟨h0, fun h => h⟩
  | reset =>
    simp only [TD.step]
    split
    · rename_i hc
      exact ⟨⟨by simp [u1], by simp [u2], u3, .inr ⟨.inl rfl, by simp, rfl⟩, u5, u6, by rw [hc] at u7; exact u7⟩, fun _ => by simp [TD.isReady]⟩
    · exact ⟨h0, fun h => h⟩
  | spawn =>
    simp only [TD.step]
    split
    · rename_i hc
      rcases u4 with ⟨h | h, -⟩ | ⟨-, h1, h2⟩
      · rw [hc] at h; cases h
      · rw [hc] at h; cases h
      · unfold TD.trigger
        rw [if_pos u2]
        exact ⟨⟨u1, u2, u3, .inr ⟨.inr rfl, h1, h2⟩, u5, u6, by rw [hc] at u7; simp at u7 ⊢; simp [u7]⟩, fun h => h⟩
    · exact ⟨h0, fun h => h⟩
  | endLoop =>
    simp only [TD.step]
    rw [if_neg]
    · exact ⟨h0, fun h => h⟩
    · rintro ⟨h1, h2⟩
      have := ((canWork_main s).1 h2).2
      rcases u4 with ⟨h | h, -⟩ | ⟨-, -, h⟩
      · rw [this] at h; cases h
      · rw [this] at h; cases h
      · rw [h1] at h; cases h
  | arrive k =>
    simp only [TD.step]
    split
    · rename_i hc
      refine ⟨⟨u1, u2, u3, u4, ?_, fun _ => hf, by
        have := hc.2
        rw [List.length_append, ← u7]
        simp only [List.length_cons, List.length_nil]
        omega⟩, fun h => h⟩
      intro e he
      simp only [List.mem_append, List.mem_cons, List.not_mem_nil, or_false] at he
      rcases he with he | he
      · exact u5 e he
      · exact he
    · exact ⟨h0, fun h => h⟩
  | read w =>
    simp only [TD.step]
    split
    · split
      · rename_i e hs hh
        have he : e = 0 := u5 e (by rw [hh]; simp)
        subst he
        have hb := u6 (by rw [hh]; simp)
        have hd : (s.d.readOk s.buffer).state.driver = s.d.state.driver := by rw [readOk_driver, u1, if_neg hb]
        unfold TD.readDone
        rw [if_pos rfl]
        unfold TD.trigger
        dsimp only
        rw [readOk_open, u2, if_pos rfl]
        refine ⟨⟨by simp [readOk_mask, u1], by simp [readOk_open, u2], u3, by simpa [hd] using u4, fun e he => u5 e (by rw [hh]; simp [he]), fun _ => hb, by
          rw [hh] at u7
          simp only [List.length_cons] at u7
          dsimp only
          rw [← u7]
          omega⟩, ?_⟩
        simp only [TD.isReady, hd]
        exact fun h => h
      · exact ⟨h0, fun h => h⟩
    · exact ⟨h0, fun h => h⟩
  | call w =>
    simp only [TD.step]
    split
    · split
      · exact ⟨⟨u1, u2, u3, u4, u5, u6, u7⟩, fun h => h⟩
      · exact ⟨h0, fun h => h⟩
    · exact ⟨h0, fun h => h⟩
  | send f ec =>
    simp only [TD.step]
    split
    · rename_i b d hd
      obtain ⟨s1, s2, s3⟩ := send_spec _ _ _ _ _ hd
      have s3' : d.state.driver = s.d.state.driver := by
        rcases s3 with s3 | ⟨s3, -⟩
        · exact s3
        · exact absurd hf s3
      refine ⟨⟨by rw [s2]; exact u1, by rw [s1]; exact u2, u3, by simpa [s3'] using u4, u5, u6, u7⟩, ?_⟩
      simp only [TD.isReady, s3']
      exact fun h => h
    · exact ⟨h0, fun h => h⟩
  | _ =>
    simp only [TD.step]
    split
    · exact ⟨⟨u1, u2, u3, u4, u5, u6, u7⟩, fun h => h⟩
    · exact ⟨h0, fun h => h⟩

private theorem up_run (fatal : BitVec 32) (es : List Ev) : ∀ s : TD, Up fatal s → (∀ e ∈ es, faultless fatal e) →
    Up fatal (s.run es) ∧ (s.isReady = true → (s.run es).isReady = true) := by
  induction es with
  | nil => intro s h _; exact ⟨h, fun h => h⟩
  | cons e es ih =>
    intro s h hf
    obtain ⟨a, b⟩ := up_step fatal s h e (hf e (by simp))
    obtain ⟨c, d⟩ := ih _ a (fun e he => hf e (by simp [he]))
    exact ⟨c, fun h => d (b h)⟩

/-- C98.  After the socket was set up on a driver without left-overs, and while there is no fault and no shutdown, the driver becomes ready (its thread needs two steps) and
stays ready; once its thread runs, it always waits for the next frame or has one in hand. -/
theorem C98_ready_partial (s : TD) (hq : Quiet s) (dev : Text) (hd : dev.length < 16) (lb : Bool) (em fm : BitVec 32) (es fs : List Ev)
    (hes : ∀ e ∈ es, faultless fm e) (hfs : ∀ e ∈ fs, faultless fm e) :
    ((s.run (.init dev lb em fm .ok :: es)).isReady = true → (s.run (.init dev lb em fm .ok :: es ++ fs)).isReady = true) ∧
    (s.run (.init dev lb em fm .ok :: es ++ [.begin, .reset])).isReady = true ∧
    ((s.run (.init dev lb em fm .ok :: es)).thread = .loop →
      (s.run (.init dev lb em fm .ok :: es)).reads = 1 ∨ (s.run (.init dev lb em fm .ok :: es)).handlers = [0]) := by
  have hup : Up fm (s.step (.init dev lb em fm .ok)) := by
    have hi : s.d.init dev lb em fm .ok = .ok (true, (((({ s.d with loopback := lb, errorMask := em, fatalMask := fm, socketOpen := true } : Driver).setErrorCode 0).setInternalError 0).setDriverState .opened)) := by
      unfold Driver.init
      rw [if_pos hq.closed, if_neg (by omega)]
    simp only [TD.step, TD.init, hq.user, hq.thread, if_true, hi]
    refine ⟨by simp, by simp, .inr rfl, .inl ⟨.inl rfl, by simp⟩, ?_, ?_, by simp [hq.reads, hq.handlers]⟩
    · simp [hq.handlers]
    · intro h; exact absurd hq.handlers h
  obtain ⟨a, -⟩ := up_run fm es _ hup hes
  obtain ⟨-, b⟩ := up_run fm fs _ a hfs
  rw [run_append, run_append]
  refine ⟨b, ?_, ?_⟩
  rotate_left
  · show ((s.step (.init dev lb em fm .ok)).run es).thread = .loop → _
    intro hl
    have ht := a.token
    rw [if_pos hl] at ht
    show ((s.step (.init dev lb em fm .ok)).run es).reads = 1 ∨ ((s.step (.init dev lb em fm .ok)).run es).handlers = [0]
    have h5 := a.handlers
    generalize (s.step (.init dev lb em fm .ok)).run es = t at *
    match hh : t.handlers with
    | [] => rw [hh] at ht; exact .inl ht
    | [e] => rw [h5 e (by rw [hh]; simp)]; exact .inr rfl
    | _ :: _ :: _ => rw [hh] at ht; simp at ht; omega
  show (((s.step (.init dev lb em fm .ok)).run es).run [.begin, .reset]).isReady = true
  generalize (s.step (.init dev lb em fm .ok)).run es = t at *
  obtain ⟨u1, u2, u3, u4, u5, u6, u7⟩ := a
  have hsn := setNotReady_eq t.d
  rw [u2] at hsn
  have hsn' : t.d.setNotReady.state.driver = .opened := hsn
  simp only [TD.run, TD.step]
  rcases u4 with ⟨h | h, -⟩ | ⟨h | h, h1, -⟩
  · rw [if_pos h, if_pos hsn']; simp [TD.isReady]
  · simp [h, TD.isReady]
  · simp [h, TD.isReady, h1]
  · simp [h, TD.isReady, h1]

example : Quiet fresh98 ∧ "can0".toList.length < 16 ∧ faultless 0x40 (.arrive (kf 0x20000004 1)) ∧ ¬ faultless 0x40 (.arrive (kf 0x20000040 1)) ∧
    (fresh98.run (upEvs ++ [.arrive (kf 0x20000004 1), .read .main])).isReady = true ∧ (fresh98.run (upEvs ++ [.arrive (kf 0x20000040 1), .read .main])).isReady = false :=
  ⟨C98_new_quiet _ _, by decide, by unfold faultless; decide, by unfold faultless; decide, by decide +kernel, by decide +kernel⟩

/-- C98 fails: after a shutdown and a successful second initialisation the driver can fall out of the ready state without any fault: the cancelled read of the first session is
reported in the second one.  It does not become ready again by itself. -/
theorem C98_restart_ready_false : ∃ es : List Ev, (∀ e ∈ es, isRecover e = false ∧ ∀ x, e ≠ .fail x) ∧ (fresh98.run es).results = [.init true, .shutdown, .init true] ∧
    (fresh98.run es).isReady = true ∧ ((fresh98.run es).step (.read .main)).isReady = false ∧ ((fresh98.run es).step (.read .main)).d.socketOpen = true := by
  refine ⟨upEvs ++ downEvs ++ upEvs, ?_, by decide +kernel, by decide +kernel, by decide +kernel, by decide +kernel⟩
  intro e he
  simp only [upEvs, downEvs, initEv, List.mem_append, List.mem_cons, List.not_mem_nil, or_false] at he
  rcases he with ((rfl | rfl | rfl | rfl | rfl) | rfl | rfl | rfl | rfl | rfl | rfl) | rfl | rfl | rfl | rfl | rfl
  all_goals exact ⟨rfl, fun _ h => by cases h⟩

/-- C98.  When an initialisation returns true the driver is ready. -/
theorem C98_init (s : TD) (e : Ev) (h : (s.step e).results = s.results ++ [.init true]) : (s.step e).isReady = true := by
  have hne : ∀ (a b : Result), s.results ++ [a] = s.results ++ [b] → a = b := by
    intro a b h
    have := List.append_cancel_left h
    exact (List.cons.inj this).1
  have hne0 : ∀ (a : Result), s.results ≠ s.results ++ [a] := by
    intro a h
    have := congrArg List.length h
    simp at this
  cases e with
  | init dev lb em fm sys =>
    simp only [TD.step, TD.init] at h ⊢
    by_cases hu : s.user = .idle
    · rw [if_pos hu] at h ⊢
      by_cases ht : s.thread = .none
      · rw [if_pos ht] at h ⊢
        cases hd : s.d.init dev lb em fm sys with
        | ok p =>
          obtain ⟨b, d⟩ := p
          rw [hd] at h
          cases b with
          | true => exact absurd h (hne0 _)
          | false =>
            have := hne _ _ h
            simp only [Result.init.injEq] at this
            exact this
        | throws x => rw [hd] at h; exact absurd h (hne0 _)
        | ub => rw [hd] at h; exact absurd h (hne0 _)
      · rw [if_neg ht] at h ⊢
        have := hne _ _ h
        simp only [Result.init.injEq] at this
        exact this
    · rw [if_neg hu] at h; exact absurd h (hne0 _)
  | waited t =>
    simp only [TD.step] at h ⊢
    split at h
    · rename_i hc
      rw [if_pos hc]
      have := hne _ _ h
      cases t with
      | true => simp at this
      | false =>
        rcases hc.2 with h | h
        · cases h
        · exact h
    · exact absurd h (hne0 _)
  | read w =>
    exfalso
    simp only [TD.step] at h
    split at h
    · split at h
      · rename_i e hs hh
        obtain ⟨-, -, -, -, -, -, r7, -⟩ := readDone_spec { s with handlers := hs } e
        rw [r7] at h
        exact hne0 _ h
      · exact hne0 _ h
    · exact hne0 _ h
  | spawn =>
    exfalso
    simp only [TD.step] at h
    split at h
    · rw [trigger_results] at h; exact hne0 _ h
    · exact hne0 _ h
  | join sys =>
    exfalso
    simp only [TD.step, TD.joined] at h
    split at h
    · split at h
      · split at h
        · split at h
          · have := hne _ _ h; cases this
          · exact hne0 _ h
        · have := hne _ _ h; cases this
      · exact hne0 _ h
    · exact hne0 _ h
  | recover =>
    exfalso
    simp only [TD.step] at h
    split at h
    · split at h
      · have := hne _ _ h; cases this
      · exact hne0 _ h
    · exact hne0 _ h
  | _ =>
    exfalso
    simp only [TD.step] at h
    repeat' split at h
    all_goals exact hne0 _ h

example : ((fresh98.run [initEv, .begin, .reset]).step (.waited false)).results = (fresh98.run [initEv, .begin, .reset]).results ++ [.init true] := by decide +kernel

/-- C98 fails: an initialisation that returned false because of a time-out goes on: the driver becomes ready afterwards. -/
theorem C98_init_late_false : ∃ es : List Ev, (fresh98.run es).results = [.init false] ∧ (fresh98.run es).isReady = false ∧
    (fresh98.run (es ++ [.begin, .reset])).isReady = true :=
  ⟨[initEv, .waited true], by decide +kernel, by decide +kernel, by decide +kernel⟩

/-! ## Shutting down -/

private theorem shutdown_closed (junk : Vector Byte 8) (kjunk : KFrame) (es fs : List Ev) (hes : ∀ e ∈ es ++ fs, isRecover e = false) (hfs : ∀ e ∈ fs, isInit e = false)
    (hs : ∃ (x : TD) (sys : SysInit), x.step (.join sys) = (TD.fresh junk kjunk).run es ∧ ((TD.fresh junk kjunk).run es).results = x.results ++ [.shutdown]) :
    ((TD.fresh junk kjunk).run (es ++ fs)).d.state.driver = .closed ∧ ((TD.fresh junk kjunk).run (es ++ fs)).d.socketOpen = false ∧
    ((TD.fresh junk kjunk).run (es ++ fs)).thread = .none := by
  have hnone : ((TD.fresh junk kjunk).run es).thread = .none := by
    obtain ⟨x, sys, h1, h2⟩ := hs
    rw [← h1] at h2 ⊢
    have hne0 : x.results ≠ x.results ++ [.shutdown] := by
      intro h
      have := congrArg List.length h
      simp at this
    simp only [TD.step] at h2 ⊢
    split
    · rename_i r hr
      rw [hr] at h2
      dsimp only at h2
      split
      · unfold TD.joined
        dsimp only
        split
        · split <;> rfl
        · rfl
      · rename_i ht
        rw [if_neg ht] at h2
        exact absurd h2 hne0
    · rename_i hr
      split at h2
      · rename_i r hr'; exact absurd hr' (hr r)
      · exact absurd h2 hne0
  have hstep : ∀ (fs : List Ev) (s : TD), (∀ e ∈ fs, isInit e = false) → s.thread = .none → (s.run fs).thread = .none := by
    intro fs
    induction fs with
    | nil => intro s _ h; exact h
    | cons e fs ih =>
      intro s hf h
      refine ih _ (fun e he => hf e (by simp [he])) ?_
      have hi := hf e (by simp)
      cases e with
      | init dev lb em fm sys => cases hi
      | read w =>
        simp only [TD.step]
        split
        · split
          · rename_i e hs hh
            rw [(readDone_spec { s with handlers := hs } e).1]; exact h
          · exact h
        · exact h
      | spawn => simp only [TD.step]; rw [if_neg (by rw [h]; decide)]; exact h
      | begin => simp only [TD.step]; rw [if_neg (by rw [h]; decide)]; exact h
      | reset => simp only [TD.step]; rw [if_neg (by rw [h]; decide)]; exact h
      | endLoop =>
        simp only [TD.step]
        rw [if_neg]
        · exact h
        · rintro ⟨-, h2⟩
          have := ((canWork_main s).1 h2).2
          rw [h] at this
          cases this
      | join sys =>
        simp only [TD.step, TD.joined]
        repeat' split
        all_goals first | exact h | rfl
      | _ =>
        simp only [TD.step]
        repeat' split
        all_goals exact h
  have hg := glob_run (es ++ fs) _ (glob_fresh junk kjunk) hes
  have ht : ((TD.fresh junk kjunk).run (es ++ fs)).thread = .none := by rw [run_append]; exact hstep fs _ hfs hnone
  exact ⟨(hg.none (.inl ht)).1, (hg.none (.inl ht)).2, ht⟩

/-- C98.  After a shutdown has returned, until the next initialisation, the driver is closed: its state, its socket and its thread. -/
theorem C98_shutdown (junk : Vector Byte 8) (kjunk : KFrame) (es : List Ev) (sys : SysInit) (fs : List Ev) (hr : ∀ e ∈ es ++ fs, isRecover e = false) (hi : ∀ e ∈ fs, isInit e = false)
    (hs : ((TD.fresh junk kjunk).run (es ++ [.join sys])).results = ((TD.fresh junk kjunk).run es).results ++ [.shutdown]) :
    ((TD.fresh junk kjunk).run (es ++ [.join sys] ++ fs)).d.state.driver = .closed ∧ ((TD.fresh junk kjunk).run (es ++ [.join sys] ++ fs)).d.socketOpen = false ∧
    ((TD.fresh junk kjunk).run (es ++ [.join sys] ++ fs)).thread = .none := by
  refine shutdown_closed junk kjunk (es ++ [.join sys]) fs ?_ hi ⟨(TD.fresh junk kjunk).run es, sys, ?_, hs⟩
  · intro e he
    simp only [List.mem_append, List.mem_cons, List.not_mem_nil, or_false] at he
    rcases he with (he | rfl) | he
    · exact hr e (by simp [he])
    · rfl
    · exact hr e (by simp [he])
  · rw [run_append]; rfl

example : (fresh98.run (upEvs ++ [.shutdown, .close, .stop, .endLoop] ++ [.join .ok])).results = (fresh98.run (upEvs ++ [.shutdown, .close, .stop, .endLoop])).results ++ [.shutdown] ∧
    (∀ e ∈ upEvs ++ [.shutdown, .close, .stop, .endLoop], isRecover e = false) := ⟨by decide +kernel, by decide⟩

/-- C98.  A shutdown of a driver that is ready cannot get stuck: whatever the threads have done since, they can go on (without anything from outside; listeners have
to return) until it has returned. -/
theorem C98_shutdown_returns_partial (junk : Vector Byte 8) (kjunk : KFrame) (es fs : List Ev) (hr : ∀ e ∈ es ++ fs, isRecover e = false)
    (hready : ((TD.fresh junk kjunk).run es).isReady = true) (hidle : ((TD.fresh junk kjunk).run es).user = .idle) :
    ∃ ws : List Ev, (∀ e ∈ ws, ownStep e = true) ∧
      ((TD.fresh junk kjunk).run es).results ++ [.shutdown] <+: ((TD.fresh junk kjunk).run (es ++ .shutdown :: fs ++ ws)).results := by
  have hg := glob_run es _ (glob_fresh junk kjunk) (fun e he => hr e (by simp [he]))
  have hact := active_owned es (TD.fresh junk kjunk) (fun _ => rfl)
  simp only [run_append]
  refine shutdown_returns _ fs hg hact (fun e he => hr e (by simp [he])) ?_ hidle
  rcases hg.ready (by simpa [TD.isReady] using hready) with h | h
  · exact .inl h
  · exact .inr (.inl h)

example : (fresh98.run upEvs).isReady = true ∧ (fresh98.run upEvs).user = .idle := ⟨by decide +kernel, rfl⟩

/-- C98 fails: a shutdown while the thread is starting (after an initialisation that timed out) can hang for ever: the thread makes the event loop runnable again after it was
stopped. -/
theorem C98_shutdown_hangs_false : ∃ es : List Ev, (∀ e ∈ es, isRecover e = false) ∧ (fresh98.run es).user = .joining false ∧
    ∀ fs : List Ev, (fresh98.run (es ++ fs)).user = .joining false ∧ (fresh98.run (es ++ fs)).results = (fresh98.run es).results := by
  refine ⟨[initEv, .waited true, .begin, .shutdown, .close, .stop, .reset], by decide, by decide +kernel, ?_⟩
  intro fs
  rw [run_append]
  have h0 : ∃ t : TD, fresh98.run [initEv, .waited true, .begin, .shutdown, .close, .stop, .reset] = t ∧ t.user = .joining false ∧ (t.thread = .begun ∨ t.thread = .loop) ∧ t.stopped = false :=
    ⟨_, rfl, by decide +kernel, .inl (by decide +kernel), by decide +kernel⟩
  obtain ⟨t, ht, h1, h2, h3⟩ := h0
  rw [ht]
  clear ht
  exact hangs t fs t h1 h2 h3 rfl

/-- C98 fails: destroying a driver whose thread runs never ends: the destructor waits for the thread without stopping the event loop, for every driver that is ready. -/
theorem C98_destroy_false (junk : Vector Byte 8) (kjunk : KFrame) (es fs : List Ev) (hr : ∀ e ∈ es, isRecover e = false) (hready : ((TD.fresh junk kjunk).run es).isReady = true)
    (hopen : ((TD.fresh junk kjunk).run es).d.socketOpen = true) : (((TD.fresh junk kjunk).run es).destroy.run fs).user = .joining false := by
  have hg := glob_run es _ (glob_fresh junk kjunk) hr
  generalize (TD.fresh junk kjunk).run es = s at *
  have hth := hg.ready (by simpa [TD.isReady] using hready)
  refine (hangs s.destroy fs s.destroy rfl hth ?_ rfl).1
  cases hs : s.stopped with
  | false => exact hs
  | true => have := hg.stopped hth hs; rw [hopen] at this; cases this

example : (fresh98.run upEvs).isReady = true ∧ (fresh98.run upEvs).d.socketOpen = true := ⟨by decide +kernel, rfl⟩

/-- C98 fails: listeners can be called after a shutdown has returned: the second thread inside the event loop is not waited for. -/
theorem C98_after_shutdown_false : ∃ es : List Ev, (∀ e ∈ es, isRecover e = false) ∧ (fresh98.run es).results = [.init true, .shutdown] ∧
    (fresh98.run es).delivered = [] ∧ ((fresh98.run es).step (.call (.post 0))).delivered.length = 1 :=
  ⟨upEvs ++ [.arrive (kf 0x123 1), .read .main, .enter (.post 0), .shutdown, .close, .stop, .endLoop, .join .ok], by decide, by decide +kernel, by decide +kernel, by decide +kernel⟩

/-- C98 (missing: that a shutdown waits for all threads).  Once the thread and the second thread have ended, no listener is called before the next initialisation. -/
theorem C98_after_shutdown_partial (junk : Vector Byte 8) (kjunk : KFrame) (es fs : List Ev) (hes : ∀ e ∈ es ++ fs, isRecover e = false) (hfs : ∀ e ∈ fs, isInit e = false)
    (h1 : ((TD.fresh junk kjunk).run es).thread = .none) (h2 : ((TD.fresh junk kjunk).run es).posts = []) :
    ((TD.fresh junk kjunk).run (es ++ fs)).delivered = ((TD.fresh junk kjunk).run es).delivered := by
  have hg := glob_run es _ (glob_fresh junk kjunk) (fun e he => hes e (by simp [he]))
  rw [run_append]
  generalize (TD.fresh junk kjunk).run es = s at *
  have ho : s.owner = none := by
    cases h : s.owner with
    | none => rfl
    | some w =>
      cases w with
      | main => have := (hg.owner _ h).1 rfl; rw [h1] at this; cases this
      | post n => have := (hg.owner _ h).2 n rfl; rw [h2] at this; cases this
  have : ∀ (fs : List Ev) (x : TD), (∀ e ∈ fs, isInit e = false) → x.thread = .none → x.posts = [] → x.owner = none → (x.run fs).delivered = x.delivered := by
    intro fs
    induction fs with
    | nil => intro x _ _ _ _; rfl
    | cons e fs ih =>
      intro x hi h1 h2 h3
      have hw : ∀ w, x.canWork w = false := by
        intro w
        cases w with
        | main =>
          cases h : x.canWork .main with
          | false => rfl
          | true => have := ((canWork_main x).1 h).2; rw [h1] at this; cases this
        | post n =>
          cases h : x.canWork (.post n) with
          | false => rfl
          | true => have := ((canWork_post x n).1 h).2; rw [h2] at this; cases this
      have key : (x.step e).delivered = x.delivered ∧ (x.step e).thread = .none ∧ (x.step e).posts = [] ∧ (x.step e).owner = none := by
        have hie := hi e (by simp)
        cases e with
        | init dev lb em fm sys => cases hie
        | spawn => simp only [TD.step]; rw [if_neg (by rw [h1]; decide)]; exact ⟨rfl, h1, h2, h3⟩
        | begin => simp only [TD.step]; rw [if_neg (by rw [h1]; decide)]; exact ⟨rfl, h1, h2, h3⟩
        | reset => simp only [TD.step]; rw [if_neg (by rw [h1]; decide)]; exact ⟨rfl, h1, h2, h3⟩
        | endLoop => simp only [TD.step, hw]; simp [h1, h2, h3]
        | exit n => simp only [TD.step, hw]; simp [h1, h2, h3]
        | read w => simp only [TD.step, hw]; simp [h1, h2, h3]
        | enter w => simp only [TD.step, hw]; simp [h1, h2, h3]
        | call w => simp only [TD.step, h3]; simp [h1, h2, h3]
        | ret w => simp only [TD.step, h3]; simp [h1, h2, h3]
        | leave w => simp only [TD.step, h3]; simp [h1, h2, h3]
        | join sys =>
          simp only [TD.step, TD.joined]
          repeat' split
          all_goals exact ⟨rfl, (by first | exact h1 | rfl), h2, h3⟩
        | _ =>
          simp only [TD.step]
          repeat' split
          all_goals exact ⟨rfl, h1, h2, h3⟩
      obtain ⟨k1, k2, k3, k4⟩ := key
      have := ih _ (fun e he => hi e (by simp [he])) k2 k3 k4
      show ((x.step e).run fs).delivered = _
      rw [this, k1]
  exact this fs s hfs h1 h2 ho

example : (fresh98.run (upEvs ++ [.arrive (kf 0x123 1), .read .main] ++ downEvs)).thread = .none ∧ (fresh98.run (upEvs ++ [.arrive (kf 0x123 1), .read .main] ++ downEvs)).posts = [] ∧
    (fresh98.run (upEvs ++ [.arrive (kf 0x123 1), .read .main] ++ downEvs)).strand.length = 1 := ⟨by decide +kernel, by decide +kernel, by decide +kernel⟩

/-! ## Recovering -/

/-- C98 fails: `recover` of a driver with a thread returns true, but starts no thread; the driver is never ready again, whatever is called afterwards. -/
theorem C98_recover_false : ∃ es : List Ev, (fresh98.run es).results = [.init true, .recover true] ∧ (fresh98.run es).thread = .none ∧
    ∀ fs : List Ev, (fresh98.run (es ++ fs)).isReady = false := by
  refine ⟨upEvs ++ [.fail 100, .read .main, .recover, .close, .stop, .endLoop, .exit 0, .join .ok], by decide +kernel, by decide +kernel, ?_⟩
  intro fs
  rw [run_append]
  obtain ⟨t, ht, h1, h2, h3, h4⟩ : ∃ t : TD, fresh98.run (upEvs ++ [.fail 100, .read .main, .recover, .close, .stop, .endLoop, .exit 0, .join .ok]) = t ∧
      t.thread = .none ∧ t.posts = [] ∧ t.user = .idle ∧ t.d.state.driver = .opened :=
    ⟨_, rfl, by decide +kernel, by decide +kernel, by decide +kernel, by decide +kernel⟩
  rw [ht]
  clear ht
  have : ∀ (fs : List Ev) (x : TD), x.thread = .none → x.posts = [] → x.user ≠ .waiting → x.d.state.driver = .opened → (x.run fs).isReady = false := by
    intro fs
    induction fs with
    | nil => intro x _ _ _ h; simp [TD.run, TD.isReady, h]
    | cons e fs ih =>
      intro x h1 h2 h3 h4
      have hinit : ∀ dev lb em fm sys b d, x.d.init dev lb em fm sys = .ok (b, d) → d = x.d ∧ b = false := by
        intro dev lb em fm sys b d h
        have := (init_spec _ _ _ _ _ _ _ _ h).2 (by rw [h4]; decide)
        rw [h4] at this
        exact ⟨this.1, this.2⟩
      have hw : ∀ w, x.canWork w = false := by
        intro w
        cases w with
        | main =>
          cases h : x.canWork .main with
          | false => rfl
          | true => have := ((canWork_main x).1 h).2; rw [h1] at this; cases this
        | post n =>
          cases h : x.canWork (.post n) with
          | false => rfl
          | true => have := ((canWork_post x n).1 h).2; rw [h2] at this; cases this
      have key : (x.step e).thread = .none ∧ (x.step e).posts = [] ∧ (x.step e).user ≠ .waiting ∧ (x.step e).d.state.driver = .opened := by
        cases e with
        | init dev lb em fm sys =>
          simp only [TD.step, TD.init, h1, if_true]
          split
          · split
            · rename_i d hd; exact absurd (hinit _ _ _ _ _ _ _ hd).2 (by decide)
            · rename_i d hd; rw [(hinit _ _ _ _ _ _ _ hd).1]; exact ⟨rfl, h2, h3, h4⟩
            · exact ⟨h1, h2, h3, h4⟩
          · exact ⟨h1, h2, h3, h4⟩
        | waited t => simp only [TD.step]; rw [if_neg (fun h => h3 h.1)]; exact ⟨h1, h2, h3, h4⟩
        | spawn => simp only [TD.step]; rw [if_neg (by rw [h1]; decide)]; exact ⟨h1, h2, h3, h4⟩
        | begin => simp only [TD.step]; rw [if_neg (by rw [h1]; decide)]; exact ⟨h1, h2, h3, h4⟩
        | reset => simp only [TD.step]; rw [if_neg (by rw [h1]; decide)]; exact ⟨h1, h2, h3, h4⟩
        | endLoop => simp only [TD.step, hw]; simp [h1, h2, h3, h4]
        | exit n => simp only [TD.step, hw]; simp [h1, h2, h3, h4]
        | read w => simp only [TD.step, hw]; simp [h1, h2, h3, h4]
        | enter w => simp only [TD.step, hw]; simp [h1, h2, h3, h4]
        | join sys =>
          simp only [TD.step]
          split
          · rw [if_pos (.inl h1)]
            unfold TD.joined
            dsimp only
            split
            · split
              · rename_i b d hd
                rw [(hinit _ _ _ _ _ _ _ hd).1]
                exact ⟨rfl, h2, (fun h => nomatch h), h4⟩
              · exact ⟨rfl, h2, (fun h => nomatch h), h4⟩
            · exact ⟨rfl, h2, (fun h => nomatch h), h4⟩
          · exact ⟨h1, h2, h3, h4⟩
        | close =>
          simp only [TD.step]
          split
          · split
            · exact ⟨h1, h2, (fun h => nomatch h), h4⟩
            · exact ⟨h1, h2, (fun h => nomatch h), h4⟩
          · exact ⟨h1, h2, h3, h4⟩
        | stop =>
          simp only [TD.step]
          split
          · exact ⟨h1, h2, (fun h => nomatch h), h4⟩
          · exact ⟨h1, h2, h3, h4⟩
        | shutdown =>
          simp only [TD.step]
          split
          · exact ⟨h1, h2, (fun h => nomatch h), h4⟩
          · exact ⟨h1, h2, h3, h4⟩
        | recover =>
          simp only [TD.step]
          split
          · split
            · exact ⟨h1, h2, h3, h4⟩
            · exact ⟨h1, h2, (fun h => nomatch h), h4⟩
          · exact ⟨h1, h2, h3, h4⟩
        | send f ec =>
          simp only [TD.step]
          split
          · rename_i b d hd
            obtain ⟨-, -, s3⟩ := send_spec _ _ _ _ _ hd
            refine ⟨h1, h2, h3, ?_⟩
            rcases s3 with s3 | ⟨-, s3, -⟩
            · rw [← h4]; exact s3
            · rw [h4] at s3; cases s3
          · exact ⟨h1, h2, h3, h4⟩
        | _ =>
          simp only [TD.step]
          repeat' split
          all_goals exact ⟨h1, h2, h3, h4⟩
      exact ih _ key.1 key.2.1 key.2.2.1 key.2.2.2
  exact this fs t h1 h2 (by rw [h3]; exact fun h => nomatch h) h4

end Verif.Props
