import Verif.Spec.Threaded
import Verif.Lemmas.Driver

/-!
# Lemmas about the driver and its threads
-/

set_option linter.unusedSimpArgs false

namespace Verif.Thr
open Verif Verif.Drv Verif.Spec Verif.Spec.Thr

theorem run_append (es fs : List Ev) (s : TD) : s.run (es ++ fs) = (s.run es).run fs := by
  induction es generalizing s with
  | nil => rfl
  | cons e es ih => exact ih _

theorem setNotReady_eq (d : Driver) : d.setNotReady.state.driver = if d.socketOpen then .opened else .closed := by
  simp [Driver.setNotReady]

@[simp] theorem setNotReady_open (d : Driver) : d.setNotReady.socketOpen = d.socketOpen := by simp [Driver.setNotReady]

theorem readOk_input (d : Driver) (k : KFrame) : (d.readOk k).input = fromKernel d.input k := by
  unfold Driver.readOk Driver.setNotReady Driver.setDriverState Driver.setInternalError
  dsimp only
  repeat' split
  all_goals rfl

theorem readOk_open (d : Driver) (k : KFrame) : (d.readOk k).socketOpen = d.socketOpen := by
  unfold Driver.readOk
  dsimp only
  split <;> simp

theorem readOk_mask (d : Driver) (k : KFrame) : (d.readOk k).fatalMask = d.fatalMask := by
  unfold Driver.readOk
  dsimp only
  split <;> simp

theorem readOk_driver (d : Driver) (k : KFrame) :
    (d.readOk k).state.driver = if k.canId &&& CAN_ERR_FLAG ≠ 0#32 ∧ k.canId &&& d.fatalMask ≠ 0#32 then (if d.socketOpen then .opened else .closed) else d.state.driver := by
  unfold Driver.readOk
  dsimp only
  split
  · simp [setNotReady_eq]
  · rfl

theorem readError_driver (d : Driver) (e : Int) : (d.readError e).state.driver = if d.socketOpen then .opened else .closed := by
  simp [Driver.readError, setNotReady_eq]

theorem readError_open (d : Driver) (e : Int) : (d.readError e).socketOpen = d.socketOpen := by
  simp [Driver.readError]

theorem readError_mask (d : Driver) (e : Int) : (d.readError e).fatalMask = d.fatalMask := by
  simp [Driver.readError]

theorem runEnd_driver (d : Driver) (e : Int) : (d.runEnd e).state.driver = if d.socketOpen then .opened else .closed := by
  simp [Driver.runEnd, setNotReady_eq]

theorem runEnd_open (d : Driver) (e : Int) : (d.runEnd e).socketOpen = d.socketOpen := by
  simp [Driver.runEnd]

theorem send_spec (d d' : Driver) (f : Frame) (ec : Int) (b : Bool) (h : d.send f ec = .ok (b, d')) :
    d'.socketOpen = d.socketOpen ∧ d'.fatalMask = d.fatalMask ∧
    (d'.state.driver = d.state.driver ∨ (ec ≠ 0 ∧ d.state.driver = .ready ∧ d'.state.driver = if d.socketOpen then .opened else .closed)) := by
  unfold Driver.send at h
  split at h
  · rename_i hr
    split at h
    · split at h
      · rename_i hec
        cases h
        refine ⟨by simp, by simp, .inr ⟨hec, hr, by simp [setNotReady_eq]⟩⟩
      · cases h
        exact ⟨rfl, rfl, .inl rfl⟩
    · cases h
    · cases h
  · cases h
    exact ⟨rfl, rfl, .inl rfl⟩

theorem init_spec (d d' : Driver) (dev : Text) (lb : Bool) (em fm : BitVec 32) (sys : SysInit) (b : Bool) (h : d.init dev lb em fm sys = .ok (b, d')) :
    (d.state.driver = .closed → (b = true ∧ d'.socketOpen = true ∧ d'.state.driver = .opened ∧ d'.fatalMask = fm) ∨
      (b = false ∧ d'.socketOpen = d.socketOpen ∧ d'.state.driver = .closed)) ∧
    (d.state.driver ≠ .closed → d' = d ∧ b = decide (d.state.driver = .ready)) := by
  unfold Driver.init at h
  split at h
  · rename_i hc
    split at h
    · cases h
    · refine ⟨fun _ => ?_, fun hn => absurd hc hn⟩
      cases sys with
      | fail c => cases h; exact .inr ⟨rfl, by simp, by simp [hc]⟩
      | ok => cases h; exact .inl ⟨rfl, by simp, by simp, by simp⟩
  · rename_i hn
    cases h
    exact ⟨fun hc => absurd hc hn, fun _ => ⟨rfl, rfl⟩⟩

theorem pointwise_snoc {α β : Type} (R : α → β → Prop) : ∀ (as : List α) (bs : List β) (a : α) (b : β), Pointwise R as bs → R a b → Pointwise R (as ++ [a]) (bs ++ [b])
  | [], [], _, _, _, h => ⟨h, trivial⟩
  | _ :: as, _ :: bs, _, _, h, h' => ⟨h.1, pointwise_snoc R as bs _ _ h.2 h'⟩
  | [], _ :: _, _, _, h, _ => h.elim
  | _ :: _, [], _, _, h, _ => h.elim

/-! ## What is delivered in one session -/

/-- the invariant of a session: `A` had arrived before, `B` been delivered -/
structure Sess (A : List KFrame) (B : List Frame) (s : TD) : Prop where
  frames : ∃ done fs, s.arrived = A ++ done ++ (if s.handlers = [0] then [s.buffer] else []) ∧ s.delivered ++ s.strand = B ++ fs ∧ Pointwise Received done fs
  tokens : s.reads + s.handlers.length ≤ 1
  early : s.thread = .created ∨ s.thread = .checked ∨ s.thread = .begun → s.reads = 0 ∧ s.handlers = []

theorem sess_step (A : List KFrame) (B : List Frame) (s : TD) (h : Sess A B s) (e : Ev) (h1 : isInit e = false) (h2 : isRecover e = false) : Sess A B (s.step e) := by
  obtain ⟨⟨done, fs, ha, hd, hp⟩, ht, he⟩ := h
  cases e with
  | init dev lb em fm sys => cases h1
  | recover => cases h2
  | waited t =>
    simp only [TD.step]
    split
    · exact ⟨⟨done, fs, ha, hd, hp⟩, ht, he⟩
    · exact ⟨⟨done, fs, ha, hd, hp⟩, ht, he⟩
  | shutdown =>
    simp only [TD.step]
    split
    · exact ⟨⟨done, fs, ha, hd, hp⟩, ht, he⟩
    · exact ⟨⟨done, fs, ha, hd, hp⟩, ht, he⟩
  | close =>
    simp only [TD.step]
    split
    · split
      · refine ⟨⟨done, fs, ?_, hd, hp⟩, ?_, ?_⟩
        · dsimp only
          rw [ha]
          by_cases hr : s.reads = 0
          · simp [hr]
          · have hr1 : s.reads = 1 := by omega
            have hh : s.handlers = [] := List.eq_nil_of_length_eq_zero (by omega)
            simp [hr1, hh, aborted]
        · simp; omega
        · dsimp only
          intro hx
          obtain ⟨h1, h2⟩ := he hx
          simp [h1, h2]
      · exact ⟨⟨done, fs, ha, hd, hp⟩, ht, he⟩
    · exact ⟨⟨done, fs, ha, hd, hp⟩, ht, he⟩
  | stop =>
    simp only [TD.step]
    split
    · exact ⟨⟨done, fs, ha, hd, hp⟩, ht, he⟩
    · exact ⟨⟨done, fs, ha, hd, hp⟩, ht, he⟩
  | join sys =>
    simp only [TD.step]
    split
    · split
      · unfold TD.joined
        dsimp only
        split
        · split
          · exact ⟨⟨done, fs, ha, hd, hp⟩, ht, (fun hx => by rcases hx with hx | hx | hx <;> cases hx)⟩
          · exact ⟨⟨done, fs, ha, hd, hp⟩, ht, (fun hx => by rcases hx with hx | hx | hx <;> cases hx)⟩
        · exact ⟨⟨done, fs, ha, hd, hp⟩, ht, (fun hx => by rcases hx with hx | hx | hx <;> cases hx)⟩
      · exact ⟨⟨done, fs, ha, hd, hp⟩, ht, he⟩
    · exact ⟨⟨done, fs, ha, hd, hp⟩, ht, he⟩
  | begin =>
    simp only [TD.step]
    split
    · rename_i hc
      split
      · exact ⟨⟨done, fs, ha, hd, hp⟩, ht, fun _ => he (.inl hc)⟩
      · exact ⟨⟨done, fs, ha, hd, hp⟩, ht, fun _ => he (.inl hc)⟩
    · exact ⟨⟨done, fs, ha, hd, hp⟩, ht, he⟩
  | reset =>
    simp only [TD.step]
    split
    · rename_i hc
      exact ⟨⟨done, fs, ha, hd, hp⟩, ht, fun _ => he (.inr (.inl hc))⟩
    · exact ⟨⟨done, fs, ha, hd, hp⟩, ht, he⟩
  | spawn =>
    simp only [TD.step]
    split
    · rename_i hc
      obtain ⟨hr, hh⟩ := he (.inr (.inr hc))
      unfold TD.trigger
      dsimp only
      split
      · refine ⟨⟨done, fs, ha, hd, hp⟩, ?_, (fun hx => by rcases hx with hx | hx | hx <;> cases hx)⟩
        simp [hr, hh]
      · refine ⟨⟨done, fs, ?_, hd, hp⟩, ?_, (fun hx => by rcases hx with hx | hx | hx <;> cases hx)⟩
        · dsimp only
          rw [ha]
          simp [hh, badDescriptor]
        · simp [hr, hh]
    · exact ⟨⟨done, fs, ha, hd, hp⟩, ht, he⟩
  | endLoop =>
    simp only [TD.step]
    split
    · exact ⟨⟨done, fs, ha, hd, hp⟩, ht, (fun hx => by rcases hx with hx | hx | hx <;> cases hx)⟩
    · exact ⟨⟨done, fs, ha, hd, hp⟩, ht, he⟩
  | exit n =>
    simp only [TD.step]
    split
    · exact ⟨⟨done, fs, ha, hd, hp⟩, ht, he⟩
    · exact ⟨⟨done, fs, ha, hd, hp⟩, ht, he⟩
  | arrive k =>
    simp only [TD.step]
    split
    · rename_i hc
      have hr1 : s.reads = 1 := by omega
      have hh : s.handlers = [] := List.eq_nil_of_length_eq_zero (by omega)
      refine ⟨⟨done, fs, ?_, hd, hp⟩, ?_, ?_⟩
      · dsimp only
        rw [ha]
        simp [hh]
      · simp [hr1, hh]
      · dsimp only
        intro hx
        have := he hx
        omega
    · exact ⟨⟨done, fs, ha, hd, hp⟩, ht, he⟩
  | fail e =>
    simp only [TD.step]
    split
    · rename_i hc
      have hr1 : s.reads = 1 := by omega
      have hh : s.handlers = [] := List.eq_nil_of_length_eq_zero (by omega)
      refine ⟨⟨done, fs, ?_, hd, hp⟩, ?_, ?_⟩
      · dsimp only
        rw [ha]
        simp [hh, hc.2.2]
      · simp [hr1, hh]
      · dsimp only
        intro hx
        have := he hx
        omega
    · exact ⟨⟨done, fs, ha, hd, hp⟩, ht, he⟩
  | read w =>
    simp only [TD.step]
    split
    · split
      · rename_i e hs hh
        have hr0 : s.reads = 0 := by rw [hh] at ht; simp at ht; omega
        have hs0 : hs = [] := List.eq_nil_of_length_eq_zero (by rw [hh] at ht; simp at ht; omega)
        subst hs0
        unfold TD.readDone
        split
        · rename_i e0
          subst e0
          dsimp only
          have hs2 : s.delivered ++ (s.strand ++ [(s.d.readOk s.buffer).input]) = B ++ (fs ++ [(s.d.readOk s.buffer).input]) := by
            rw [← List.append_assoc, hd, List.append_assoc]
          have hp2 : Pointwise Received (done ++ [s.buffer]) (fs ++ [(s.d.readOk s.buffer).input]) := by
            apply pointwise_snoc _ _ _ _ _ hp
            rw [readOk_input]
            exact fromKernel_received _ _
          rw [hh, if_pos rfl] at ha
          have hea : s.thread = .created ∨ s.thread = .checked ∨ s.thread = .begun → False := by
            intro hx
            have := (he hx).2
            rw [hh] at this
            cases this
          unfold TD.trigger
          dsimp only
          split
          · refine ⟨⟨done ++ [s.buffer], fs ++ [(s.d.readOk s.buffer).input], ?_, hs2, hp2⟩, ?_, fun hx => (hea hx).elim⟩
            · simp [ha]
            · simp [hr0]
          · refine ⟨⟨done ++ [s.buffer], fs ++ [(s.d.readOk s.buffer).input], ?_, hs2, hp2⟩, ?_, fun hx => (hea hx).elim⟩
            · simp [ha, badDescriptor]
            · simp [hr0]
        · rename_i e0
          rw [hh, if_neg (by simpa using e0)] at ha
          refine ⟨⟨done, fs, ?_, hd, hp⟩, ?_, ?_⟩
          · simp [ha]
          · simp [hr0]
          · exact fun _ => ⟨hr0, rfl⟩
      · exact ⟨⟨done, fs, ha, hd, hp⟩, ht, he⟩
    · exact ⟨⟨done, fs, ha, hd, hp⟩, ht, he⟩
  | enter w =>
    simp only [TD.step]
    split
    · exact ⟨⟨done, fs, ha, hd, hp⟩, ht, he⟩
    · exact ⟨⟨done, fs, ha, hd, hp⟩, ht, he⟩
  | call w =>
    simp only [TD.step]
    split
    · split
      · rename_i f l hl
        refine ⟨⟨done, fs, ha, ?_, hp⟩, ht, he⟩
        rw [← hd, hl]
        simp
      · exact ⟨⟨done, fs, ha, hd, hp⟩, ht, he⟩
    · exact ⟨⟨done, fs, ha, hd, hp⟩, ht, he⟩
  | ret w =>
    simp only [TD.step]
    split
    · exact ⟨⟨done, fs, ha, hd, hp⟩, ht, he⟩
    · exact ⟨⟨done, fs, ha, hd, hp⟩, ht, he⟩
  | leave w =>
    simp only [TD.step]
    split
    · exact ⟨⟨done, fs, ha, hd, hp⟩, ht, he⟩
    · exact ⟨⟨done, fs, ha, hd, hp⟩, ht, he⟩
  | send f ec =>
    simp only [TD.step]
    split
    · exact ⟨⟨done, fs, ha, hd, hp⟩, ht, he⟩
    · exact ⟨⟨done, fs, ha, hd, hp⟩, ht, he⟩

theorem sess_run (A : List KFrame) (B : List Frame) (es : List Ev) : ∀ (s : TD), Sess A B s → (∀ e ∈ es, isInit e = false ∧ isRecover e = false) → Sess A B (s.run es) := by
  induction es with
  | nil => intro s h _; exact h
  | cons e es ih =>
    intro s h hn
    exact ih _ (sess_step A B s h e (hn e (by simp)).1 (hn e (by simp)).2) (fun e he => hn e (by simp [he]))

/-- from a quiet driver, a session begins -/
theorem sess_init (s : TD) (h : Quiet s) (dev : Text) (lb : Bool) (em fm : BitVec 32) (sys : SysInit) :
    Sess s.arrived s.delivered (s.step (.init dev lb em fm sys)) := by
  have base : Sess s.arrived s.delivered s :=
    ⟨⟨[], [], by simp [h.handlers], by simp [h.strand], trivial⟩, by simp [h.reads, h.handlers], fun _ => ⟨h.reads, h.handlers⟩⟩
  simp only [TD.step, h.user, if_true, TD.init, h.thread]
  split
  · exact ⟨base.frames, base.tokens, fun _ => ⟨h.reads, h.handlers⟩⟩
  · exact ⟨base.frames, base.tokens, fun _ => ⟨h.reads, h.handlers⟩⟩
  · exact base

/-! ## The state of the driver -/

/-- the invariant of all histories without `recover` -/
structure Glob (s : TD) : Prop where
  none : s.thread = .none ∨ s.thread = .ended → s.d.state.driver = .closed ∧ s.d.socketOpen = false
  ready : s.d.state.driver = .ready → s.thread = .begun ∨ s.thread = .loop
  created : s.thread = .created → s.d.state.driver ≠ .ready
  stopped : (s.thread = .begun ∨ s.thread = .loop) → s.stopped = true → s.d.socketOpen = false
  user : ∀ r, s.user = .stopping r ∨ s.user = .joining r → s.d.socketOpen = false
  plain : s.user ≠ .closing true ∧ s.user ≠ .stopping true ∧ s.user ≠ .joining true
  waiting : s.user = .waiting → s.thread ≠ .none
  owner : ∀ w, s.owner = some w → (w = .main → s.thread = .loop) ∧ ∀ n, w = .post n → n ∈ s.posts

theorem glob_fresh (junk : Vector Byte 8) (kjunk : KFrame) : Glob (TD.fresh junk kjunk) := by
  constructor
  all_goals simp [TD.fresh, Driver.initial, State.initial]

theorem canWork_main (s : TD) : s.canWork .main = true ↔ s.owner ≠ some .main ∧ s.thread = .loop := by
  simp [TD.canWork]

theorem canWork_post (s : TD) (n : Nat) : s.canWork (.post n) = true ↔ s.owner ≠ some (.post n) ∧ n ∈ s.posts := by
  simp [TD.canWork]

@[simp] theorem trigger_d (s : TD) : s.trigger.d = s.d := by unfold TD.trigger; split <;> rfl
@[simp] theorem trigger_thread (s : TD) : s.trigger.thread = s.thread := by unfold TD.trigger; split <;> rfl
@[simp] theorem trigger_stopped (s : TD) : s.trigger.stopped = s.stopped := by unfold TD.trigger; split <;> rfl
@[simp] theorem trigger_user (s : TD) : s.trigger.user = s.user := by unfold TD.trigger; split <;> rfl
@[simp] theorem trigger_owner (s : TD) : s.trigger.owner = s.owner := by unfold TD.trigger; split <;> rfl
@[simp] theorem trigger_posts (s : TD) : s.trigger.posts = s.posts := by unfold TD.trigger; split <;> rfl
@[simp] theorem trigger_results (s : TD) : s.trigger.results = s.results := by unfold TD.trigger; split <;> rfl
@[simp] theorem trigger_delivered (s : TD) : s.trigger.delivered = s.delivered := by unfold TD.trigger; split <;> rfl
@[simp] theorem trigger_strand (s : TD) : s.trigger.strand = s.strand := by unfold TD.trigger; split <;> rfl
@[simp] theorem trigger_active (s : TD) : s.trigger.active = s.active := by unfold TD.trigger; split <;> rfl

/-- what the handler of a read leaves alone, and what it does to the state -/
theorem readDone_spec (s : TD) (e : Int) :
    (s.readDone e).thread = s.thread ∧ (s.readDone e).stopped = s.stopped ∧ (s.readDone e).user = s.user ∧ (s.readDone e).owner = s.owner ∧
    (s.readDone e).posts = s.posts ∧ (s.readDone e).d.socketOpen = s.d.socketOpen ∧ (s.readDone e).results = s.results ∧ (s.readDone e).delivered = s.delivered ∧
    (s.readDone e).active = s.active ∧
    ((s.readDone e).d.state.driver = s.d.state.driver ∨ (s.readDone e).d.state.driver = if s.d.socketOpen then .opened else .closed) := by
  unfold TD.readDone
  split
  · simp only [trigger_thread, trigger_stopped, trigger_user, trigger_owner, trigger_posts, trigger_d, trigger_results, trigger_delivered, trigger_active, readOk_open, readOk_driver,
      true_and]
    split
    · exact .inr rfl
    · exact .inl rfl
  · exact ⟨rfl, rfl, rfl, rfl, rfl, readError_open _ _, rfl, rfl, rfl, .inr (readError_driver _ _)⟩

theorem glob_step (s : TD) (h : Glob s) (e : Ev) (h2 : isRecover e = false) : Glob (s.step e) := by
  obtain ⟨g1, g2, g3, g4, g5, g6, g7, g8⟩ := h
  cases e with
  | recover => cases h2
  | init dev lb em fm sys =>
    simp only [TD.step]
    split
    · rename_i hu
      unfold TD.init
      split
      · rename_i ht
        obtain ⟨c1, c2⟩ := g1 (.inl ht)
        split
        · rename_i d hd
          have hi := (init_spec _ _ _ _ _ _ _ _ hd).1 c1
          obtain ⟨-, i2, i3, -⟩ | ⟨i1, -⟩ := hi
          · constructor
            all_goals simp_all
          · cases i1
        · rename_i d hd
          have hi := (init_spec _ _ _ _ _ _ _ _ hd).1 c1
          obtain ⟨i1, -⟩ | ⟨-, i2, i3⟩ := hi
          · cases i1
          · constructor
            all_goals simp_all
        · exact ⟨g1, g2, g3, g4, g5, g6, g7, g8⟩
      · exact ⟨g1, g2, g3, g4, g5, g6, g7, g8⟩
    · exact ⟨g1, g2, g3, g4, g5, g6, g7, g8⟩
  | waited t =>
    simp only [TD.step]
    split
    · constructor
      all_goals simp_all
    · exact ⟨g1, g2, g3, g4, g5, g6, g7, g8⟩
  | shutdown =>
    simp only [TD.step]
    split
    · constructor
      all_goals simp_all
    · exact ⟨g1, g2, g3, g4, g5, g6, g7, g8⟩
  | close =>
    simp only [TD.step]
    split
    · split
      · constructor
        all_goals simp_all [Driver.shutdown]
        all_goals grind
      · constructor
        all_goals simp_all
    · exact ⟨g1, g2, g3, g4, g5, g6, g7, g8⟩
  | stop =>
    simp only [TD.step]
    split
    · rename_i r hr
      have := g5 r (.inl hr)
      constructor
      all_goals simp_all
    · exact ⟨g1, g2, g3, g4, g5, g6, g7, g8⟩
  | join sys =>
    simp only [TD.step]
    split
    · rename_i r hr
      split
      · rename_i ht
        obtain ⟨c1, c2⟩ := g1 ht
        have hf : r = false := by cases r <;> simp_all
        subst hf
        unfold TD.joined
        dsimp only
        rw [if_neg (by decide)]
        constructor
        all_goals simp_all
        rintro w hw rfl
        have := (g8 _ hw).1 rfl
        rw [this] at ht
        rcases ht with ht | ht <;> cases ht
      · exact ⟨g1, g2, g3, g4, g5, g6, g7, g8⟩
    · exact ⟨g1, g2, g3, g4, g5, g6, g7, g8⟩
  | begin =>
    simp only [TD.step]
    split
    · rename_i hc
      have hsn := setNotReady_eq s.d
      split
      · rename_i ho
        constructor
        all_goals simp_all
      · rename_i ho
        have : s.d.socketOpen = false := by
          cases h : s.d.socketOpen
          · rfl
          · rw [h] at hsn; exact absurd hsn ho
        constructor
        all_goals simp_all
    · exact ⟨g1, g2, g3, g4, g5, g6, g7, g8⟩
  | reset =>
    simp only [TD.step]
    split
    · constructor
      all_goals simp_all
    · exact ⟨g1, g2, g3, g4, g5, g6, g7, g8⟩
  | spawn =>
    simp only [TD.step]
    split
    · rename_i hb
      constructor
      all_goals simp only [trigger_d, trigger_thread, trigger_stopped, trigger_user, trigger_owner, trigger_posts]
      all_goals simp_all
    · exact ⟨g1, g2, g3, g4, g5, g6, g7, g8⟩
  | endLoop =>
    simp only [TD.step]
    split
    · rename_i hc
      obtain ⟨hs, hw⟩ := hc
      obtain ⟨hw1, hw2⟩ := (canWork_main s).1 hw
      have ho := g4 (.inr hw2) hs
      have e1 := runEnd_driver s.d 0
      have e2 := runEnd_open s.d 0
      rw [ho] at e1 e2
      constructor
      all_goals simp_all
      rintro w hw rfl
      exact hw1 hw
    · exact ⟨g1, g2, g3, g4, g5, g6, g7, g8⟩
  | exit n =>
    simp only [TD.step]
    split
    · rename_i hc
      obtain ⟨hw1, hw2⟩ := (canWork_post s n).1 hc.2
      refine ⟨g1, g2, g3, g4, g5, g6, g7, ?_⟩
      intro w hw
      refine ⟨(g8 w hw).1, ?_⟩
      rintro m rfl
      have := (g8 _ hw).2 m rfl
      simp only [List.mem_filter, bne_iff_ne]
      refine ⟨this, ?_⟩
      rintro rfl
      exact hw1 hw
    · exact ⟨g1, g2, g3, g4, g5, g6, g7, g8⟩
  | arrive k =>
    simp only [TD.step]
    split
    · exact ⟨g1, g2, g3, g4, g5, g6, g7, g8⟩
    · exact ⟨g1, g2, g3, g4, g5, g6, g7, g8⟩
  | fail e =>
    simp only [TD.step]
    split
    · exact ⟨g1, g2, g3, g4, g5, g6, g7, g8⟩
    · exact ⟨g1, g2, g3, g4, g5, g6, g7, g8⟩
  | read w =>
    simp only [TD.step]
    split
    · split
      · rename_i e hs hh
        obtain ⟨r1, r2, r3, r4, r5, r6, -, -, -, r7⟩ := readDone_spec { s with handlers := hs } e
        dsimp only at r1 r2 r3 r4 r5 r6 r7
        constructor
        all_goals (try simp only [r1, r2, r3, r4, r5, r6])
        · intro hx
          obtain ⟨c1, c2⟩ := g1 hx
          refine ⟨?_, c2⟩
          rcases r7 with r7 | r7
          · rw [r7]; exact c1
          · rw [r7, c2]; rfl
        · intro hx
          rcases r7 with r7 | r7
          · rw [r7] at hx; exact g2 hx
          · rw [r7] at hx; split at hx <;> cases hx
        · intro hx
          rcases r7 with r7 | r7
          · rw [r7]; exact g3 hx
          · rw [r7]; split <;> decide
        · exact g4
        · exact g5
        · exact g6
        · exact g7
        · exact g8
      · exact ⟨g1, g2, g3, g4, g5, g6, g7, g8⟩
    · exact ⟨g1, g2, g3, g4, g5, g6, g7, g8⟩
  | enter w =>
    simp only [TD.step]
    split
    · rename_i hc
      refine ⟨g1, g2, g3, g4, g5, g6, g7, ?_⟩
      intro w' hw'
      have : w = w' := Option.some.inj hw'
      subst this
      refine ⟨?_, ?_⟩
      · rintro rfl; exact ((canWork_main s).1 hc.2.1).2
      · rintro n rfl; exact ((canWork_post s n).1 hc.2.1).2
    · exact ⟨g1, g2, g3, g4, g5, g6, g7, g8⟩
  | call w =>
    simp only [TD.step]
    split
    · split
      · exact ⟨g1, g2, g3, g4, g5, g6, g7, g8⟩
      · exact ⟨g1, g2, g3, g4, g5, g6, g7, g8⟩
    · exact ⟨g1, g2, g3, g4, g5, g6, g7, g8⟩
  | ret w =>
    simp only [TD.step]
    split
    · exact ⟨g1, g2, g3, g4, g5, g6, g7, g8⟩
    · exact ⟨g1, g2, g3, g4, g5, g6, g7, g8⟩
  | leave w =>
    simp only [TD.step]
    split
    · exact ⟨g1, g2, g3, g4, g5, g6, g7, (fun _ h => by cases h)⟩
    · exact ⟨g1, g2, g3, g4, g5, g6, g7, g8⟩
  | send f ec =>
    simp only [TD.step]
    split
    · rename_i b d hd
      obtain ⟨s1, -, s3⟩ := send_spec _ _ _ _ _ hd
      constructor
      all_goals (try simp only [s1])
      · intro hx
        obtain ⟨c1, c2⟩ := g1 hx
        refine ⟨?_, c2⟩
        rcases s3 with s3 | ⟨-, s3, -⟩
        · rw [s3]; exact c1
        · rw [c1] at s3; cases s3
      · intro hx
        rcases s3 with s3 | ⟨-, s3, s4⟩
        · rw [s3] at hx; exact g2 hx
        · exact g2 s3
      · intro hx
        rcases s3 with s3 | ⟨-, s3, s4⟩
        · rw [s3]; exact g3 hx
        · exact absurd s3 (g3 hx)
      · exact g4
      · exact g5
      · exact g6
      · exact g7
      · exact g8
    · exact ⟨g1, g2, g3, g4, g5, g6, g7, g8⟩

theorem glob_run (es : List Ev) : ∀ (s : TD), Glob s → (∀ e ∈ es, isRecover e = false) → Glob (s.run es) := by
  induction es with
  | nil => intro s h _; exact h
  | cons e es ih => intro s h hn; exact ih _ (glob_step s h e (hn e (by simp))) (fun e he => hn e (by simp [he]))

theorem drain (w : Worker) : ∀ (l : List Frame) (s : TD), s.owner = some w → s.active = none → s.strand = l →
    s.run (l.flatMap fun _ => [.call w, .ret w]) = { s with strand := [], delivered := s.delivered ++ l } := by
  intro l
  induction l with
  | nil =>
    intro s _ _ hs
    simp only [List.flatMap_nil, TD.run, List.append_nil]
    rw [← hs]
  | cons f l ih =>
    intro s ho ha hs
    have e1 : s.step (.call w) = { s with active := some f, strand := l, delivered := s.delivered ++ [f] } := by
      simp only [TD.step, ho, ha, hs, and_self, if_true]
    have e2 : (s.step (.call w)).step (.ret w) = { s with strand := l, delivered := s.delivered ++ [f] } := by
      rw [e1]
      simp only [TD.step, ho, if_true]
      rw [← ha]
    simp only [List.flatMap_cons, List.cons_append, List.nil_append, TD.run]
    rw [e2]
    have := ih ({ s with strand := l, delivered := s.delivered ++ [f] } : TD) ho ha rfl
    rw [this]
    simp

def freed : Option Worker → List Ev
  | none => []
  | some w => [.ret w, .leave w]

theorem free_owner (s : TD) (hx : s.owner = none → s.active = none) : s.run (freed s.owner) = { s with owner := none, active := none } := by
  unfold freed
  cases ho : s.owner with
  | none =>
    have ha := hx ho
    simp only [TD.run]
    rw [← ho, ← ha]
  | some w => simp [TD.run, TD.step, ho]

theorem freed_ev (o : Option Worker) (e : Ev) (h : e ∈ freed o) : ownStep e = true := by
  unfold freed at h
  split at h
  · cases h
  · simp only [List.mem_cons, List.not_mem_nil, or_false] at h
    rcases h with rfl | rfl <;> rfl

/-- a listener is called only in the strand -/
theorem active_owned (es : List Ev) : ∀ s : TD, (s.owner = none → s.active = none) → ((s.run es).owner = none → (s.run es).active = none) := by
  induction es with
  | nil => intro s h; exact h
  | cons e es ih =>
    intro s h
    refine ih _ ?_
    cases e with
    | read w =>
      simp only [TD.step]
      split
      · split
        · rename_i e hs hh
          obtain ⟨-, -, -, r4, -, -, -, -, r9, -⟩ := readDone_spec { s with handlers := hs } e
          rw [r4, r9]; exact h
        · exact h
      · exact h
    | spawn =>
      simp only [TD.step]
      split
      · simp only [trigger_owner, trigger_active]; exact h
      · exact h
    | init dev lb em fm sys =>
      simp only [TD.step, TD.init]
      repeat' split
      all_goals exact h
    | join sys =>
      simp only [TD.step, TD.joined]
      repeat' split
      all_goals exact h
    | call w =>
      simp only [TD.step]
      split
      · rename_i hc
        split
        · intro hx; rw [hc.1] at hx; cases hx
        · exact h
      · exact h
    | enter w =>
      simp only [TD.step]
      split
      · intro hx; cases hx
      · exact h
    | ret w =>
      simp only [TD.step]
      split
      · exact fun _ => rfl
      · exact h
    | leave w =>
      simp only [TD.step]
      split
      · rename_i hc; exact fun _ => hc.2
      · exact h
    | _ =>
      simp only [TD.step]
      repeat' split
      all_goals exact h

structure Down (n : List Result) (s : TD) : Prop where
  glob : Glob s
  running : (s.thread = .begun ∨ s.thread = .loop ∨ s.thread = .ended) ∧ (s.user = .closing false ∨ s.user = .stopping false ∨ s.user = .joining false ∧ (s.thread = .ended ∨ s.stopped = true)) ∧
      s.results = n ∨ n ++ [.shutdown] <+: s.results

theorem down_step (n : List Result) (s : TD) (h : Down n s) (e : Ev) (hr : isRecover e = false) : Down n (s.step e) := by
  refine ⟨glob_step s h.glob e hr, ?_⟩
  rcases h.running with ⟨h1, h2, h3⟩ | h
  · have hu : s.user ≠ .idle ∧ s.user ≠ .waiting := by
      rcases h2 with h | h | ⟨h, -⟩ <;> rw [h] <;> exact ⟨(fun h => nomatch h), (fun h => nomatch h)⟩
    have hth : s.thread ≠ .created ∧ s.thread ≠ .checked ∧ s.thread ≠ .none := by
      rcases h1 with h | h | h <;> rw [h] <;> decide
    cases e with
    | recover => cases hr
    | init dev lb em fm sys => simp only [TD.step]; rw [if_neg hu.1]; exact .inl ⟨h1, h2, h3⟩
    | waited t => simp only [TD.step]; rw [if_neg (fun h => hu.2 h.1)]; exact .inl ⟨h1, h2, h3⟩
    | shutdown => simp only [TD.step]; rw [if_neg hu.1]; exact .inl ⟨h1, h2, h3⟩
    | begin => simp only [TD.step]; rw [if_neg hth.1]; exact .inl ⟨h1, h2, h3⟩
    | reset => simp only [TD.step]; rw [if_neg hth.2.1]; exact .inl ⟨h1, h2, h3⟩
    | close =>
      simp only [TD.step]
      rcases h2 with h | h | ⟨h, h'⟩
      · rw [h]
        dsimp only
        split
        · exact .inl ⟨h1, .inr (.inl rfl), h3⟩
        · exact .inl ⟨h1, .inr (.inl rfl), h3⟩
      · rw [h]; exact .inl ⟨h1, .inr (.inl h), h3⟩
      · rw [h]; exact .inl ⟨h1, .inr (.inr ⟨h, h'⟩), h3⟩
    | stop =>
      simp only [TD.step]
      rcases h2 with h | h | ⟨h, h'⟩
      · rw [h]; exact .inl ⟨h1, .inl h, h3⟩
      · rw [h]; exact .inl ⟨h1, .inr (.inr ⟨rfl, .inr rfl⟩), h3⟩
      · rw [h]; exact .inl ⟨h1, .inr (.inr ⟨h, h'⟩), h3⟩
    | join sys =>
      simp only [TD.step]
      rcases h2 with h | h | ⟨h, h'⟩
      · rw [h]; exact .inl ⟨h1, .inl h, h3⟩
      · rw [h]; exact .inl ⟨h1, .inr (.inl h), h3⟩
      · rw [h]
        dsimp only
        split
        · right
          unfold TD.joined
          dsimp only
          rw [if_neg (by decide), h3]
          exact List.prefix_refl _
        · exact .inl ⟨h1, .inr (.inr ⟨h, h'⟩), h3⟩
    | spawn =>
      simp only [TD.step]
      split
      · rename_i hb
        simp only [trigger_thread, trigger_user, trigger_stopped, trigger_results]
        refine .inl ⟨.inr (.inl trivial), ?_, h3⟩
        rcases h2 with h | h | ⟨h, h' | h'⟩
        · exact .inl h
        · exact .inr (.inl h)
        · rw [hb] at h'; cases h'
        · exact .inr (.inr ⟨h, .inr h'⟩)
      · exact .inl ⟨h1, h2, h3⟩
    | endLoop =>
      simp only [TD.step]
      split
      · refine .inl ⟨.inr (.inr rfl), ?_, h3⟩
        rcases h2 with h | h | ⟨h, -⟩
        · exact .inl h
        · exact .inr (.inl h)
        · exact .inr (.inr ⟨h, .inl rfl⟩)
      · exact .inl ⟨h1, h2, h3⟩
    | read w =>
      simp only [TD.step]
      split
      · split
        · rename_i e hs hh
          obtain ⟨r1, r2, r3, -, -, -, r7, -⟩ := readDone_spec { s with handlers := hs } e
          rw [r1, r2, r3, r7]
          exact .inl ⟨h1, h2, h3⟩
        · exact .inl ⟨h1, h2, h3⟩
      · exact .inl ⟨h1, h2, h3⟩
    | call w =>
      simp only [TD.step]
      split
      · split
        · exact .inl ⟨h1, h2, h3⟩
        · exact .inl ⟨h1, h2, h3⟩
      · exact .inl ⟨h1, h2, h3⟩
    | send f ec =>
      simp only [TD.step]
      split
      · exact .inl ⟨h1, h2, h3⟩
      · exact .inl ⟨h1, h2, h3⟩
    | _ =>
      simp only [TD.step]
      split
      · exact .inl ⟨h1, h2, h3⟩
      · exact .inl ⟨h1, h2, h3⟩
  · right
    have : s.results <+: (s.step e).results := by
      cases e with
      | init dev lb em fm sys =>
        simp only [TD.step, TD.init]
        repeat' split
        all_goals simp
      | read w =>
        simp only [TD.step]
        split
        · split
          · rename_i e hs hh
            rw [(readDone_spec { s with handlers := hs } e).2.2.2.2.2.2.1]
            exact List.prefix_refl _
          · exact List.prefix_refl _
        · exact List.prefix_refl _
      | spawn =>
        simp only [TD.step]
        split
        · rw [trigger_results]; exact List.prefix_refl _
        · exact List.prefix_refl _
      | join sys =>
        simp only [TD.step, TD.joined]
        repeat' split
        all_goals simp
      | _ =>
        simp only [TD.step]
        repeat' split
        all_goals simp
    exact List.IsPrefix.trans h this

theorem down_run (n : List Result) (es : List Ev) : ∀ s : TD, Down n s → (∀ e ∈ es, isRecover e = false) → Down n (s.run es) := by
  induction es with
  | nil => intro s h _; exact h
  | cons e es ih => intro s h hr; exact ih _ (down_step n s h e (hr e (by simp))) (fun e he => hr e (by simp [he]))

theorem hangs (t : TD) : ∀ (fs : List Ev) (x : TD), x.user = .joining false → (x.thread = .begun ∨ x.thread = .loop) → x.stopped = false → x.results = t.results →
      (x.run fs).user = .joining false ∧ (x.run fs).results = t.results := by
  intro fs
  induction fs with
  | nil => intro x h1 _ _ h4; exact ⟨h1, h4⟩
  | cons e fs ih =>
    intro x h1 h2 h3 h4
    have hth : x.thread ≠ .created ∧ x.thread ≠ .checked ∧ x.thread ≠ .none ∧ x.thread ≠ .ended := by
      rcases h2 with h | h <;> rw [h] <;> decide
    have hu : x.user ≠ .idle ∧ x.user ≠ .waiting := by rw [h1]; exact ⟨(fun h => nomatch h), (fun h => nomatch h)⟩
    have key : (x.step e).user = .joining false ∧ ((x.step e).thread = .begun ∨ (x.step e).thread = .loop) ∧ (x.step e).stopped = false ∧ (x.step e).results = t.results := by
      cases e with
      | recover => simp only [TD.step]; rw [if_neg hu.1]; exact ⟨h1, h2, h3, h4⟩
      | init dev lb em fm sys => simp only [TD.step]; rw [if_neg hu.1]; exact ⟨h1, h2, h3, h4⟩
      | waited t => simp only [TD.step]; rw [if_neg (fun h => hu.2 h.1)]; exact ⟨h1, h2, h3, h4⟩
      | shutdown => simp only [TD.step]; rw [if_neg hu.1]; exact ⟨h1, h2, h3, h4⟩
      | begin => simp only [TD.step]; rw [if_neg hth.1]; exact ⟨h1, h2, h3, h4⟩
      | reset => simp only [TD.step]; rw [if_neg hth.2.1]; exact ⟨h1, h2, h3, h4⟩
      | close => simp only [TD.step, h1]; exact ⟨trivial, h2, h3, h4⟩
      | stop => simp only [TD.step, h1]; exact ⟨trivial, h2, h3, h4⟩
      | join sys => simp only [TD.step, h1]; rw [if_neg (by rintro (h | h); exact hth.2.2.1 h; exact hth.2.2.2 h)]; exact ⟨h1, h2, h3, h4⟩
      | spawn =>
        simp only [TD.step]
        split
        · simp only [trigger_thread, trigger_user, trigger_stopped, trigger_results]; exact ⟨h1, .inr trivial, h3, h4⟩
        · exact ⟨h1, h2, h3, h4⟩
      | endLoop => simp only [TD.step]; rw [if_neg (by rintro ⟨h, -⟩; rw [h3] at h; cases h)]; exact ⟨h1, h2, h3, h4⟩
      | read w =>
        simp only [TD.step]
        split
        · split
          · rename_i e hs hh
            obtain ⟨r1, r2, r3, -, -, -, r7, -⟩ := readDone_spec { x with handlers := hs } e
            rw [r1, r2, r3, r7]
            exact ⟨h1, h2, h3, h4⟩
          · exact ⟨h1, h2, h3, h4⟩
        · exact ⟨h1, h2, h3, h4⟩
      | _ =>
        simp only [TD.step]
        repeat' split
        all_goals exact ⟨h1, h2, h3, h4⟩
    exact ih _ key.1 key.2.1 key.2.2.1 key.2.2.2

/-- a shutdown of a driver whose thread has started its loop can always be brought to its end -/
theorem down_returns (n : List Result) (t : TD) (hd' : Down n t) (hact : t.owner = none → t.active = none) :
    ∃ ws : List Ev, (∀ e ∈ ws, ownStep e = true) ∧ n ++ [.shutdown] <+: (t.run ws).results := by
  rcases hd'.running with ⟨h1, h2, h3⟩ | h
  · -- close and stop
    obtain ⟨ws1, hw1, t1, e1, g1, th1, u1, st1, r1, a1⟩ : ∃ ws1 : List Ev, (∀ e ∈ ws1, ownStep e = true) ∧
        ∃ t1, t.run ws1 = t1 ∧ Glob t1 ∧ (t1.thread = .begun ∨ t1.thread = .loop ∨ t1.thread = .ended) ∧ t1.user = .joining false ∧ (t1.thread = .ended ∨ t1.stopped = true) ∧ t1.results = n ∧
          (t1.owner = none → t1.active = none) := by
      have hclose : ∀ x : TD, x.user = .closing false → (x.step .close).user = .stopping false ∧ (x.step .close).thread = x.thread ∧ (x.step .close).results = x.results := by
        intro x hx
        simp only [TD.step, hx]
        split <;> exact ⟨rfl, rfl, rfl⟩
      have hstop : ∀ x : TD, x.user = .stopping false → x.step .stop = { x with user := .joining false, stopped := true } := by
        intro x hx
        simp only [TD.step, hx]
      rcases h2 with h2 | h2 | ⟨h2, h2'⟩
      · obtain ⟨c1, c2, c3⟩ := hclose t h2
        refine ⟨[.close, .stop], ?_, _, rfl, ?_, ?_, ?_, ?_, ?_, ?_⟩
        · intro e he
          simp only [List.mem_cons, List.not_mem_nil, or_false] at he
          rcases he with rfl | rfl <;> rfl
        · exact glob_run _ t hd'.glob (by decide)
        · simp only [TD.run, hstop _ c1, c2]; exact h1
        · simp only [TD.run, hstop _ c1]
        · simp only [TD.run, hstop _ c1]; exact .inr trivial
        · simp only [TD.run, hstop _ c1, c3]; exact h3
        · exact active_owned [.close, .stop] t hact
      · refine ⟨[.stop], ?_, _, rfl, ?_, ?_, ?_, ?_, ?_, ?_⟩
        · intro e he
          simp only [List.mem_cons, List.not_mem_nil, or_false] at he
          rcases he with rfl; rfl
        · exact glob_run _ t hd'.glob (by decide)
        · simp only [TD.run, hstop _ h2]; exact h1
        · simp only [TD.run, hstop _ h2]
        · simp only [TD.run, hstop _ h2]; exact .inr trivial
        · simp only [TD.run, hstop _ h2]; exact h3
        · exact active_owned [.stop] t hact
      · exact ⟨[], (by simp), t, rfl, hd'.glob, h1, h2, h2', h3, hact⟩
    -- the thread leaves the strand, ends and is joined
    have hjoin : ∀ x : TD, x.user = .joining false → x.thread = .ended → x.results = n → n ++ [.shutdown] <+: (x.step (.join .ok)).results := by
      intro x hx ht hrs
      simp only [TD.step, hx]
      rw [if_pos (.inr ht)]
      unfold TD.joined
      dsimp only
      rw [if_neg (by decide), hrs]
      exact List.prefix_refl _
    have hend : ∀ x : TD, x.thread = .loop → x.stopped = true → x.owner = none → x.user = .joining false → x.results = n →
        n ++ [.shutdown] <+: (x.run [.endLoop, .join .ok]).results := by
      intro x hx hs ho hu hrs
      have e : x.step .endLoop = { x with d := x.d.runEnd 0, thread := .ended } := by
        simp only [TD.step]
        rw [if_pos ⟨hs, (canWork_main x).2 ⟨(by rw [ho]; intro h; cases h), hx⟩⟩]
      simp only [TD.run, e]
      exact hjoin _ hu rfl hrs
    have hfree := free_owner t1 a1
    rcases st1 with st1 | st1
    · refine ⟨ws1 ++ [.join .ok], ?_, ?_⟩
      · intro e he
        simp only [List.mem_append, List.mem_cons, List.not_mem_nil, or_false] at he
        rcases he with he | rfl
        · exact hw1 e he
        · rfl
      · rw [run_append, e1]
        exact hjoin t1 u1 st1 r1
    · rcases th1 with th | th | th
      · refine ⟨ws1 ++ (freed t1.owner ++ [.spawn, .endLoop, .join .ok]), ?_, ?_⟩
        · intro e he
          simp only [List.mem_append, List.mem_cons, List.not_mem_nil, or_false] at he
          rcases he with he | he | rfl | rfl | rfl
          · exact hw1 e he
          · exact freed_ev _ e he
          all_goals rfl
        · rw [run_append, e1, run_append, hfree]
          show n ++ [.shutdown] <+: ((({ t1 with owner := none, active := none } : TD).step .spawn).run [.endLoop, .join .ok]).results
          apply hend
          all_goals (simp only [TD.step]; rw [if_pos th])
          all_goals simp only [trigger_thread, trigger_stopped, trigger_owner, trigger_user, trigger_results]
          · exact st1
          · exact u1
          · exact r1
      · refine ⟨ws1 ++ (freed t1.owner ++ [.endLoop, .join .ok]), ?_, ?_⟩
        · intro e he
          simp only [List.mem_append, List.mem_cons, List.not_mem_nil, or_false] at he
          rcases he with he | he | rfl | rfl
          · exact hw1 e he
          · exact freed_ev _ e he
          all_goals rfl
        · rw [run_append, e1, run_append, hfree]
          exact hend _ th st1 rfl u1 r1
      · refine ⟨ws1 ++ [.join .ok], ?_, ?_⟩
        · intro e he
          simp only [List.mem_append, List.mem_cons, List.not_mem_nil, or_false] at he
          rcases he with he | rfl
          · exact hw1 e he
          · rfl
        · rw [run_append, e1]
          exact hjoin t1 u1 th r1
  · exact ⟨[], by simp, h⟩

theorem shutdown_returns (s : TD) (fs : List Ev) (hg : Glob s) (hx : s.owner = none → s.active = none) (hr : ∀ e ∈ fs, isRecover e = false)
    (hth : s.thread = .begun ∨ s.thread = .loop ∨ s.thread = .ended) (hidle : s.user = .idle) :
    ∃ ws : List Ev, (∀ e ∈ ws, ownStep e = true) ∧ s.results ++ [.shutdown] <+: ((s.run (.shutdown :: fs)).run ws).results := by
  have hact := active_owned (.shutdown :: fs) s hx
  have hd : Down s.results (s.step .shutdown) := by
    refine ⟨glob_step s hg _ rfl, .inl ?_⟩
    simp only [TD.step, hidle, if_true]
    exact ⟨hth, .inl trivial, trivial⟩
  have hd' : Down s.results (s.run (.shutdown :: fs)) := down_run _ fs _ hd hr
  exact down_returns _ _ hd' hact

theorem readDone_delivered (s : TD) (e : Int) : (s.readDone e).delivered = s.delivered := by
  unfold TD.readDone
  split
  · unfold TD.trigger
    dsimp only
    split <;> rfl
  · rfl

end Verif.Thr
