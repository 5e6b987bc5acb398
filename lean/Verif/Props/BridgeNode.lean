import Verif.Lemmas.BridgeNode
import Verif.Props.Threaded
import Verif.Props.Bridge
import Verif.Props.Filter

/-!
# C99: the programs of the bridge
-/

set_option linter.unusedSimpArgs false

namespace Verif.Props
open Verif Verif.Drv Verif.Thr Verif.Bridge Verif.Flt Verif.Brn Verif.Spec Verif.Spec.Thr Verif.Spec.Brn

private def jk99 : Vector Byte 8 := Vector.replicate 8 0
private def kf99 (id n : Nat) : KFrame := { canId := BitVec.ofNat 32 id, dlc := 1, data := Vector.replicate 8 (BitVec.ofNat 8 n) }
private def both (ids : Option Ids) : Config := { device := none, settings := fun _ => none, ids := ids, toTopic := true, toCan := true }
private def new99 (ids : Option Ids) : Node := Node.new (both ids) jk99 (kf99 0 0)
private def upEvs99 : List NEv := [.main .ok, .drv .begin, .drv .reset, .drv .spawn, .drv (.waited false)]
private def msg99 (id : Nat) : Msg := { id := BitVec.ofNat 32 id, isRtr := 0, isExtended := 0, isError := 0, dlc := 1, data := Vector.replicate 8 5 }

private theorem mapM_item (l : List Item) : (∀ fs, l.mapM itemFilter = some fs → (∀ i ∈ l, i ≠ .other) ∧ ∀ f, fs.any (·.pass f) = true ↔ ∃ i ∈ l, Selects i f) ∧
    ((∀ i ∈ l, i ≠ .other) → ∃ fs, l.mapM itemFilter = some fs) := by
  induction l with
  | nil =>
    refine ⟨?_, fun _ => ⟨[], rfl⟩⟩
    intro fs h
    rw [List.mapM_nil] at h
    cases h
    simp
  | cons i l ih =>
    rw [List.mapM_cons]
    constructor
    · intro fs h
      cases hi : itemFilter i with
      | none => rw [hi] at h; cases h
      | some g =>
        cases hl : l.mapM itemFilter with
        | none => rw [hi, hl] at h; cases h
        | some gs =>
          rw [hi, hl] at h
          cases h
          obtain ⟨a, b⟩ := ih.1 gs hl
          have hsel : ∀ f, g.pass f = true ↔ Selects i f := by
            intro f
            cases i with
            | int n =>
              simp only [itemFilter, Option.some.injEq] at hi
              rw [← hi, C07_filter_number]
              simp only [Selects, BitVec.toNat_ofInt]
              omega
            | str s => simp only [itemFilter, Option.some.injEq] at hi; rw [← hi]; rfl
            | other => cases hi
          refine ⟨?_, ?_⟩
          · intro x hx
            rw [List.mem_cons] at hx
            rcases hx with rfl | hx
            · rintro rfl; cases hi
            · exact a x hx
          · intro f
            rw [List.any_cons, Bool.or_eq_true, hsel, b f]
            simp
    · intro h
      obtain ⟨gs, hgs⟩ := ih.2 (fun x hx => h x (by simp [hx]))
      have : i ≠ .other := h i (by simp)
      cases i with
      | other => exact absurd rfl this
      | int n => exact ⟨_, by rw [hgs]; rfl⟩
      | str s => exact ⟨_, by rw [hgs]; rfl⟩

private theorem listenerCalls_eq (fs : List Filter) (f : Frame) : listenerCalls fs f = if fs.any (·.pass f) = true then [f] else [] := by
  induction fs with
  | nil => rfl
  | cons g fs ih =>
    rw [listenerCalls, List.any_cons]
    by_cases h : g.pass f = true
    · simp [h]
    · simp [h, ih]

private theorem usable_iff (ids : Option Ids) : (∃ l, listenerOf ids = some l) ↔ Usable ids := by
  cases ids with
  | none => exact ⟨fun _ => trivial, fun _ => ⟨none, rfl⟩⟩
  | some x =>
    cases x with
    | list l =>
      simp only [listenerOf, idsFilters, Usable]
      constructor
      · rintro ⟨o, h⟩
        cases hm : l.mapM itemFilter with
        | none => rw [hm] at h; cases h
        | some fs => exact ((mapM_item l).1 fs hm).1
      · intro h
        obtain ⟨fs, hfs⟩ := (mapM_item l).2 h
        exact ⟨some fs, by rw [hfs]; rfl⟩
    | sized n =>
      simp only [listenerOf, idsFilters, Usable]
      by_cases h : n = 0
      · simp [h]
      · simp [h]
    | unsized => simp [listenerOf, idsFilters, Usable]

private def passes : Option (List Filter) → Frame → Prop
  | none, _ => True
  | some fs, f => fs.any (·.pass f) = true

private theorem heard_eq (ids : Option Ids) (l : Option (List Filter)) (h : listenerOf ids = some l) (f : Frame) [Decidable (ValidFrame f ∧ Wanted ids f)] :
    heard l f = if ValidFrame f ∧ Wanted ids f then [toMessage f] else [] := by
  have hcb : ∀ [Decidable (ValidFrame f)], frameCallback f = if ValidFrame f then [toMessage f] else [] := by
    intro _
    unfold frameCallback
    by_cases hv : ValidFrame f
    · rw [if_neg (by rw [(valid_iff f).2 hv]; decide), if_pos hv]
    · rw [if_pos (by rw [Bool.not_eq_true', ← Bool.not_eq_true]; exact fun hc => hv ((valid_iff f).1 hc)), if_neg hv]
  have hw : passes l f ↔ Wanted ids f := by
    cases ids with
    | none => simp only [listenerOf, Option.some.injEq] at h; rw [← h]; simp [passes, Wanted]
    | some x =>
      cases x with
      | list xs =>
        simp only [listenerOf, idsFilters] at h
        cases hm : xs.mapM itemFilter with
        | none => rw [hm] at h; cases h
        | some fs =>
          rw [hm] at h
          simp only [Option.map_some, Option.some.injEq] at h
          rw [← h]
          exact ((mapM_item xs).1 fs hm).2 f
      | sized n =>
        simp only [listenerOf, idsFilters] at h
        by_cases hn : n = 0
        · rw [if_pos hn] at h
          simp only [Option.map_some, Option.some.injEq] at h
          rw [← h]
          simp [passes, Wanted]
        · rw [if_neg hn] at h; cases h
      | unsized => cases h
  have : Decidable (ValidFrame f) := Classical.dec _
  cases l with
  | none =>
    have : Wanted ids f := hw.1 trivial
    simp only [heard]
    rw [hcb]
    by_cases hv : ValidFrame f
    · rw [if_pos hv, if_pos ⟨hv, this⟩]
    · rw [if_neg hv, if_neg (fun h => hv h.1)]
  | some fs =>
    simp only [heard]
    rw [listenerCalls_eq]
    have hw : (fs.any (·.pass f) = true) ↔ Wanted ids f := hw
    by_cases hf : fs.any (·.pass f) = true
    · rw [if_pos hf, List.flatMap_cons, List.flatMap_nil, List.append_nil, hcb]
      by_cases hv : ValidFrame f
      · rw [if_pos hv, if_pos ⟨hv, hw.1 hf⟩]
      · rw [if_neg hv, if_neg (fun h => hv h.1)]
    · rw [if_neg hf, if_neg (fun h => hf (hw.2 h.2))]; rfl

private theorem heard_all (ids : Option Ids) (l : Option (List Filter)) (h : listenerOf ids = some l) (fs : List Frame) [DecidablePred fun f => ValidFrame f ∧ Wanted ids f] :
    List.Forall₂ MsgMatches (fs.flatMap (heard l)) (fs.filter fun f => decide (ValidFrame f ∧ Wanted ids f)) := by
  induction fs with
  | nil => exact List.Forall₂.nil
  | cons f fs ih =>
    rw [List.flatMap_cons, List.filter_cons, heard_eq ids l h f]
    by_cases hc : ValidFrame f ∧ Wanted ids f
    · rw [if_pos hc, if_pos (by simpa using hc)]
      exact List.Forall₂.cons (C16_message_matches f) ih
    · rw [if_neg hc, if_neg (by simpa using hc)]
      exact ih

private theorem setup_pub (cfg : Config) (junk : Vector Byte 8) (kjunk : KFrame) (n : Node) (hi : Inv cfg junk kjunk n) (ht : cfg.toTopic = true) (hp : n.phase = .starting)
    (hr : (n.step .started).phase = .running) : ∃ l, listenerOf cfg.ids = some l ∧ Pub l n.t.delivered.length (n.step .started) ∧ (n.step .started).t = n.t := by
  obtain ⟨s1, s2, s3, s4, s5⟩ := hi.starting hp
  have hconf := hi.conf
  simp only [Node.step] at hr ⊢
  by_cases hc : n.phase = .starting ∧ n.t.user = .idle
  · rw [if_pos hc] at hr ⊢
    by_cases hres : n.t.results.getLast? = some (.init true)
    · rw [if_pos hres] at hr ⊢
      unfold Node.setup at hr ⊢
      dsimp only at hr ⊢
      rw [if_pos (by rw [hconf]; exact ht)] at hr ⊢
      rw [show n.cfg.ids = cfg.ids from by rw [hconf]] at hr ⊢
      cases hl : listenerOf cfg.ids with
      | none => rw [hl] at hr; cases hr
      | some l =>
        dsimp only
        exact ⟨l, rfl, ⟨.inl rfl, fun _ => rfl, Nat.le_refl _, fun _ => by simp [s4]⟩, rfl⟩
    · rw [if_neg hres] at hr; cases hr
  · rw [if_neg hc, hp] at hr; cases hr

private theorem sess_lengths {t : TD} (h : Sess [] [] t) : t.delivered.length ≤ t.arrived.length := by
  obtain ⟨done, fs, h1, h2, h3⟩ := h.frames
  have := pointwise_length _ _ _ h3
  have h4 := congrArg List.length h1
  have h5 := congrArg List.length h2
  simp only [List.length_append, List.length_nil] at h4 h5
  omega

/-- C99.  A program that publishes, started by any history `es` and gone on by any history `gs` until `main` ends: of the frames that arrived, in their order, some were dropped before the listener was
registered, all after those have been seen, except those that are still queued in the driver; for each seen frame that is valid and wanted exactly one message was published, in order, that says
the same, and nothing else was published. -/
theorem C99_published (cfg : Config) (junk : Vector Byte 8) (kjunk : KFrame) (es gs : List NEv) (ht : cfg.toTopic = true) [DecidablePred fun f => ValidFrame f ∧ Wanted cfg.ids f]
    (hs : ((Node.new cfg junk kjunk).run es).phase = .starting) (hr : ((Node.new cfg junk kjunk).run (es ++ [.started])).phase = .running)
    (hg : ((Node.new cfg junk kjunk).run (es ++ .started :: gs)).phase ≠ .done) :
    let n := (Node.new cfg junk kjunk).run (es ++ .started :: gs)
    ∃ missed seen queued pending fs, n.t.arrived = missed ++ seen ++ queued ++ pending ∧ missed <+: ((Node.new cfg junk kjunk).run es).t.arrived ∧
      queued.length = n.t.strand.length ∧ pending.length ≤ 1 ∧ Pointwise Received seen fs ∧ List.Forall₂ MsgMatches n.published (fs.filter fun f => decide (ValidFrame f ∧ Wanted cfg.ids f)) := by
  have hi := inv_run cfg junk kjunk es _ (inv_new cfg junk kjunk)
  rw [node_run_append] at hr
  obtain ⟨l, hl, hpub, ht'⟩ := setup_pub cfg junk kjunk _ hi ht hs hr
  have hpub' := pub_run l _ gs _ hpub
  have hi' := inv_run cfg junk kjunk gs _ (inv_step cfg junk kjunk _ hi .started)
  have harr : ((Node.new cfg junk kjunk).run es).t.arrived <+: ((Node.new cfg junk kjunk).run (es ++ .started :: gs)).t.arrived := by
    rw [node_run_append]
    exact arrived_run _ _
  have hn : (Node.new cfg junk kjunk).run (es ++ .started :: gs) = (((Node.new cfg junk kjunk).run es).step .started).run gs := by rw [node_run_append]; rfl
  rw [hn] at hg harr ⊢
  have hsess0 := (hi.starting hs).1.sess
  have hk := sess_lengths hsess0
  generalize ((Node.new cfg junk kjunk).run es) = m at *
  generalize (m.step .started).run gs = n at *
  have hsess : Sess [] [] n.t := by
    rcases hpub'.started with h | h | h
    · exact (hi'.running h).1.sess
    · exact (hi'.closing h).1.sess
    · exact absurd h hg
  obtain ⟨done, fs, f1, f2, f3⟩ := hsess.frames
  simp only [List.nil_append] at f1 f2
  have hlen := pointwise_length _ _ _ f3
  have h2 := congrArg List.length f2
  rw [List.length_append] at h2
  have hc := hpub'.count
  have hdrop : n.t.delivered = fs.take n.t.delivered.length := by rw [← f2]; simp
  refine ⟨done.take m.t.delivered.length, (done.take n.t.delivered.length).drop m.t.delivered.length, done.drop n.t.delivered.length, if n.t.handlers = [0] then [n.t.buffer] else [], (fs.take n.t.delivered.length).drop m.t.delivered.length,
    ?_, ?_, ?_, ?_, ?_, ?_⟩
  · rw [f1]
    congr 1
    rw [show done.take m.t.delivered.length = (done.take n.t.delivered.length).take m.t.delivered.length by rw [List.take_take]; congr 1; omega, List.take_append_drop, List.take_append_drop]
  · have hle : m.t.delivered.length ≤ done.length := by omega
    have hpre : done.take m.t.delivered.length <+: n.t.arrived := by
      rw [f1]
      exact (List.take_prefix _ _).trans (List.prefix_append _ _)
    exact List.prefix_of_prefix_length_le hpre harr (by rw [List.length_take]; omega)
  · rw [List.length_drop]; omega
  · split <;> simp
  · exact pointwise_drop _ _ _ _ (pointwise_take _ _ _ _ f3)
  · rw [hpub'.published hg, ← hdrop]
    exact heard_all cfg.ids l hl _

private def ids99 : Option Ids := some (.list [.int 0x123, .str "700-70f".toList])
private def busEvs99 : List NEv := [.drv (.arrive (kf99 0x123 1)), .drv (.read .main), .drv (.arrive (kf99 0x124 2)), .drv (.read .main), .drv (.arrive (kf99 0x705 3)), .drv (.read .main),
  .drv (.enter .main), .drv (.call .main), .drv (.ret .main), .drv (.call .main), .drv (.ret .main), .drv (.call .main), .drv (.ret .main)]

example : ((new99 ids99).run upEvs99).phase = .starting ∧ ((new99 ids99).run (upEvs99 ++ [.started])).phase = .running ∧ ((new99 ids99).run (upEvs99 ++ .started :: busEvs99)).phase = .running ∧
    ((new99 ids99).run (upEvs99 ++ .started :: busEvs99)).published.map (fun m => (m.id, m.data[0])) = [(0x123, 1), (0x705, 3)] := by decide +kernel

/-- C99.  While a program that publishes is running, the threads can always go on until every frame that has arrived was seen: then the published messages are those for the frames
after the dropped ones. -/
theorem C99_all_published (cfg : Config) (junk : Vector Byte 8) (kjunk : KFrame) (es gs : List NEv) (ht : cfg.toTopic = true) [DecidablePred fun f => ValidFrame f ∧ Wanted cfg.ids f]
    (hs : ((Node.new cfg junk kjunk).run es).phase = .starting) (hr : ((Node.new cfg junk kjunk).run (es ++ [.started])).phase = .running)
    (hg : ((Node.new cfg junk kjunk).run (es ++ .started :: gs)).phase = .running) :
    ∃ ws : List Ev, (∀ e ∈ ws, ownStep e = true) ∧
      let n := (Node.new cfg junk kjunk).run (es ++ .started :: gs ++ ws.map .drv)
      ∃ missed seen fs, n.t.arrived = ((Node.new cfg junk kjunk).run (es ++ .started :: gs)).t.arrived ∧ n.t.arrived = missed ++ seen ∧ missed <+: ((Node.new cfg junk kjunk).run es).t.arrived ∧
        Pointwise Received seen fs ∧ List.Forall₂ MsgMatches n.published (fs.filter fun f => decide (ValidFrame f ∧ Wanted cfg.ids f)) := by
  have hi := inv_run cfg junk kjunk es _ (inv_new cfg junk kjunk)
  rw [node_run_append] at hr
  obtain ⟨l, hl, hpub, ht'⟩ := setup_pub cfg junk kjunk _ hi ht hs hr
  have hi' := inv_run cfg junk kjunk gs _ (inv_step cfg junk kjunk _ hi .started)
  have hpub' := pub_run l _ gs _ hpub
  have harr : ((Node.new cfg junk kjunk).run es).t.arrived <+: ((Node.new cfg junk kjunk).run (es ++ .started :: gs)).t.arrived := by
    rw [node_run_append]
    exact arrived_run _ _
  have hn : (Node.new cfg junk kjunk).run (es ++ .started :: gs) = (((Node.new cfg junk kjunk).run es).step .started).run gs := by rw [node_run_append]; rfl
  have hk := sess_lengths (hi.starting hs).1.sess
  simp only [node_run_append _ (es ++ .started :: gs)]
  rw [hn] at hg harr ⊢
  generalize ((Node.new cfg junk kjunk).run es) = m at *
  generalize (m.step .started).run gs = n at *
  obtain ⟨⟨em, fm, sys, ts, m1, m2, m3, m4⟩, spin, -, -, -⟩ := hi'.running hg
  obtain ⟨xs, ws, hx, hxt, hws, done, fs, d1, d2, d3, d4⟩ : ∃ (xs ws : List Ev), (∀ e ∈ xs, ownStep e = true) ∧ (n.t.run xs).arrived = n.t.arrived ∧ (∀ e ∈ ws, ownStep e = true) ∧
      ∃ (done : List KFrame) (fs : List Frame), (n.t.run (xs ++ ws)).arrived = done ∧ (n.t.run xs).arrived = done ∧ (n.t.run (xs ++ ws)).delivered = fs ∧ Pointwise Received done fs := by
    rcases spin.thread with h | h
    · have hsp : n.t.step .spawn = TD.trigger { n.t with thread := .loop, posts := n.t.posts ++ [n.t.nextPost], nextPost := n.t.nextPost + 1 } := by
        simp only [TD.step]; rw [if_pos h]
      have hrun : (TD.fresh junk kjunk).run (.init cfg.dev false em fm sys :: (ts ++ [.spawn])) = n.t.step .spawn := by
        rw [← List.cons_append, run_append, ← m4]; rfl
      obtain ⟨ws, done, fs, w1, w2, w3, w4, w5⟩ := C98_delivers (TD.fresh junk kjunk) (C98_new_quiet junk kjunk) cfg.dev false em fm sys (ts ++ [.spawn])
        (by
          intro e he
          simp only [List.mem_append, List.mem_cons, List.not_mem_nil, or_false] at he
          rcases he with he | rfl
          · exact m3 e he
          · exact ⟨rfl, rfl⟩)
        (by rw [hrun, hsp, trigger_thread]) (by rw [hrun, hsp]; unfold TD.trigger; split <;> exact spin.stopped)
      rw [run_append, hrun] at w2 w4
      rw [hrun] at w3
      refine ⟨[.spawn], ws, ?_, ?_, w1, done, fs, w2, w3, w4, w5⟩
      · intro e he
        simp only [List.mem_cons, List.not_mem_nil, or_false] at he
        subst he; rfl
      · show (n.t.step .spawn).arrived = _
        rw [hsp]; unfold TD.trigger; split <;> rfl
    · obtain ⟨ws, done, fs, w1, w2, w3, w4, w5⟩ := C98_delivers (TD.fresh junk kjunk) (C98_new_quiet junk kjunk) cfg.dev false em fm sys ts m3 (by rw [← m4]; exact h) (by rw [← m4]; exact spin.stopped)
      rw [run_append, ← m4] at w2 w4
      rw [← m4] at w3
      exact ⟨[], ws, by simp, rfl, w1, done, fs, w2, w3, w4, w5⟩
  have hown : ∀ e ∈ xs ++ ws, ownStep e = true := by
    intro e he
    rw [List.mem_append] at he
    exact he.elim (hx e) (hws e)
  obtain ⟨r1, r2, -⟩ := run_drv (xs ++ ws) (fun e he => ownStep_internal e (hown e he)) n (by rw [hg]; decide)
  have hp2 := pub_run l m.t.delivered.length ((xs ++ ws).map .drv) n hpub'
  have hpd := hp2.published (by rw [r2, hg]; decide)
  have hlen := pointwise_length _ _ _ d4
  have hc := hp2.count
  rw [r1, d3] at hpd hc
  refine ⟨xs ++ ws, hown, done.take m.t.delivered.length, done.drop m.t.delivered.length, fs.drop m.t.delivered.length, ?_, ?_, ?_, pointwise_drop _ _ _ _ d4, ?_⟩
  · rw [r1, d1, ← d2, hxt]
  · rw [r1, d1, List.take_append_drop]
  · have hpre : done.take m.t.delivered.length <+: n.t.arrived := by rw [← hxt, d2]; exact List.take_prefix _ _
    exact List.prefix_of_prefix_length_le hpre harr (by rw [List.length_take]; omega)
  · rw [hpd]; exact heard_all cfg.ids l hl _

example : ((new99 ids99).run upEvs99).phase = .starting ∧ ((new99 ids99).run (upEvs99 ++ [.started])).phase = .running ∧
    ((new99 ids99).run (upEvs99 ++ .started :: [.drv (.arrive (kf99 0x123 1)), .drv (.read .main), .drv (.arrive (kf99 0x705 2))])).phase = .running ∧
    ((new99 ids99).run (upEvs99 ++ .started :: [.drv (.arrive (kf99 0x123 1)), .drv (.read .main), .drv (.arrive (kf99 0x705 2))])).published = [] := by decide +kernel

private theorem kernel_of (f : Frame) (hv : ValidFrame f) : ∃ k, toKernel (ε := Empty) f = .ok k ∧ OnWire f k := by
  unfold toKernel
  rw [if_pos hv.1]
  refine ⟨_, rfl, rfl, ?_, ?_⟩
  · intro i h hi
    simp [hi]
  · intro i
    exact word_getLsbD f.id f.isExtended f.isRtr i

/-- C99.  What a running program does with a message: one that is no valid frame is refused; otherwise its frame is written to the bus if the driver is ready and the write succeeds, and
reported as not sent if not; nothing else is done to the bus. -/
theorem C99_send (cfg : Config) (junk : Vector Byte 8) (kjunk : KFrame) (es : List NEv) (m : Msg) (ec : Int) (hc : cfg.toCan = true)
    (hr : ((Node.new cfg junk kjunk).run es).phase = .running) :
    let n := (Node.new cfg junk kjunk).run es
    let n' := (Node.new cfg junk kjunk).run (es ++ [.msg m ec])
    (¬ ValidFrame (toSocketCAN m) ∧ n'.refused = n.refused ++ [m] ∧ n'.t.d.wire = n.t.d.wire ∧ n'.unsent = n.unsent) ∨
    (ValidFrame (toSocketCAN m) ∧ n'.refused = n.refused ∧
      (n.t.isReady = true ∧ ec = 0 ∧ n'.unsent = n.unsent ∧ n'.t.isReady = true ∧ (∃ k, n'.t.d.wire = n.t.d.wire ++ [k] ∧ OnWire (toSocketCAN m) k) ∨
       (n.t.isReady = false ∨ ec ≠ 0) ∧ n'.unsent = n.unsent ++ [toSocketCAN m] ∧ n'.t.isReady = false ∧ n'.t.d.wire = n.t.d.wire)) := by
  have hi := inv_run cfg junk kjunk es _ (inv_new cfg junk kjunk)
  simp only [node_run_append]
  generalize (Node.new cfg junk kjunk).run es = n at *
  have hstep : n.run [.msg m ec] = n.message m ec := by
    show n.step (.msg m ec) = _
    simp only [Node.step]
    rw [if_pos ⟨hr, by rw [hi.conf]; exact hc⟩]
  rw [hstep]
  by_cases hv : ValidFrame (toSocketCAN m)
  · right
    have hcb : msgCallback m = [toSocketCAN m] := by
      unfold msgCallback
      dsimp only
      rw [if_neg (by rw [(valid_iff _).2 hv]; decide)]
    obtain ⟨k, hk, hkw⟩ := kernel_of (toSocketCAN m) hv
    have hset : ∀ d : Driver, ∀ x, (d.setErrorCode x).wire = d.wire := by intro d x; unfold Driver.setErrorCode; split <;> rfl
    have hdrv : ∀ d : Driver, ∀ x, (d.setDriverState x).wire = d.wire ∧ (d.setDriverState x).state.driver = x := by
      intro d x
      unfold Driver.setDriverState
      split
      · exact ⟨rfl, rfl⟩
      · rename_i hn
        exact ⟨rfl, by rwa [Decidable.not_not] at hn⟩
    unfold Node.message
    rw [hcb]
    dsimp only
    by_cases hrd : n.t.d.state.driver = .ready
    · by_cases hec : ec = 0
      · have hsend : n.t.d.send (toSocketCAN m) ec = .ok (true, { n.t.d with wire := n.t.d.wire ++ [k] }) := by
          unfold Driver.send
          rw [if_pos hrd, hk]
          dsimp only
          rw [if_neg (fun h => h hec)]
        have hst : n.t.step (.send (toSocketCAN m) ec) = { n.t with d := { n.t.d with wire := n.t.d.wire ++ [k] } } := by
          simp only [TD.step, hsend]
        rw [hsend]
        dsimp only
        rw [if_pos rfl, hst]
        exact ⟨hv, rfl, .inl ⟨by simp [TD.isReady, hrd], hec, rfl, by simp [TD.isReady, Node.after, hrd], k, rfl, hkw⟩⟩
      · have hsend : n.t.d.send (toSocketCAN m) ec = .ok (false, (n.t.d.setErrorCode ec).setNotReady) := by
          unfold Driver.send
          rw [if_pos hrd, hk]
          dsimp only
          rw [if_pos hec]
        have hst : n.t.step (.send (toSocketCAN m) ec) = { n.t with d := (n.t.d.setErrorCode ec).setNotReady } := by
          simp only [TD.step, hsend]
        rw [hsend]
        dsimp only
        rw [if_neg (by decide), hst]
        refine ⟨hv, rfl, .inr ⟨.inr hec, rfl, ?_, ?_⟩⟩
        · simp only [TD.isReady, Node.after, Driver.setNotReady, (hdrv _ _).2]
          split <;> decide
        · simp only [Node.after, Driver.setNotReady, (hdrv _ _).1, hset]
    · have hsend : n.t.d.send (toSocketCAN m) ec = .ok (false, n.t.d) := by
        unfold Driver.send
        rw [if_neg hrd]
      have hst : n.t.step (.send (toSocketCAN m) ec) = n.t := by
        simp only [TD.step, hsend]
      rw [hsend]
      dsimp only
      rw [if_neg (by decide), hst]
      exact ⟨hv, rfl, .inr ⟨.inl (by simp [TD.isReady, hrd]), rfl, by simp [TD.isReady, Node.after, hrd], rfl⟩⟩
  · left
    have hcb : msgCallback m = [] := by
      unfold msgCallback
      dsimp only
      rw [if_pos]
      rw [Bool.not_eq_true', ← Bool.not_eq_true]
      exact fun h => hv ((valid_iff _).1 h)
    unfold Node.message
    rw [hcb]
    exact ⟨hv, rfl, rfl, rfl⟩

example : ((new99 none).run (upEvs99 ++ [.started])).phase = .running ∧ (new99 none).cfg.toCan = true ∧
    ((new99 none).run (upEvs99 ++ [.started, .msg (msg99 0x123) 0, .msg (msg99 0x800) 0, .msg (msg99 0x124) 100, .msg (msg99 0x125) 0])).t.d.wire.map (·.canId) = [0x123] ∧
    ((new99 none).run (upEvs99 ++ [.started, .msg (msg99 0x123) 0, .msg (msg99 0x800) 0, .msg (msg99 0x124) 100, .msg (msg99 0x125) 0])).refused = [msg99 0x800] ∧
    ((new99 none).run (upEvs99 ++ [.started, .msg (msg99 0x123) 0, .msg (msg99 0x800) 0, .msg (msg99 0x124) 100, .msg (msg99 0x125) 0])).unsent.map (·.id) = [0x124, 0x125] := by decide +kernel

/-- C99.  Over any history: what is on the bus from the program are the frames of valid messages of the topic, in the order of the messages, each at most once. -/
theorem C99_only_messages (cfg : Config) (junk : Vector Byte 8) (kjunk : KFrame) (es : List NEv) :
    ∃ ms : List Msg, ms.Sublist (msgs es) ∧ (∀ m ∈ ms, ValidFrame (toSocketCAN m)) ∧
      List.Forall₂ (fun m k => OnWire (toSocketCAN m) k) ms ((Node.new cfg junk kjunk).run es).t.d.wire := by
  have key : ∀ (gs es : List NEv) (n : Node), n = (Node.new cfg junk kjunk).run es →
      ∃ ms : List Msg, ms.Sublist (msgs gs) ∧ (∀ m ∈ ms, ValidFrame (toSocketCAN m)) ∧ ∃ ks, (n.run gs).t.d.wire = n.t.d.wire ++ ks ∧ List.Forall₂ (fun m k => OnWire (toSocketCAN m) k) ms ks := by
    intro gs
    induction gs with
    | nil => intro es n _; exact ⟨[], List.Sublist.slnil, by simp, [], by simp [Node.run], List.Forall₂.nil⟩
    | cons g gs ih =>
      intro es n hn
      have hi : Inv cfg junk kjunk n := hn ▸ inv_run cfg junk kjunk es _ (inv_new cfg junk kjunk)
      obtain ⟨ms, a, b, ks, c, d⟩ := ih (es ++ [g]) (n.step g) (by rw [node_run_append, ← hn]; rfl)
      by_cases hm : ∃ m ec, g = .msg m ec ∧ n.phase = .running ∧ n.cfg.toCan = true
      · obtain ⟨m, ec, rfl, h1, h2⟩ := hm
        have hs := C99_send cfg junk kjunk es m ec (by rw [← hi.conf]; exact h2) (by rw [← hn]; exact h1)
        simp only [node_run_append, ← hn] at hs
        have hrun : n.run [.msg m ec] = n.step (.msg m ec) := rfl
        rw [hrun] at hs
        have hsub : ms.Sublist (m :: msgs gs) := a.cons m
        rcases hs with ⟨-, -, h, -⟩ | ⟨hv, -, ⟨-, -, -, -, k, h, hk⟩ | ⟨-, -, -, h⟩⟩
        · exact ⟨ms, hsub, b, ks, by simp only [Node.run]; rw [c, h], d⟩
        · refine ⟨m :: ms, a.cons_cons m, ?_, k :: ks, ?_, List.Forall₂.cons hk d⟩
          · intro x hx
            rw [List.mem_cons] at hx
            rcases hx with rfl | hx
            · exact hv
            · exact b x hx
          · simp only [Node.run]
            rw [c, h, List.append_assoc]; rfl
        · exact ⟨ms, hsub, b, ks, by simp only [Node.run]; rw [c, h], d⟩
      · have h := wire_node n g hm (fun hp => by rw [hi.new hp]; rfl)
        refine ⟨ms, ?_, b, ks, by simp only [Node.run]; rw [c, h], d⟩
        cases g <;> first | exact a | exact a.cons _
  obtain ⟨ms, a, b, ks, c, d⟩ := key es [] _ rfl
  refine ⟨ms, a, b, ?_⟩
  have c' : ((Node.new cfg junk kjunk).run es).t.d.wire = ks := c
  rw [c']
  exact d

example : msgs (upEvs99 ++ [.started, .msg (msg99 0x123) 0, .msg (msg99 0x800) 0, .msg (msg99 0x124) 0]) = [msg99 0x123, msg99 0x800, msg99 0x124] ∧
    ((new99 none).run (upEvs99 ++ [.started, .msg (msg99 0x123) 0, .msg (msg99 0x800) 0, .msg (msg99 0x124) 0])).t.d.wire.map (·.canId) = [0x123, 0x124] := by decide +kernel

/-- C99.  A program works on the bus only after its driver was opened and became ready, with the error masks of its
settings, without getting its own frames back, and, for a program that publishes, with a list of identifiers that can be used; before, it has published and sent nothing. -/
theorem C99_start (cfg : Config) (junk : Vector Byte 8) (kjunk : KFrame) (es : List NEv) :
    let n := (Node.new cfg junk kjunk).run es
    (n.phase = .running → n.t.results = [.init true] ∧ cfg.dev.length < 16 ∧ masks cfg.settings = .ok (n.t.d.errorMask, n.t.d.fatalMask) ∧ n.t.d.loopback = false ∧ (cfg.toTopic = true → Usable cfg.ids)) ∧
    (n.phase ≠ .running ∧ n.phase ≠ .closing ∧ n.phase ≠ .done → n.published = [] ∧ n.t.d.wire = []) := by
  have hi := inv_run cfg junk kjunk es _ (inv_new cfg junk kjunk)
  dsimp only
  generalize (Node.new cfg junk kjunk).run es = n at *
  constructor
  · intro hr
    obtain ⟨r1, r2, r3, r4, r5⟩ := hi.running hr
    obtain ⟨em, fm, k1, k2, k3, k4⟩ := r1.kept
    obtain ⟨_, _, _, _, _, hlen, _⟩ := r1
    refine ⟨r4, hlen, by rw [k1, k3, k4], k2, fun ht => ?_⟩
    rw [if_pos ht] at r5
    rw [← usable_iff]
    cases hl : n.listener with
    | none => rw [hl] at r5; cases r5.1
    | some l => exact ⟨l, by rw [r5.2, hl]⟩
  · intro h
    refine ⟨?_, hi.wire h⟩
    cases hp : n.phase with
    | new => exact (hi.quiet (.inl hp)).2.1
    | starting => exact (hi.starting hp).2.2.2.1
    | failing => exact (hi.quiet (.inr (.inl hp))).2.1
    | failed => exact (hi.quiet (.inr (.inr (.inl hp)))).2.1
    | crashed => exact (hi.quiet (.inr (.inr (.inr (.inl hp))))).2.1
    | undefined => exact (hi.quiet (.inr (.inr (.inr (.inr hp))))).2.1
    | running => exact absurd hp h.1
    | closing => exact absurd hp h.2.1
    | done => exact absurd hp h.2.2

example : ((new99 ids99).run (upEvs99 ++ [.started])).phase = .running ∧ Usable ids99 ∧ ((new99 ids99).run upEvs99).phase = .starting := by
  refine ⟨by decide +kernel, ?_, by decide +kernel⟩
  intro i hi
  simp only [List.mem_cons, List.not_mem_nil, or_false] at hi
  rcases hi with rfl | rfl <;> exact fun h => nomatch h

/-- C99.  If the device cannot be opened the program ends with 1, having done nothing. -/
theorem C99_no_device_partial (cfg : Config) (junk : Vector Byte 8) (kjunk : KFrame) (c : Int) (hd : cfg.dev.length < 16) (hm : ∃ ms, masks cfg.settings = .ok ms) :
    let n := (Node.new cfg junk kjunk).run [.main (.fail c), .started, .drv (.join .ok), .finish]
    n.phase = .failed ∧ n.published = [] ∧ n.t.d.wire = [] ∧ n.t.d.socketOpen = false ∧ n.t.thread = .none ∧ n.t.results.head? = some (.init false) := by
  obtain ⟨⟨em, fm⟩, hm⟩ := hm
  have h0 : ¬ (cfg.dev.length ≥ 16) := by omega
  have e1 : (Node.new cfg junk kjunk).step (.main (.fail c)) = { (Node.new cfg junk kjunk).after ((TD.fresh junk kjunk).step (.init cfg.dev false em fm (.fail c))) with phase := .starting } := by
    simp only [Node.step]
    rw [if_pos (show (Node.new cfg junk kjunk).phase = .new from rfl), if_neg (show ¬ (Node.new cfg junk kjunk).cfg.dev.length ≥ 16 from h0), show masks (Node.new cfg junk kjunk).cfg.settings = _ from hm]
    rfl
  have e2 : (TD.fresh junk kjunk).step (.init cfg.dev false em fm (.fail c)) =
      { TD.fresh junk kjunk with d := ({ (Driver.initial junk) with loopback := false, errorMask := em, fatalMask := fm } : Driver).setErrorCode c, results := [.init false] } := by
    have hi : (Driver.initial junk).init cfg.dev false em fm (.fail c) = .ok (false, ({ (Driver.initial junk) with loopback := false, errorMask := em, fatalMask := fm } : Driver).setErrorCode c) := by
      unfold Driver.init
      rw [if_pos (show (Driver.initial junk).state.driver = .closed from rfl), if_neg h0]
    have hst : (({ (Driver.initial junk) with loopback := false, errorMask := em, fatalMask := fm } : Driver).setErrorCode c).state.driver = .closed := by
      unfold Driver.setErrorCode
      split <;> rfl
    simp only [TD.step, TD.init]
    rw [if_pos (show (TD.fresh junk kjunk).user = .idle from rfl), if_pos (show (TD.fresh junk kjunk).thread = .none from rfl)]
    rw [show (TD.fresh junk kjunk).d = Driver.initial junk from rfl, hi]
    dsimp only
    rw [hst]
    rfl
  have hw : (({ (Driver.initial junk) with loopback := false, errorMask := em, fatalMask := fm } : Driver).setErrorCode c).wire = [] ∧
      (({ (Driver.initial junk) with loopback := false, errorMask := em, fatalMask := fm } : Driver).setErrorCode c).socketOpen = false := by
    unfold Driver.setErrorCode
    split <;> exact ⟨rfl, rfl⟩
  simp only [Node.run]
  rw [e1, e2]
  exact ⟨rfl, rfl, hw.1, hw.2, rfl, rfl⟩

example : (both none).dev.length < 16 ∧ ∃ ms, masks (both none).settings = .ok ms := ⟨by decide, _, rfl⟩

private theorem stuck_run (gs : List NEv) : ∀ n : Node, n.phase = .failing → Stuck n.t → (n.run gs).phase = .failing ∧ (n.run gs).t.d.socketOpen = true := by
  induction gs with
  | nil => intro n h hs; exact ⟨h, hs.opened⟩
  | cons e gs ih =>
    intro n h hs
    refine ih _ ?_ ?_
    · rcases (phase_step n e).2.2.2.2.1 h with h | ⟨-, h⟩
      · exact h
      · rw [hs.user] at h; cases h
    · cases e with
      | main sys => simp only [Node.step]; rw [if_neg (by rw [h]; decide)]; exact hs
      | started => simp only [Node.step]; rw [if_neg (by rw [h]; rintro ⟨h, -⟩; cases h)]; exact hs
      | msg m ec => simp only [Node.step]; rw [if_neg (by rw [h]; rintro ⟨h, -⟩; cases h)]; exact hs
      | quit => simp only [Node.step]; rw [if_neg (by rw [h]; decide)]; exact hs
      | finish => simp only [Node.step]; rw [if_neg (by rw [hs.user]; exact fun h => nomatch h)]; exact hs
      | drv x =>
        simp only [Node.step]
        split
        · rename_i hc
          exact stuck_step n.t x hs hc.1
        · exact hs

/-- C99.  The claim that the program ends with 1 when its driver cannot be started is false if the device was opened: when `init` gives up, `main` waits for ever for the thread of the driver, with the
socket open, whatever happens afterwards. -/
theorem C99_timeout_false (cfg : Config) (junk : Vector Byte 8) (kjunk : KFrame) (es gs : List NEv) (hs : ((Node.new cfg junk kjunk).run es).phase = .starting)
    (hopen : ((Node.new cfg junk kjunk).run es).t.d.socketOpen = true) (hf : ((Node.new cfg junk kjunk).run (es ++ [.started])).phase = .failing) :
    ((Node.new cfg junk kjunk).run (es ++ .started :: gs)).phase = .failing ∧ ((Node.new cfg junk kjunk).run (es ++ .started :: gs)).t.d.socketOpen = true := by
  have hi := inv_run cfg junk kjunk es _ (inv_new cfg junk kjunk)
  rw [node_run_append] at hf ⊢
  generalize (Node.new cfg junk kjunk).run es = n at *
  obtain ⟨s1, s2, -⟩ := hi.starting hs
  refine stuck_run gs _ hf ?_
  have hstep : n.step .started = { n with phase := .failing, t := n.t.destroy } := by
    have hf' : (n.step .started).phase = .failing := hf
    simp only [Node.step] at hf' ⊢
    by_cases hc : n.phase = .starting ∧ n.t.user = .idle
    · rw [if_pos hc] at hf' ⊢
      by_cases hres : n.t.results.getLast? = some (.init true)
      · rw [if_pos hres] at hf'
        unfold Node.setup at hf'
        dsimp only at hf'
        exfalso
        revert hf'
        repeat' split
        all_goals exact fun h => nomatch h
      · rw [if_neg hres]
    · rw [if_neg hc, hs] at hf'; cases hf'
  rw [hstep]
  refine ⟨rfl, hopen, s2.stopped, ?_⟩
  have hg := s1.glob.none
  show n.t.thread = .created ∨ _
  cases hth : n.t.thread with
  | none => rw [(hg (.inl hth)).2] at hopen; cases hopen
  | ended => rw [(hg (.inr hth)).2] at hopen; cases hopen
  | created => exact .inl rfl
  | checked => exact .inr (.inl hth)
  | begun => exact .inr (.inr (.inl hth))
  | loop => exact .inr (.inr (.inr hth))

example : ((new99 none).run [.main .ok, .drv .begin, .drv (.waited true)]).phase = .starting ∧ ((new99 none).run [.main .ok, .drv .begin, .drv (.waited true)]).t.d.socketOpen = true ∧
    ((new99 none).run ([.main .ok, .drv .begin, .drv (.waited true)] ++ [.started])).phase = .failing := by decide +kernel

/-- C99.  A value of `can_ids` that cannot be used ends a program that publishes by an exception when the device has been opened, and only such a value does. -/
theorem C99_ids (cfg : Config) (junk : Vector Byte 8) (kjunk : KFrame) (es : List NEv) (ht : cfg.toTopic = true) (hs : ((Node.new cfg junk kjunk).run es).phase = .starting)
    (hr : ((Node.new cfg junk kjunk).run es).t.results = [.init true]) (hu : ((Node.new cfg junk kjunk).run es).t.user = .idle) :
    (Usable cfg.ids → ((Node.new cfg junk kjunk).run (es ++ [.started])).phase = .running) ∧
    (¬ Usable cfg.ids → ∀ gs, ((Node.new cfg junk kjunk).run (es ++ .started :: gs)).phase = .crashed) := by
  have hi := inv_run cfg junk kjunk es _ (inv_new cfg junk kjunk)
  simp only [node_run_append]
  generalize (Node.new cfg junk kjunk).run es = n at *
  have hstep : n.step .started = n.setup := by
    simp only [Node.step]
    rw [if_pos ⟨hs, hu⟩, hr, if_pos (show [Result.init true].getLast? = some (Result.init true) from rfl)]
  have hset : n.setup = match listenerOf cfg.ids with
      | some l => { n with listener := some l, stateListeners := (if n.cfg.toCan then 1 else 0) + 1, phase := .running }
      | none => { n with phase := .crashed } := by
    unfold Node.setup
    dsimp only
    rw [if_pos (by rw [hi.conf]; exact ht), show n.cfg.ids = cfg.ids from by rw [hi.conf]]
    rfl
  constructor
  · intro h
    obtain ⟨l, hl⟩ := (usable_iff cfg.ids).2 h
    show (n.step .started).phase = _
    rw [hstep, hset, hl]
  · intro h gs
    have hl : listenerOf cfg.ids = none := by
      cases hl : listenerOf cfg.ids with
      | none => rfl
      | some l => exact absurd ((usable_iff cfg.ids).1 ⟨l, hl⟩) h
    have hc : (n.step .started).phase = .crashed := by rw [hstep, hset, hl]
    have : ∀ (gs : List NEv) (m : Node), m.phase = .crashed → (m.run gs).phase = .crashed := by
      intro gs
      induction gs with
      | nil => intro m h; exact h
      | cons e gs ih => intro m h; exact ih _ ((phase_step m e).2.1 h)
    exact this gs _ hc

example : ((new99 (some .unsized)).run upEvs99).phase = .starting ∧ ((new99 (some .unsized)).run upEvs99).t.results = [.init true] ∧ ((new99 (some .unsized)).run upEvs99).t.user = .idle ∧
    ¬ Usable (some .unsized) := ⟨by decide +kernel, by decide +kernel, by decide +kernel, id⟩

private theorem fault_run (cfg : Config) (junk : Vector Byte 8) (kjunk : KFrame) (gs : List NEv) : ∀ n : Node, Inv cfg junk kjunk n → (n.phase = .running ∨ n.phase = .closing ∨ n.phase = .done) →
    n.t.d.state.driver ≠ .ready → (n.run gs).t.d.state.driver ≠ .ready ∧ (n.run gs).t.d.wire = n.t.d.wire := by
  induction gs with
  | nil => intro n _ _ h; exact ⟨h, rfl⟩
  | cons e gs ih =>
    intro n hi hp h
    have hph : n.phase ≠ .new ∧ n.phase ≠ .starting ∧ n.phase ≠ .failing := by rcases hp with h | h | h <;> rw [h] <;> decide
    have hpast : Past n.t.thread := by
      rcases hp with h | h | h
      · rcases (hi.running h).2.1.thread with h | h <;> rw [h] <;> exact ⟨(fun h => nomatch h), (fun h => nomatch h)⟩
      · exact (hi.closing h).2.1
      · rw [(hi.done h).2.1]; exact ⟨(fun h => nomatch h), (fun h => nomatch h)⟩
    have hp' : (n.step e).phase = .running ∨ (n.step e).phase = .closing ∨ (n.step e).phase = .done := by
      rcases hp with h | h | h
      · cases e with
        | main sys => simp only [Node.step]; rw [if_neg hph.1]; exact .inl h
        | started => simp only [Node.step]; rw [if_neg (fun h => hph.2.1 h.1)]; exact .inl h
        | msg m ec =>
          simp only [Node.step]
          split
          · rw [(message_fields n m ec).2.1]; exact .inl h
          · exact .inl h
        | quit => simp only [Node.step]; rw [if_pos h]; exact .inr (.inl rfl)
        | finish =>
          simp only [Node.step]
          split
          · rw [if_neg (by rw [h]; decide), if_neg hph.2.2]; exact .inl h
          · exact .inl h
        | drv x =>
          simp only [Node.step]
          split <;> exact .inl h
      · exact .inr ((phase_step n e).2.2.2.1 h)
      · exact .inr (.inr ((phase_step n e).1 h))
    have hs : (n.step e).t.d.state.driver ≠ .ready := by
      rcases step_t n e with h' | ⟨x, h', hx⟩ | h'
      · rw [h']; exact h
      · rw [h']
        rcases hx with ⟨-, hx⟩ | hx | rfl | ⟨f, ec, rfl⟩
        · exact absurd hx hph.1
        · exact notReady_step n.t x hpast h (.inl hx)
        · exact notReady_step n.t _ hpast h (.inr (.inl rfl))
        · exact notReady_step n.t _ hpast h (.inr (.inr ⟨_, _, rfl⟩))
      · rw [h']; exact h
    obtain ⟨a, b⟩ := ih (n.step e) (inv_step cfg junk kjunk n hi e) hp' hs
    refine ⟨a, ?_⟩
    simp only [Node.run]
    rw [b]
    by_cases hm : ∃ m ec, e = .msg m ec ∧ n.phase = .running ∧ n.cfg.toCan = true
    · obtain ⟨m, ec, rfl, h1, h2⟩ := hm
      simp only [Node.step]
      rw [if_pos ⟨h1, h2⟩]
      unfold Node.message
      split
      · rfl
      · rename_i f _ _
        have hsend : n.t.d.send f ec = .ok (false, n.t.d) := by
          unfold Driver.send
          rw [if_neg h]
        have hst : n.t.step (.send f ec) = n.t := by
          simp only [TD.step, hsend]
        rw [hsend]
        dsimp only
        rw [if_neg (by decide), hst]
        rfl
    · exact wire_node n e hm (fun hp => absurd hp hph.1)

/-- C99.  The claim that a program goes on after a fault of the bus is false: once the driver of a running program is not ready, it is never ready again and nothing is sent any more, whatever happens,
since `main` does not recover the driver. -/
theorem C99_fault_false (cfg : Config) (junk : Vector Byte 8) (kjunk : KFrame) (es gs : List NEv) (hr : ((Node.new cfg junk kjunk).run es).phase = .running)
    (hf : ((Node.new cfg junk kjunk).run es).t.isReady = false) :
    ((Node.new cfg junk kjunk).run (es ++ gs)).t.isReady = false ∧ ((Node.new cfg junk kjunk).run (es ++ gs)).t.d.wire = ((Node.new cfg junk kjunk).run es).t.d.wire := by
  have hi := inv_run cfg junk kjunk es _ (inv_new cfg junk kjunk)
  simp only [node_run_append]
  obtain ⟨a, b⟩ := fault_run cfg junk kjunk gs _ hi (.inl hr) (by simpa [TD.isReady] using hf)
  exact ⟨by simpa [TD.isReady] using a, b⟩

/-- a bus-off frame, then a failed write -/
example : ((new99 none).run (upEvs99 ++ [.started, .drv (.arrive { canId := 0x20000040#32, dlc := 8, data := jk99 }), .drv (.read .main)])).phase = .running ∧
    ((new99 none).run (upEvs99 ++ [.started, .drv (.arrive { canId := 0x20000040#32, dlc := 8, data := jk99 }), .drv (.read .main)])).t.isReady = false ∧
    ((new99 none).run (upEvs99 ++ [.started, .msg (msg99 0x123) 100])).phase = .running ∧ ((new99 none).run (upEvs99 ++ [.started, .msg (msg99 0x123) 100])).t.isReady = false := by decide +kernel

/-- no read is under way and none has been completed -/
private def Deaf (s : TD) : Prop := s.reads = 0 ∧ s.handlers = [] ∧ s.thread ≠ .begun ∧ Past s.thread

private theorem deaf_step (s : TD) (e : Ev) (h : Deaf s) (hi : internal e = true ∨ e = .shutdown ∨ ∃ f ec, e = .send f ec) : Deaf (s.step e) ∧ (s.step e).arrived = s.arrived := by
  have h0 := h
  obtain ⟨h1, h2, h3, h4⟩ := h
  cases e with
  | init dev lb em fm sys => rcases hi with h | h | ⟨_, _, h⟩ <;> cases h
  | recover => rcases hi with h | h | ⟨_, _, h⟩ <;> cases h
  | begin => simp only [TD.step]; rw [if_neg h4.1]; exact ⟨h0, rfl⟩
  | reset => simp only [TD.step]; rw [if_neg h4.2]; exact ⟨h0, rfl⟩
  | spawn => simp only [TD.step]; rw [if_neg h3]; exact ⟨h0, rfl⟩
  | arrive k => simp only [TD.step]; rw [if_neg (by rw [h1]; rintro ⟨-, h⟩; cases h)]; exact ⟨h0, rfl⟩
  | fail k => simp only [TD.step]; rw [if_neg (by rw [h1]; rintro ⟨-, h, -⟩; cases h)]; exact ⟨h0, rfl⟩
  | read w => simp only [TD.step, h2]; exact ⟨by split <;> exact h0, by split <;> rfl⟩
  | close =>
    simp only [TD.step]
    split
    · split
      · exact ⟨⟨rfl, by simp [h1, h2], h3, h4⟩, rfl⟩
      · exact ⟨h0, rfl⟩
    · exact ⟨h0, rfl⟩
  | endLoop =>
    simp only [TD.step]
    split
    · exact ⟨⟨h1, h2, (fun h => nomatch h), ⟨(fun h => nomatch h), (fun h => nomatch h)⟩⟩, rfl⟩
    · exact ⟨h0, rfl⟩
  | join sys =>
    simp only [TD.step]
    split
    · split
      · unfold TD.joined
        dsimp only
        repeat' split
        all_goals exact ⟨⟨h1, h2, (fun h => nomatch h), ⟨(fun h => nomatch h), (fun h => nomatch h)⟩⟩, rfl⟩
      · exact ⟨h0, rfl⟩
    · exact ⟨h0, rfl⟩
  | _ =>
    simp only [TD.step]
    repeat' split
    all_goals exact ⟨⟨h1, h2, h3, h4⟩, rfl⟩

/-- C99.  The same for receiving: after a read has failed in a running program, no frame is received any more, whatever happens. -/
theorem C99_read_error_false (cfg : Config) (junk : Vector Byte 8) (kjunk : KFrame) (es gs : List NEv) (x : Int) (hx : x ≠ 0) (hr : ((Node.new cfg junk kjunk).run es).phase = .running)
    (hh : ((Node.new cfg junk kjunk).run es).t.handlers = [x]) (hw : ((Node.new cfg junk kjunk).run es).t.canWork .main = true) :
    ((Node.new cfg junk kjunk).run (es ++ .drv (.read .main) :: gs)).t.arrived = ((Node.new cfg junk kjunk).run es).t.arrived := by
  have hi := inv_run cfg junk kjunk es _ (inv_new cfg junk kjunk)
  simp only [node_run_append]
  generalize (Node.new cfg junk kjunk).run es = n at *
  obtain ⟨r1, r2, -⟩ := hi.running hr
  have hstep : n.step (.drv (.read .main)) = n.after (n.t.step (.read .main)) := by
    simp only [Node.step]
    rw [if_pos ⟨rfl, by rw [hr]; decide⟩]
  have ht : n.t.step (.read .main) = { n.t with handlers := [], d := n.t.d.readError x } := by
    simp only [TD.step]
    rw [if_pos ⟨by rw [r2.stopped]; rfl, hw⟩, hh]
    dsimp only
    unfold TD.readDone
    rw [if_neg hx]
  have hloop := ((canWork_main n.t).1 hw).2
  have hreads : n.t.reads = 0 := by
    have := r1.sess.tokens
    rw [hh] at this
    simpa using this
  have hd : Deaf (n.step (.drv (.read .main))).t := by
    rw [hstep]
    show Deaf (n.t.step (.read .main))
    rw [ht]
    exact ⟨hreads, rfl, (by rw [show TD.thread _ = n.t.thread from rfl, hloop]; decide), (by rw [show TD.thread _ = n.t.thread from rfl, hloop]; exact ⟨(fun h => nomatch h), (fun h => nomatch h)⟩)⟩
  have harr : (n.step (.drv (.read .main))).t.arrived = n.t.arrived := by
    rw [hstep]
    show (n.t.step (.read .main)).arrived = _
    rw [ht]
  have hph : (n.step (.drv (.read .main))).phase ≠ .new ∧ (n.step (.drv (.read .main))).phase ≠ .starting := by
    rw [hstep]
    show n.phase ≠ _ ∧ n.phase ≠ _
    rw [hr]; decide
  show ((n.step (.drv (.read .main))).run gs).t.arrived = _
  rw [← harr]
  generalize n.step (.drv (.read .main)) = m at *
  clear hi hstep harr r1 r2
  induction gs generalizing m with
  | nil => rfl
  | cons e gs ih =>
    have hkeep : (m.step e).phase ≠ .new ∧ (m.step e).phase ≠ .starting := by
      cases e with
      | main sys => simp only [Node.step]; rw [if_neg hph.1]; exact hph
      | started => simp only [Node.step]; rw [if_neg (fun h => hph.2 h.1)]; exact hph
      | msg y ec =>
        simp only [Node.step]
        split
        · rw [(message_fields m y ec).2.1]; exact hph
        · exact hph
      | quit =>
        simp only [Node.step]
        split
        · exact ⟨(fun h => nomatch h), (fun h => nomatch h)⟩
        · exact hph
      | finish =>
        simp only [Node.step]
        repeat' split
        all_goals first | exact hph | exact ⟨(fun h => nomatch h), (fun h => nomatch h)⟩
      | drv y =>
        simp only [Node.step]
        split <;> exact hph
    have hone : Deaf (m.step e).t ∧ (m.step e).t.arrived = m.t.arrived := by
      rcases step_t m e with h' | ⟨y, h', hy⟩ | h'
      · rw [h']; exact ⟨hd, rfl⟩
      · rw [h']
        rcases hy with ⟨-, hy⟩ | hy | rfl | ⟨f, ec, rfl⟩
        · exact absurd hy hph.1
        · exact deaf_step m.t y hd (.inl hy)
        · exact deaf_step m.t _ hd (.inr (.inl rfl))
        · exact deaf_step m.t _ hd (.inr (.inr ⟨_, _, rfl⟩))
      · rw [h']; exact ⟨hd, rfl⟩
    simp only [Node.run]
    rw [ih (m.step e) hone.1 hkeep, hone.2]

example : ((new99 none).run (upEvs99 ++ [.started, .drv (.fail 100)])).phase = .running ∧ ((new99 none).run (upEvs99 ++ [.started, .drv (.fail 100)])).t.handlers = [100] ∧
    ((new99 none).run (upEvs99 ++ [.started, .drv (.fail 100)])).t.canWork .main = true := by decide +kernel

/-- C99.  A program that was asked to end can always end. -/
theorem C99_quit (cfg : Config) (junk : Vector Byte 8) (kjunk : KFrame) (es : List NEv) (hc : ((Node.new cfg junk kjunk).run es).phase = .closing) :
    ∃ ws : List Ev, (∀ e ∈ ws, ownStep e = true) ∧ ((Node.new cfg junk kjunk).run (es ++ ws.map .drv ++ [.finish])).phase = .done := by
  have hi := inv_run cfg junk kjunk es _ (inv_new cfg junk kjunk)
  simp only [node_run_append]
  generalize (Node.new cfg junk kjunk).run es = n at *
  obtain ⟨c1, c2, c3, c4, c5, c6, c7⟩ := hi.closing hc
  obtain ⟨ws, w1, w2⟩ := down_returns [.init true] n.t c6 c1.owned
  obtain ⟨r1, r2, -⟩ := run_drv ws (fun e he => ownStep_internal e (w1 e he)) n (by rw [hc]; decide)
  have hi' := inv_run cfg junk kjunk (ws.map .drv) n hi
  refine ⟨ws, w1, ?_⟩
  generalize n.run (ws.map .drv) = m at *
  have hmc : m.phase = .closing := by rw [r2, hc]
  have hidle : m.t.user = .idle := by
    rcases (hi'.closing hmc).2.2.2.2.2.2 with h | h
    · rw [← r1, h] at w2
      have := w2.length_le
      simp at this
    · exact h
  show (m.step .finish).phase = .done
  simp only [Node.step]
  rw [if_pos hidle, if_pos hmc]

example : ((new99 none).run (upEvs99 ++ [.started, .quit])).phase = .closing ∧
    ((new99 none).run (upEvs99 ++ [.started, .quit, .drv .close, .drv .stop, .drv .endLoop, .drv (.join .ok), .finish])).phase = .done := by decide +kernel

/-- C99.  When a program has ended its driver is closed and its thread has ended, and nothing is published or sent any more. -/
theorem C99_done (cfg : Config) (junk : Vector Byte 8) (kjunk : KFrame) (es gs : List NEv) (hd : ((Node.new cfg junk kjunk).run es).phase = .done) :
    let n := (Node.new cfg junk kjunk).run es
    let n' := (Node.new cfg junk kjunk).run (es ++ gs)
    n.t.d.socketOpen = false ∧ n.t.isReady = false ∧ n.t.thread = .none ∧ n'.phase = .done ∧ n'.published = n.published ∧ n'.t.d.wire = n.t.d.wire := by
  have hi := inv_run cfg junk kjunk es _ (inv_new cfg junk kjunk)
  simp only [node_run_append]
  generalize (Node.new cfg junk kjunk).run es = n at *
  obtain ⟨d1, d2, d3, d4, d5⟩ := hi.done hd
  obtain ⟨g1, g2⟩ := d1.glob.none (.inl d2)
  have hnr : n.t.d.state.driver ≠ .ready := by rw [g1]; decide
  refine ⟨g2, by simpa [TD.isReady] using hnr, d2, ?_⟩
  refine (fun (h : (n.run gs).phase = .done ∧ (n.run gs).published = n.published) => ⟨h.1, h.2, (fault_run cfg junk kjunk gs n hi (.inr (.inr hd)) hnr).2⟩) ?_
  clear d1 d2 d3 d4 d5 g1 g2 hnr
  induction gs generalizing n with
  | nil => exact ⟨hd, rfl⟩
  | cons e gs ih =>
    have hd' := (phase_step n e).1 hd
    obtain ⟨a, b⟩ := ih (n.step e) hd' (inv_step cfg junk kjunk n hi e)
    refine ⟨a, ?_⟩
    simp only [Node.run]
    rw [b]
    obtain ⟨-, -, -, d4, d5⟩ := hi.done hd
    cases e with
    | main sys => simp only [Node.step]; rw [if_neg (by rw [hd]; decide)]
    | started => simp only [Node.step]; rw [if_neg (by rw [hd]; rintro ⟨h, -⟩; cases h)]
    | msg m ec => simp only [Node.step]; rw [if_neg (by rw [hd]; rintro ⟨h, -⟩; cases h)]
    | quit => simp only [Node.step]; rw [if_neg (by rw [hd]; decide)]
    | finish =>
      simp only [Node.step]
      repeat' split
      all_goals rfl
    | drv x =>
      simp only [Node.step]
      split
      · exact (notified_after n _ d4 d5).1
      · rfl

example : ((new99 none).run (upEvs99 ++ [.started, .quit, .drv .close, .drv .stop, .drv .endLoop, .drv (.join .ok), .finish])).phase = .done := by decide +kernel

private theorem halves_pos (cfg : Config) (h : cfg.toTopic = true ∨ cfg.toCan = true) : 0 < (if cfg.toCan then 1 else 0) + (if cfg.toTopic then 1 else 0) := by
  rcases h with h | h
  · rw [h, if_pos rfl]; omega
  · rw [h, if_pos rfl]; omega

private theorem drop_same {α : Type} (a b : List α) : (a ++ b).drop a.length = b := by simp

/-- C99.  A fatal error frame of the bus is logged by a running program as an error with its translation, unless this error is the one reported before. -/
theorem C99_fault_logged_partial (cfg : Config) (junk : Vector Byte 8) (kjunk : KFrame) (es : List NEv) (hhalf : cfg.toTopic = true ∨ cfg.toCan = true)
    (hr : ((Node.new cfg junk kjunk).run es).phase = .running) (hh : ((Node.new cfg junk kjunk).run es).t.handlers = [0]) (hw : ((Node.new cfg junk kjunk).run es).t.canWork .main = true) :
    let n := (Node.new cfg junk kjunk).run es
    let n' := (Node.new cfg junk kjunk).run (es ++ [.drv (.read .main)])
    let err := (fromKernel n.t.d.input n.t.buffer).id.setWidth 32
    n.t.buffer.canId &&& CAN_ERR_FLAG ≠ 0#32 → n.t.buffer.canId &&& n.t.d.fatalMask ≠ 0#32 → n.t.d.state.internalError ≠ err → err ≠ 0#32 →
    ∃ lines, n'.states = n.states ++ lines ∧ lines ≠ [] ∧ ∀ line ∈ lines, line.error = true ∧ line.text = (translateError err []).2 := by
  have hi := inv_run cfg junk kjunk es _ (inv_new cfg junk kjunk)
  simp only [node_run_append]
  generalize (Node.new cfg junk kjunk).run es = n at *
  intro h1 h2 h3 h4
  obtain ⟨r1, r2, r3, -⟩ := hi.running hr
  have hstep : n.run [.drv (.read .main)] = n.after (n.t.step (.read .main)) := by
    show n.step (.drv (.read .main)) = _
    simp only [Node.step]
    rw [if_pos ⟨rfl, by rw [hr]; decide⟩]
  rw [hstep]
  have htd : ∀ x : TD, x.trigger.d = x.d := by intro x; unfold TD.trigger; split <;> rfl
  have ht : (n.t.step (.read .main)).d = n.t.d.readOk n.t.buffer := by
    simp only [TD.step]
    rw [if_pos ⟨by rw [r2.stopped]; rfl, hw⟩, hh]
    dsimp only
    unfold TD.readDone
    rw [if_pos rfl]
    dsimp only
    rw [htd]
  obtain ⟨more, hm, hl⟩ : ∃ more, (n.t.d.readOk n.t.buffer).notified = n.t.d.notified ++ more ∧ more ≠ [] ∧ ∀ s ∈ more, s.internalError = (fromKernel n.t.d.input n.t.buffer).id.setWidth 32 := by
    unfold Driver.readOk
    dsimp only
    rw [if_pos ⟨h1, h2⟩]
    have hint : ∃ s, (({ n.t.d with input := fromKernel n.t.d.input n.t.buffer } : Driver).setInternalError ((fromKernel n.t.d.input n.t.buffer).id.setWidth 32)).notified = n.t.d.notified ++ [s] ∧
        s.internalError = (fromKernel n.t.d.input n.t.buffer).id.setWidth 32 ∧
        (({ n.t.d with input := fromKernel n.t.d.input n.t.buffer } : Driver).setInternalError ((fromKernel n.t.d.input n.t.buffer).id.setWidth 32)).state.internalError = (fromKernel n.t.d.input n.t.buffer).id.setWidth 32 := by
      unfold Driver.setInternalError
      rw [if_pos h3]
      exact ⟨_, rfl, rfl, rfl⟩
    obtain ⟨s, a, b, c⟩ := hint
    generalize (({ n.t.d with input := fromKernel n.t.d.input n.t.buffer } : Driver).setInternalError ((fromKernel n.t.d.input n.t.buffer).id.setWidth 32)) = d at *
    unfold Driver.setNotReady
    generalize (if d.socketOpen = true then DriverState.opened else DriverState.closed) = y
    unfold Driver.setDriverState
    split
    · refine ⟨[s, { d.state with driver := y }], by dsimp only; rw [a, List.append_assoc]; rfl, by simp, ?_⟩
      intro x hx
      simp only [List.mem_cons, List.not_mem_nil, or_false] at hx
      rcases hx with rfl | rfl
      · exact b
      · exact c
    · exact ⟨[s], a, by simp, by intro x hx; rw [List.mem_singleton] at hx; rw [hx]; exact b⟩
  have hk : 0 < n.stateListeners := by rw [r3]; exact halves_pos cfg hhalf
  refine ⟨_, rfl, ?_, ?_⟩
  · rw [ht, hm, drop_same]
    cases more with
    | nil => exact absurd rfl hl.1
    | cons s more =>
      rw [List.flatMap_cons]
      intro hn
      have := congrArg List.length hn
      simp only [List.length_append, List.length_replicate, List.length_nil] at this
      omega
  · intro line hline
    rw [ht, hm, drop_same, List.mem_flatMap] at hline
    obtain ⟨s, hs, hmem⟩ := hline
    rw [List.eq_of_mem_replicate hmem]
    unfold stateCallback
    dsimp only
    rw [hl.2 s hs]
    exact ⟨by simpa using h4, rfl⟩

example : let n := (new99 none).run (upEvs99 ++ [.started, .drv (.arrive { canId := 0x20000040#32, dlc := 8, data := jk99 })])
    n.phase = .running ∧ n.t.handlers = [0] ∧ n.t.canWork .main = true ∧ n.t.buffer.canId &&& CAN_ERR_FLAG ≠ 0#32 ∧ n.t.buffer.canId &&& n.t.d.fatalMask ≠ 0#32 ∧
    n.t.d.state.internalError ≠ (fromKernel n.t.d.input n.t.buffer).id.setWidth 32 ∧ (fromKernel n.t.d.input n.t.buffer).id.setWidth 32 ≠ 0#32 := by decide +kernel

/-- C99.  The claim for other faults is false: when a read fails in a running program that has seen no fatal error frame, what it logs is only information, with the text "OK". -/
theorem C99_read_error_logged_false (cfg : Config) (junk : Vector Byte 8) (kjunk : KFrame) (es : List NEv) (x : Int) (hx : x ≠ 0)
    (hr : ((Node.new cfg junk kjunk).run es).phase = .running) (hh : ((Node.new cfg junk kjunk).run es).t.handlers = [x]) (hw : ((Node.new cfg junk kjunk).run es).t.canWork .main = true)
    (h0 : ((Node.new cfg junk kjunk).run es).t.d.state.internalError = 0#32) :
    let n := (Node.new cfg junk kjunk).run es
    let n' := (Node.new cfg junk kjunk).run (es ++ [.drv (.read .main)])
    n'.t.isReady = false ∧ ∃ lines, n'.states = n.states ++ lines ∧ ∀ line ∈ lines, line.error = false ∧ line.text = "OK".toList := by
  have hi := inv_run cfg junk kjunk es _ (inv_new cfg junk kjunk)
  simp only [node_run_append]
  generalize (Node.new cfg junk kjunk).run es = n at *
  obtain ⟨r1, r2, r3, -⟩ := hi.running hr
  have hstep : n.run [.drv (.read .main)] = n.after (n.t.step (.read .main)) := by
    show n.step (.drv (.read .main)) = _
    simp only [Node.step]
    rw [if_pos ⟨rfl, by rw [hr]; decide⟩]
  rw [hstep]
  have ht : n.t.step (.read .main) = { n.t with handlers := [], d := n.t.d.readError x } := by
    simp only [TD.step]
    rw [if_pos ⟨by rw [r2.stopped]; rfl, hw⟩, hh]
    dsimp only
    unfold TD.readDone
    rw [if_neg hx]
  have hds : ∀ (d : Driver) x, (d.setDriverState x).state.driver = x := by
    intro d x
    unfold Driver.setDriverState
    split
    · rfl
    · rename_i hn
      rwa [Decidable.not_not] at hn
  obtain ⟨more, hm, hl⟩ : ∃ more, (n.t.d.readError x).notified = n.t.d.notified ++ more ∧ ∀ s ∈ more, s.internalError = 0#32 := by
    have h1 : ∃ more, (n.t.d.setErrorCode x).notified = n.t.d.notified ++ more ∧ (∀ s ∈ more, s.internalError = 0#32) ∧ (n.t.d.setErrorCode x).state.internalError = 0#32 := by
      unfold Driver.setErrorCode
      split
      · exact ⟨_, rfl, by simp [h0], h0⟩
      · exact ⟨[], by simp, by simp, h0⟩
    obtain ⟨more, a, b, c⟩ := h1
    unfold Driver.readError Driver.setNotReady
    generalize n.t.d.setErrorCode x = d at *
    generalize (if d.socketOpen = true then DriverState.opened else DriverState.closed) = y
    unfold Driver.setDriverState
    split
    · refine ⟨more ++ [{ d.state with driver := y }], by dsimp only; rw [a, List.append_assoc], ?_⟩
      intro s hs
      rw [List.mem_append] at hs
      rcases hs with hs | hs
      · exact b s hs
      · rw [List.mem_singleton] at hs; rw [hs]; exact c
    · exact ⟨more, a, b⟩
  refine ⟨?_, _, rfl, ?_⟩
  · show TD.isReady (n.t.step (.read .main)) = false
    rw [ht]
    simp only [TD.isReady, Driver.readError, Driver.setNotReady, hds]
    split <;> decide
  · intro line hline
    have htd : (n.t.step (.read .main)).d = n.t.d.readError x := by rw [ht]
    rw [htd, hm, drop_same, List.mem_flatMap] at hline
    obtain ⟨s, hs, hmem⟩ := hline
    rw [List.eq_of_mem_replicate hmem]
    unfold stateCallback
    dsimp only
    rw [hl s hs]
    exact ⟨by decide, by decide⟩

/-- the network is down (100) -/
example : let n := (new99 none).run (upEvs99 ++ [.started, .drv (.fail 100)])
    n.phase = .running ∧ n.t.handlers = [100] ∧ n.t.canWork .main = true ∧ n.t.d.state.internalError = 0#32 ∧
    (n.step (.drv (.read .main))).states.map (fun l => (l.error, l.text, l.code)) = [(false, "OK".toList, 100), (false, "OK".toList, 100), (false, "OK".toList, 100), (false, "OK".toList, 100)] := by
  decide +kernel

end Verif.Props
