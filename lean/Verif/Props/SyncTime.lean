import Verif.Lemmas.SyncTime

/-! # C101: the control cycle keeps time with SYNC -/

namespace Verif.Props
open Verif Verif.Lay Verif.SyT Verif.Spec.SyT

/-! ## The producer -/

private theorem create_past {p : Sync.Props} {junk : Vector Byte 8} {now : Nat} {t : Simple} (h : Simple.create p junk now = some t) :
    t.props = p ∧ t.sent = [] := by
  unfold Simple.create at h
  cases hs : Sync.Simple.create p junk with
  | none => rw [hs] at h; cases h
  | some s => rw [hs] at h; cases h; exact ⟨rfl, rfl⟩

private theorem create_nodes {p : Sync.Props} {junk : Vector Byte 8} {now : Nat} {t : Simple} (h : Simple.create p junk now = some t) : t.s.nodes = [] := by
  unfold Simple.create Sync.Simple.create at h
  dsimp only at h
  split at h
  · cases h
  · split at h <;> · cases h; rfl

/-- SYNC is never early: what a write phase sends after the `n`-th read phase since the initialisation (at `t0`) is sent no earlier than `t0 + (n + 1)` periods. -/
theorem C101_never_early (p : Sync.Props) (junk : Vector Byte 8) (now : Nat) (t : Simple) (hc : Simple.create p junk now = some t) (pre es : List Ev) (g : Nat)
    (hn : NoInit es) (st : LayerState) (wg l : Nat) :
    ∃ new, (t.run (pre ++ .init g :: es ++ [.write st wg l])).sent = (t.run (pre ++ .init g :: es)).sent ++ new ∧
      ∀ x ∈ new, (t.run (pre ++ [.init g])).clock + (readPhases es + 1) * period p ≤ x.1 := by
  simp only [period_eq]
  have hp := (create_past hc).1
  rw [run_append t (pre ++ .init g :: es), show pre ++ Ev.init g :: es = (pre ++ [Ev.init g]) ++ es by simp, run_append t (pre ++ [Ev.init g]) es, run_append t pre [Ev.init g]]
  have h0 : ((t.run pre).run [.init g]).writeAt = ((t.run pre).run [.init g]).clock + step p := by
    show (t.run pre).clock + g + step (t.run pre).props = _
    rw [run_props, hp]; rfl
  have hpu : ((t.run pre).run [.init g]).props = p := by rw [run_props, run_props, hp]
  generalize (t.run pre).run [.init g] = u at h0 hpu
  have hw := writeAt_run u es hn
  have hpv : (u.run es).props = p := by rw [run_props, hpu]
  generalize u.run es = v at hw hpv
  rw [show v.run [.write st wg l] = v.write st wg l from rfl]
  unfold Simple.write
  by_cases ha : active st
  · rw [if_pos ha]
    refine ⟨_, rfl, ?_⟩
    intro x hx
    rw [List.mem_map] at hx
    obtain ⟨f, _, rfl⟩ := hx
    rw [h0, hpu] at hw
    dsimp only
    have : (readPhases es + 1) * step p = step p * readPhases es + step p := by rw [Nat.add_mul, Nat.mul_comm]; omega
    omega
  · rw [if_neg ha]
    exact ⟨[], by simp, by simp⟩

/-- Every read phase returns at least half a period after every SYNC sent before it, so that the values of the period have arrived. -/
theorem C101_read_shifted (p : Sync.Props) (junk : Vector Byte 8) (now : Nat) (t : Simple) (hc : Simple.create p junk now = some t) (es : List Ev)
    (st : LayerState) (hst : Running st) (g l : Nat) :
    ∀ x ∈ (t.run (es ++ [.read st g l])).sent, x.1 + halfPeriod p ≤ (t.run (es ++ [.read st g l])).clock := by
  simp only [halfPeriod_eq]
  rw [running_iff] at hst
  obtain ⟨hp, hs⟩ := create_past hc
  have h := past_run t es (by intro x hx; rw [hs] at hx; cases hx)
  have hpu : (t.run es).props = p := by rw [run_props, hp]
  rw [run_append]
  generalize t.run es = u at h hpu
  rw [show u.run [.read st g l] = u.read st g l from rfl]
  unfold Simple.read
  rw [if_pos hst]
  intro x hx
  have := (h x hx).2
  rw [hpu] at this
  dsimp only
  omega

/-- SYNC frames are at least half a period apart when read and write phases alternate.  (A user expects a whole period: see `C101_catch_up_false`.) -/
theorem C101_spacing_partial (p : Sync.Props) (junk : Vector Byte 8) (now : Nat) (t : Simple) (hc : Simple.create p junk now = some t) (es : List Ev) (ha : Alternates true es) :
    (t.run es).sent.Pairwise fun x y => x.1 + halfPeriod p ≤ y.1 := by
  simp only [halfPeriod_eq]
  obtain ⟨hp, hs⟩ := create_past hc
  have h := spaced_run es true t ha ⟨(by intro x hx; rw [hs] at hx; cases hx), (by rw [hs]; exact List.Pairwise.nil), (by intro _ x hx; rw [hs] at hx; cases hx)⟩
  rw [hp] at h
  exact h

private theorem cycles_on_time (p : Sync.Props) (L : Nat) : ∀ (cs : List Cycle) (t : Simple), t.props = p → (∀ c ∈ cs, c.Fast p L) → t.readAt ≤ t.clock + half p →
    t.clock ≤ t.writeAt + L →
    (t.run (cs.flatMap Cycle.events)).readAt ≤ (t.run (cs.flatMap Cycle.events)).clock + half p ∧
    (t.run (cs.flatMap Cycle.events)).writeAt = t.writeAt + cs.length * step p ∧
    (t.run (cs.flatMap Cycle.events)).clock ≤ (t.run (cs.flatMap Cycle.events)).writeAt + L ∧ (t.run (cs.flatMap Cycle.events)).props = p := by
  intro cs
  induction cs with
  | nil => intro t hp _ hr hc; exact ⟨hr, by simp [Simple.run], hc, hp⟩
  | cons c cs ih =>
    intro t hp hf hr hc
    rw [List.flatMap_cons, run_append]
    obtain ⟨h1, h2, h3, _⟩ := cycle_fast t c L (by rw [hp]; exact hf c (by simp)) (by rw [hp]; exact hr) hc
    rw [hp] at h1 h2 h3
    have hl := (hf c (by simp)).2.1
    obtain ⟨i1, i2, i3, i4⟩ := ih (t.run c.events) (by rw [run_props, hp]) (fun c hc => hf c (by simp [hc])) (by omega) (by omega)
    refine ⟨i1, ?_, i3, i4⟩
    rw [i2, h3, List.length_cons, Nat.add_mul]
    omega

/-- No drift: in a control loop that is fast enough the SYNC of cycle `n` (from 0) is sent exactly `n + 2` periods after the initialisation, but for the delay with which
that one sleep ended; delays do not add up.  One frame is sent if there are nodes, none otherwise. -/
theorem C101_on_time (p : Sync.Props) (junk : Vector Byte 8) (now : Nat) (t : Simple) (hc : Simple.create p junk now = some t) (pre : List Ev) (g L : Nat)
    (cs : List Cycle) (c : Cycle) (hf : ∀ d ∈ cs, d.Fast p L) (hfc : c.Fast p L) :
    ∃ new, (t.run (pre ++ .init g :: cs.flatMap Cycle.events ++ c.events)).sent = (t.run (pre ++ .init g :: cs.flatMap Cycle.events)).sent ++ new ∧
      (∀ x ∈ new, x.1 = (t.run (pre ++ [.init g])).clock + (cs.length + 2) * period p + c.wlate) ∧
      ((∃ n, Attached n (pre ++ .init g :: cs.flatMap Cycle.events ++ c.events)) → new.length = 1) ∧
      ((∀ n, ¬ Attached n (pre ++ .init g :: cs.flatMap Cycle.events ++ c.events)) → new = []) := by
  simp only [period_eq]
  have hp := (create_past hc).1
  have hatt : ∀ n, Attached n (pre ++ .init g :: cs.flatMap Cycle.events ++ c.events) ↔
      n ∈ ((t.run (pre ++ .init g :: cs.flatMap Cycle.events)).run (c.nodes.map nodeEv)).s.nodes := by
    intro n
    rw [← run_append, attached_iff t _ n (create_nodes hc)]
    unfold Attached Cycle.events
    simp only [List.foldl_append, List.foldl_cons, List.foldl_nil, attachStep]
  simp only [hatt]
  rw [run_append t (pre ++ .init g :: cs.flatMap Cycle.events) c.events,
    show pre ++ Ev.init g :: cs.flatMap Cycle.events = (pre ++ [Ev.init g]) ++ cs.flatMap Cycle.events by simp, run_append t (pre ++ [Ev.init g]), run_append t pre [Ev.init g]]
  have h0 : ((t.run pre).run [.init g]).writeAt = ((t.run pre).run [.init g]).clock + step p := by
    show (t.run pre).clock + g + step (t.run pre).props = _
    rw [run_props, hp]; rfl
  have h1 : ((t.run pre).run [.init g]).readAt = ((t.run pre).run [.init g]).clock + half p := by
    show (t.run pre).clock + g + half (t.run pre).props = _
    rw [run_props, hp]; rfl
  have hpu : ((t.run pre).run [.init g]).props = p := by rw [run_props, run_props, hp]
  generalize (t.run pre).run [.init g] = u at h0 h1 hpu
  obtain ⟨i1, i2, i3, i4⟩ := cycles_on_time p L cs u hpu hf (by omega) (by omega)
  generalize u.run (cs.flatMap Cycle.events) = v at i1 i2 i3 i4
  obtain ⟨_, _, _, s, hs, hns⟩ := cycle_fast v c L (by rw [i4]; exact hfc) (by rw [i4]; exact i1) i3
  refine ⟨_, hs, ?_, ?_⟩
  · intro x hx
    rw [List.mem_map] at hx
    obtain ⟨f, _, rfl⟩ := hx
    dsimp only
    rw [i2, h0, i4, show (cs.length + 2) * step p = step p + cs.length * step p + step p by rw [Nat.add_mul]; omega]
    omega
  · rw [← hns]
    have hu : s.update.nodes = s.nodes := by unfold Sync.Simple.update; split <;> (try split) <;> rfl
    unfold Sync.Simple.handleWrite
    rw [if_pos (show c.st.toNat > LayerState.init.toNat from (running_iff c.st).mp hfc.1)]
    dsimp only
    rw [hu]
    cases s.nodes with
    | nil => simp
    | cons a b =>
      refine ⟨fun _ => by simp, fun hno => absurd (List.mem_cons_self) (hno a)⟩

private def p10 : Sync.Props := { header := Header.mk' 0x80#32 false false false, period := 10, overflow := 0 }
private def run10 (es : List Ev) : Option (List Nat) := (Simple.create p10 (Vector.replicate 8 0) 0).map fun t => (t.run es).sent.map (·.1)
private def rd (g : Nat) : Ev := .read .ready g 0
private def wr (g l : Nat) : Ev := .write .ready g l

/-- a node, the initialisation at 1 ms and two cycles: SYNC after two and three periods, the first 30 µs late -/
example : run10 [.add 1, .init 1000, rd 200, wr 500 30, rd 200, wr 500 0] = some [21030, 31000] := by decide

example : Alternates true [.add 1, .init 1000, rd 200, wr 500 30, rd 200, wr 500 0] := by simp [Alternates, rd, wr, Running]

example : (⟨.ready, 200, 0, [], 500, 30⟩ : Cycle).Fast p10 100 := by simp [Cycle.Fast, Running, period, halfPeriod, p10]

/-- It is false that SYNC frames are never closer than a period: after a stall of 100 ms the layer catches up, one SYNC each half period, until the missed ones are sent. -/
theorem C101_catch_up_false : ¬ ∀ (p : Sync.Props) (junk : Vector Byte 8) (now : Nat) (t : Simple), Simple.create p junk now = some t → ∀ es : List Ev, Alternates true es →
    (t.run es).sent.Pairwise fun x y => x.1 + period p ≤ y.1 := by
  intro h
  have h2 := h p10 (Vector.replicate 8 0) 0 _ rfl ([.add 1, .init 0] ++ [rd 0, wr 50000 0] ++ [rd 0, wr 0 0] ++ [rd 0, wr 0 0]) (by simp [Alternates, rd, wr, Running])
  revert h2
  decide

/-- the stall in numbers: the SYNCs missed during it follow each other after half a period -/
example : run10 [.add 1, .init 0, rd 0, wr 50000 0, rd 0, wr 0 0, rd 0, wr 0 0, rd 0, wr 0 0, rd 0, wr 0 0] = some [55000, 60000, 65000, 70000, 75000] := by decide

/-! ## The consumer -/

/-- The read phase of a master that follows a foreign SYNC never hangs: it returns within one and a half periods (plus the delays with which its two waits end), SYNC or not. -/
theorem C101_external_returns (p : Sync.Props) (now : Nat) (bus : List (Nat × Frame)) (hb : Ordered now bus) (es : List XEv) (st : LayerState) (g l1 l2 : Nat) :
    let e := (External.create p now bus).run es
    ((External.create p now bus).run (es ++ [.read st g l1 l2])).clock ≤ e.clock + g + period p + halfPeriod p + l1 + l2 := by
  intro e
  rw [period_eq, halfPeriod_eq]
  have hi : Inv p bus e := inv_run p bus es _ (inv_create p now bus hb)
  rw [xrun_append, show (((External.create p now bus).run es).run [.read st g l1 l2]) = e.read st g l1 l2 from rfl]
  by_cases hst : active st
  · obtain ⟨u, _, h2, h3⟩ := read_result p bus e st g l1 l2 hi hst
    cases u with
    | none => have := (h2 rfl).1; omega
    | some y => have := h3 y rfl; omega
  · unfold External.read
    dsimp only
    rw [if_neg hst, advance_clock _ _ hi.ok]
    omega

/-- What a read phase did: either it used a SYNC frame and returned half a period after that frame arrived (or after the call, if it had arrived before), up to the
delays of the waits; or it waited one period and no SYNC had arrived since the initialisation that was newer than one used before. -/
theorem C101_external_read (p : Sync.Props) (now : Nat) (bus : List (Nat × Frame)) (hb : Ordered now bus) (pre es : List XEv) (g0 : Nat) (hn : ∀ g, XEv.init g ∉ es)
    (st : LayerState) (hst : Running st) (g l1 l2 : Nat) :
    let t0 := ((External.create p now bus).run (pre ++ [.init g0])).clock
    let e := (External.create p now bus).run (pre ++ .init g0 :: es)
    let e' := (External.create p now bus).run (pre ++ .init g0 :: es ++ [.read st g l1 l2])
    let called := e.clock + g
    (∃ y ∈ bus, IsSyncFrame p y ∧ e'.reads = e.reads ++ [(called, some y, e'.clock)] ∧
      max called y.1 + halfPeriod p ≤ e'.clock ∧ e'.clock ≤ max called y.1 + halfPeriod p + l1 + l2) ∨
    (e'.reads = e.reads ++ [(called, none, e'.clock)] ∧ e'.clock = called + period p + l1 ∧
      ∀ x ∈ bus, IsSyncFrame p x → t0 < x.1 → x.1 ≤ e'.clock → ∃ r ∈ e.reads, ∃ y, r.2.1 = some y ∧ x.1 ≤ y.1) := by
  rw [running_iff] at hst
  intro t0 e e' called
  rw [period_eq, halfPeriod_eq]
  have hpre := inv_run p bus pre _ (inv_create p now bus hb)
  have hinit := inv_init p bus _ g0 hpre
  have hsinit := seen_init p bus _ g0 hpre
  have he : e = (((External.create p now bus).run pre).init g0).run es := by
    show (External.create p now bus).run (pre ++ .init g0 :: es) = _
    rw [xrun_append]; rfl
  have ht0 : t0 = ((External.create p now bus).run pre).clock + g0 := by
    show ((External.create p now bus).run (pre ++ [.init g0])).clock = _
    rw [xrun_append]
    show (((External.create p now bus).run pre).advance _).clock = _
    rw [advance_clock _ _ hpre.ok]; omega
  have hi : Inv p bus e := by rw [he]; exact inv_run p bus es _ hinit
  have hs : Seen p bus t0 e := by rw [he, ht0]; exact seen_run p bus _ es hn _ hinit hsinit
  have he' : e' = e.read st g l1 l2 := by
    show (External.create p now bus).run (pre ++ .init g0 :: es ++ [.read st g l1 l2]) = _
    rw [xrun_append]; rfl
  have hi' := inv_read p bus e st g l1 l2 hi
  have hs' := seen_read p bus t0 e st g l1 l2 hi hs
  obtain ⟨u, h1, h2, h3⟩ := read_result p bus e st g l1 l2 hi hst
  rw [← he'] at h1 h2 h3 hi' hs'
  cases u with
  | some y =>
    left
    have hy := (hi'.past (called, some y, e'.clock) (by rw [h1]; simp [called])).2 y rfl
    obtain ⟨_, h4, h5, _⟩ := h3 y rfl
    exact ⟨y, hy.2.1, hy.2.2, h1, h4, by show _ ≤ max (e.clock + g) y.1 + half p + l1 + l2; omega⟩
  | none =>
    right
    obtain ⟨h4, h5⟩ := h2 rfl
    refine ⟨h1, h4, ?_⟩
    intro x hx hk ht hc
    rcases hs'.got x hx hk ht hc with ⟨b, hb', _⟩ | ⟨r, hr, hy⟩
    · rw [h5] at hb'; cases hb'
    · rw [h1] at hr
      rcases List.mem_append.mp hr with hr | hr
      · exact ⟨r, hr, hy⟩
      · simp only [List.mem_singleton] at hr
        subst hr
        obtain ⟨y, hy, _⟩ := hy
        cases hy

/-- Each SYNC frame starts at most one cycle, in order of arrival, and none is older than the cycle before: the frame used by a read phase arrived after every earlier read
phase was called and after the frames those used. -/
theorem C101_external_once (p : Sync.Props) (now : Nat) (bus : List (Nat × Frame)) (hb : Ordered now bus) (es : List XEv) :
    ((External.create p now bus).run es).reads.Pairwise fun r1 r2 => ∀ y, r2.2.1 = some y → r1.1 < y.1 ∧ ∀ z, r1.2.1 = some z → z.1 < y.1 :=
  (inv_run p bus es _ (inv_create p now bus hb)).pw

private def syn : Frame := { Header.mk' 0x80#32 false false false with data := Vector.replicate 8 0, dlc := 0 }
private def oth : Frame := { Header.mk' 0x81#32 false false false with data := Vector.replicate 8 0, dlc := 0 }
private def runX (bus : List (Nat × Frame)) (es : List XEv) : List (Nat × Option Nat × Nat) :=
  ((External.create p10 0 bus).run es).reads.map fun r => (r.1, r.2.1.map (·.1), r.2.2)

/-- a SYNC that arrives during the wait, one that arrived before the call, another frame, and none at all -/
example : runX [(10000, syn), (15200, oth), (20000, syn), (25500, oth)] [.init 1000, .read .ready 200 20 0, .write .ready 4000, .read .ready 200 0 30, .write .ready 100, .read .ready 100 0 0] =
    [(1200, some 10000, 15020), (19220, some 20000, 25030), (25230, none, 35230)] := by decide

example : Ordered 0 [(10000, syn), (15200, oth), (20000, syn), (25500, oth)] := by simp [Ordered]

/-- It is false that a read phase always uses the newest SYNC of its own period: one that arrived during the sleep of the previous read phase is used at once, and the next
phase is that much early. -/
theorem C101_external_phase_false : ¬ ∀ (p : Sync.Props) (now : Nat) (bus : List (Nat × Frame)), Ordered now bus → ∀ es : List XEv,
    ∀ r ∈ ((External.create p now bus).run es).reads, ∀ y, r.2.1 = some y → r.2.2 = y.1 + halfPeriod p := by
  intro h
  have h2 := h p10 0 [(10000, syn), (12000, syn)] (by simp [Ordered]) [.init 1000, .read .ready 200 0 0, .write .ready 1000, .read .ready 0 0 0] (16000, some (12000, syn), 21000) (by decide)
    (12000, syn) rfl
  revert h2
  decide

end Verif.Props
