import Verif.Spec.BringUp

/-!
# Lemmas for C114
-/

namespace Verif.Spec.BringUp
open Verif Verif.Nmt

/-- what handling a report does to the node -/
theorem frame_eff (i : Initing) (f : Frame) (t : Int) :
    (i.frame f t).pc = i.pc ∧ (i.frame f t).recovering = i.recovering ∧ (i.frame f t).node.phase = i.node.phase ∧ (i.frame f t).node.id = i.node.id ∧
    (i.frame f t).node.listening = i.node.listening ∧
    (i.frame f t).node.hb.present = i.node.hb.present ∧ (i.frame f t).node.hb.conf = i.node.hb.conf ∧ (i.frame f t).node.hb.dflt = i.node.hb.dflt ∧
    (i.node.hb.valid = true → (i.frame f t).node.hb = i.node.hb) ∧
    ((i.frame f t).node.state = f.data[0] ∨ (i.frame f t).node.state = i.node.state) ∧
    (i.node.listening = true → i.node.hb.valid = true → (i.frame f t).node.state = f.data[0]) ∧
    sent ((i.frame f t).log.drop i.log.length) = [] := by
  rcases i with ⟨⟨id, hs, st, ⟨pr, df, cf, bf, va⟩, ht, sy, li, ph⟩, pc, lg, rc⟩
  cases li <;> cases pr <;> cases va <;>
    simp [Initing.frame, Node.step, Node.handleNMT, Hb.interval, Node.switchState, sent] <;> (try split) <;> simp_all [sent]

theorem nodup_sent (l : List Item) : sent (l.drop l.length) = [] := by simp [sent]

theorem sent_app (l m : List Item) : sent ((l ++ m).drop l.length) = sent m := by simp

/-- the node's state, the reports and the commands that are on their way, before the reset -/
def Before (s : Sys) : Prop := s.dev.state ≠ 0 ∧ (∀ f ∈ s.wire, f.data[0] ≠ 0) ∧ s.i.node.state ≠ 0

/-- all reports on their way are of state pre-operational -/
def All (x : Byte) (w : List Frame) : Prop := ∀ f ∈ w, f.data[0] = x

/-- what holds at any time, whatever happens -/
def Safe (s : Sys) : Prop :=
  s.dev.id = s.i.node.id ∧ s.i.recovering = false ∧
  match s.i.pc with
  | .listen => s.i.node.phase = .idle ∧ s.inbox = [] ∧ Before s
  | .sdo => s.i.node.phase = .idle ∧ s.inbox = [] ∧ Before s
  | .reset => s.i.node.phase = .idle ∧ s.inbox = [] ∧ Before s
  | .resetting =>
    (∃ d, s.i.node.phase = .waiting .resetCom d ∧
      ((s.inbox = [nmtFrame 130 s.dev.id] ∧ Before s) ∨
       (s.inbox = [] ∧ s.dev.state = 0 ∧ (∀ f ∈ s.wire, f.data[0] ≠ 0) ∧ s.i.node.state ≠ 0) ∨
       (s.inbox = [] ∧ s.dev.state = 127 ∧ ∃ a g b, s.wire = a ++ g :: b ∧ g.data[0] = 0 ∧ (∀ f ∈ a, f.data[0] ≠ 0) ∧ All 127 b ∧ s.i.node.state ≠ 0) ∨
       (s.inbox = [] ∧ s.dev.state = 127 ∧ All 127 s.wire))) ∨
    (s.i.node.phase = .finishing .resetCom ∧ s.inbox = [] ∧ s.dev.state = 127 ∧ All 127 s.wire)
  | .pdo => s.i.node.phase = .idle ∧ s.inbox = [] ∧ s.dev.state = 127 ∧ All 127 s.wire ∧ s.i.node.state = 127 ∧
      (s.i.node.hb.present = true → s.i.node.hb.valid = true ∧ s.i.node.hb.conf = some s.i.node.hb.buf)
  | .values => s.i.node.phase = .idle ∧ s.inbox = [] ∧ s.dev.state = 127 ∧ All 127 s.wire ∧ s.i.node.state = 127 ∧
      (s.i.node.hb.present = true → s.i.node.hb.valid = true ∧ s.i.node.hb.conf = some s.i.node.hb.buf)
  | .sdoAgain => s.i.node.phase = .idle ∧ s.inbox = [] ∧ s.dev.state = 127 ∧ All 127 s.wire ∧ s.i.node.state = 127 ∧
      (s.i.node.hb.present = true → s.i.node.hb.valid = true ∧ s.i.node.hb.conf = some s.i.node.hb.buf) ∧ s.dev.configured = true
  | .start => s.i.node.phase = .idle ∧ s.inbox = [] ∧ s.dev.state = 127 ∧ All 127 s.wire ∧ s.i.node.state = 127 ∧
      (s.i.node.hb.present = true → s.i.node.hb.valid = true ∧ s.i.node.hb.conf = some s.i.node.hb.buf) ∧ s.dev.configured = true
  | .starting => s.dev.configured = true ∧ (s.i.node.hb.present = true → s.i.node.hb.valid = true ∧ s.i.node.hb.conf = some s.i.node.hb.buf) ∧
      ∃ d, s.i.node.phase = .waiting .start d ∧
      ((s.inbox = [nmtFrame 1 s.dev.id] ∧ s.dev.state = 127 ∧ All 127 s.wire ∧ s.i.node.state = 127) ∨ (s.inbox = [] ∧ s.dev.state = 5))
  | .done .fine => s.dev.configured = true ∧
      ((s.inbox = [] ∧ s.dev.state = 5) ∨
       (s.inbox = [nmtFrame 1 s.dev.id] ∧ s.dev.state = 127 ∧ (s.i.node.hb.present = false ∨ s.i.node.hb.conf = some 0)))
  | .done _ => True

theorem hear_safe (s : Sys) (t : Int) (h : Safe s) : Safe (s.hear t) := by
  rcases s with ⟨i, dev, inbox, wire⟩
  cases wire with
  | nil => exact h
  | cons f w =>
    simp only [Sys.hear, Sys.master, Initing.step]
    obtain ⟨e1, e2, e3, e4, e5, e6, e7, e8, e9, e10, e11, e12⟩ := frame_eff i f t
    rw [e12]
    simp only [List.append_nil]
    generalize i.frame f t = j at *
    unfold Safe at h ⊢
    dsimp only at h ⊢
    refine ⟨by rw [e4]; exact h.1, by rw [e2]; exact h.2.1, ?_⟩
    replace h := h.2.2
    rw [e1]
    cases hp : i.pc with
    | listen => simp only [hp] at h ⊢; simp only [Before] at h ⊢; grind
    | sdo => simp only [hp] at h ⊢; simp only [Before] at h ⊢; grind
    | reset => simp only [hp] at h ⊢; simp only [Before] at h ⊢; grind
    | resetting =>
      simp only [hp] at h ⊢
      rcases h with ⟨d, hd, h | h | h | h⟩ | h
      · refine Or.inl ⟨d, e3 ▸ hd, Or.inl ?_⟩; simp only [Before] at h ⊢; grind
      · refine Or.inl ⟨d, e3 ▸ hd, Or.inr (Or.inl ?_)⟩; grind
      · obtain ⟨h1, h2, a, g, b, h3, h4, h5, h6, h7⟩ := h
        cases a with
        | nil =>
          simp only [List.nil_append, List.cons.injEq] at h3
          exact Or.inl ⟨d, e3 ▸ hd, Or.inr (Or.inr (Or.inr ⟨h1, h2, h3.2 ▸ h6⟩))⟩
        | cons x a =>
          simp only [List.cons_append, List.cons.injEq] at h3
          refine Or.inl ⟨d, e3 ▸ hd, Or.inr (Or.inr (Or.inl ⟨h1, h2, a, g, b, h3.2, h4, fun y hy => h5 y (List.mem_cons_of_mem _ hy), h6, ?_⟩))⟩
          have := h5 x List.mem_cons_self
          rw [← h3.1] at this
          grind
      · refine Or.inl ⟨d, e3 ▸ hd, Or.inr (Or.inr (Or.inr ?_))⟩; simp only [All] at h ⊢; grind
      · refine Or.inr ?_; simp only [All] at h ⊢; grind
    | pdo => simp only [hp] at h ⊢; simp only [All] at h ⊢; grind
    | values => simp only [hp] at h ⊢; simp only [All] at h ⊢; grind
    | sdoAgain => simp only [hp] at h ⊢; simp only [All] at h ⊢; grind
    | start => simp only [hp] at h ⊢; simp only [All] at h ⊢; grind
    | starting =>
      simp only [hp] at h ⊢
      obtain ⟨h1, h2, d, hd, h⟩ := h
      refine ⟨h1, by grind, d, e3 ▸ hd, ?_⟩
      simp only [All] at h ⊢; grind
    | done r =>
      cases r
      · simp only [hp] at h ⊢; grind
      · trivial
      · trivial

theorem hears_safe (t : Int) (n : Nat) : ∀ (s : Sys), Safe s → Safe (s.hears t n) := by
  induction n with
  | zero => intro s h; exact h
  | succ n ih => intro s h; exact ih _ (hear_safe s t h)

theorem obey_start (d : Device) (h : d.state ≠ 0) : d.obey (nmtFrame 1 d.id) = { d with state := 5 } := by
  simp [Device.obey, nmtFrame]
  exact fun hh => absurd hh h

theorem obey_reset (d : Device) (h : d.state ≠ 0) :
    d.obey (nmtFrame 130 d.id) = { d with state := 0, beats := d.beatsAfterReset, configured := false } := by
  simp [Device.obey, nmtFrame]
  exact fun hh => absurd hh h

theorem take_safe (s : Sys) (h : Safe s) : Safe (s.step .take) := by
  rcases s with ⟨i, dev, inbox, wire⟩
  cases inbox with
  | nil => exact h
  | cons f q =>
    simp only [Sys.step]
    unfold Safe at h ⊢
    dsimp only at h ⊢
    have hid : (dev.obey f).id = dev.id := by unfold Device.obey; grind
    refine ⟨hid ▸ h.1, h.2.1, ?_⟩
    replace h := h.2.2
    cases hp : i.pc with
    | resetting =>
      simp only [hp, Before] at h ⊢
      rcases h with ⟨d, hd, h | h | h | h⟩ | h
      · obtain ⟨h1, h2, h3, h4⟩ := h
        simp only [List.cons.injEq] at h1
        refine Or.inl ⟨d, hd, Or.inr (Or.inl ⟨h1.2, ?_, h3, h4⟩)⟩
        rw [h1.1, obey_reset _ h2]
      all_goals grind
    | starting =>
      simp only [hp] at h ⊢
      obtain ⟨h1, h2, d, hd, h⟩ := h
      rcases h with h | h
      · obtain ⟨g1, g2, g3, g4⟩ := h
        simp only [List.cons.injEq] at g1
        rw [g1.1, obey_start _ (by rw [g2]; decide)]
        exact ⟨h1, h2, d, hd, Or.inr ⟨g1.2, rfl⟩⟩
      · grind
    | done r =>
      cases r
      · simp only [hp] at h ⊢
        obtain ⟨h1, h | h⟩ := h
        · grind
        · obtain ⟨g1, g2, g3⟩ := h
          simp only [List.cons.injEq] at g1
          rw [g1.1, obey_start _ (by rw [g2]; decide)]
          exact ⟨h1, Or.inl ⟨g1.2, rfl⟩⟩
      · trivial
      · trivial
    | _ => simp only [hp] at h; grind

theorem report_state (id s : Byte) : (report id s).data[0] = s := rfl

theorem boot_safe (s : Sys) (h : Safe s) : Safe (s.step .boot) := by
  rcases s with ⟨i, dev, inbox, wire⟩
  simp only [Sys.step]
  by_cases hz : dev.state = 0
  · rw [if_pos hz]
    unfold Safe at h ⊢
    dsimp only at h ⊢
    refine ⟨h.1, h.2.1, ?_⟩
    replace h := h.2.2
    cases hp : i.pc with
    | resetting =>
      simp only [hp, Before] at h ⊢
      rcases h with ⟨d, hd, h | h | h | h⟩ | h
      · grind
      · exact Or.inl ⟨d, hd, Or.inr (Or.inr (Or.inl ⟨h.1, trivial, wire, report dev.id 0, [], rfl, rfl, h.2.2.1, (fun _ hx => nomatch hx), h.2.2.2⟩))⟩
      all_goals (exfalso; have := h.2.1; grind)
    | done r =>
      cases r
      · simp only [hp] at h ⊢; grind
      · trivial
      · trivial
    | _ => simp only [hp, Before] at h; grind
  · rw [if_neg hz]; exact h

theorem all_snoc {x : Byte} {w : List Frame} (h : All x w) (id : Byte) : All x (w ++ [report id x]) := by
  intro f hf
  rcases List.mem_append.1 hf with hf | hf
  · exact h f hf
  · cases List.mem_singleton.1 hf; rfl

theorem beat_safe (s : Sys) (h : Safe s) : Safe (s.step .beat) := by
  rcases s with ⟨i, dev, inbox, wire⟩
  simp only [Sys.step]
  by_cases hz : dev.state ≠ 0 ∧ dev.beats = true
  · rw [if_pos hz]
    have hsn : (∀ f ∈ wire, f.data[0] ≠ 0) → ∀ f ∈ wire ++ [report dev.id dev.state], f.data[0] ≠ 0 := by
      intro hw f hf
      rcases List.mem_append.1 hf with hf | hf
      · exact hw f hf
      · cases List.mem_singleton.1 hf; exact hz.1
    have hal : dev.state = 127 → All 127 wire → All 127 (wire ++ [report dev.id dev.state]) := fun h1 h2 => by rw [h1]; exact all_snoc h2 _
    unfold Safe at h ⊢
    dsimp only at h ⊢
    refine ⟨h.1, h.2.1, ?_⟩
    replace h := h.2.2
    cases hp : i.pc with
    | resetting =>
      simp only [hp, Before] at h ⊢
      rcases h with ⟨d, hd, h | h | h | h⟩ | h
      · exact Or.inl ⟨d, hd, Or.inl ⟨h.1, h.2.1, hsn h.2.2.1, h.2.2.2⟩⟩
      · exact absurd h.2.1 hz.1
      · obtain ⟨h1, h2, a, g, b, h3, h4, h5, h6, h7⟩ := h
        refine Or.inl ⟨d, hd, Or.inr (Or.inr (Or.inl ⟨h1, h2, a, g, b ++ [report dev.id dev.state], ?_, h4, h5, ?_, h7⟩))⟩
        · rw [h3]; simp
        · rw [h2]; exact all_snoc h6 _
      · exact Or.inl ⟨d, hd, Or.inr (Or.inr (Or.inr ⟨h.1, h.2.1, hal h.2.1 h.2.2⟩))⟩
      · exact Or.inr ⟨h.1, h.2.1, h.2.2.1, hal h.2.2.1 h.2.2.2⟩
    | done r =>
      cases r
      · simp only [hp] at h ⊢; exact h
      · trivial
      · trivial
    | listen => simp only [hp, Before] at h ⊢; exact ⟨h.1, h.2.1, h.2.2.1, hsn h.2.2.2.1, h.2.2.2.2⟩
    | sdo => simp only [hp, Before] at h ⊢; exact ⟨h.1, h.2.1, h.2.2.1, hsn h.2.2.2.1, h.2.2.2.2⟩
    | reset => simp only [hp, Before] at h ⊢; exact ⟨h.1, h.2.1, h.2.2.1, hsn h.2.2.2.1, h.2.2.2.2⟩
    | starting =>
      simp only [hp] at h ⊢
      obtain ⟨h1, h2, d, hd, h | h⟩ := h
      · exact ⟨h1, h2, d, hd, Or.inl ⟨h.1, h.2.1, hal h.2.1 h.2.2.1, h.2.2.2⟩⟩
      · exact ⟨h1, h2, d, hd, Or.inr h⟩
    | _ => simp only [hp] at h ⊢; exact ⟨h.1, h.2.1, h.2.2.1, hal h.2.2.1 h.2.2.2.1, h.2.2.2.2⟩
  · rw [if_neg hz]; exact h

theorem call_sent (n : Node) (c : Cmd) (now : Int) (h : n.phase = .idle) :
    n.step (.call c now) = ({ n with hb := if c.isReset then n.hb.reset else n.hb, phase := .waiting c (now + c.timeout) }, [.sent (nmtFrame c.code n.id)]) := by
  simp only [Node.step, h]

theorem next_safe (s : Sys) (p : Part) (now : Int) (h : Safe s) : Safe (s.step (.next p now)) := by
  rcases s with ⟨⟨n, pc, log, rc⟩, dev, inbox, wire⟩
  simp only [Sys.step, Sys.master, Initing.step]
  unfold Safe at h
  dsimp only at h
  obtain ⟨hi, hr, h⟩ := h
  cases pc with
  | listen =>
    simp only [Initing.next, nodup_sent, List.append_nil, reduceCtorEq, false_and, if_false]
    unfold Safe
    exact ⟨hi, hr, h⟩
  | sdo =>
    simp only [Initing.next, reduceCtorEq, false_and, if_false]
    by_cases hp : p = .works
    · simp only [if_pos hp, nodup_sent, List.append_nil]
      exact ⟨hi, hr, h⟩
    · simp only [if_neg hp, nodup_sent, List.append_nil]
      exact ⟨hi, hr, trivial⟩
  | reset =>
    dsimp only at h
    simp only [Initing.next, reduceCtorEq, false_and, if_false]
    by_cases hp : p = .works
    · simp only [if_pos hp, call_sent n _ _ h.1]
      refine ⟨hi, hr, Or.inl ⟨_, rfl, Or.inl ⟨?_, h.2.2⟩⟩⟩
      rw [h.2.1]
      simp [sent, items, hi, Cmd.code]
    · simp only [if_neg hp, nodup_sent, List.append_nil]
      exact ⟨hi, hr, h⟩
  | resetting =>
    simp only [Initing.next, nodup_sent, List.append_nil, reduceCtorEq, false_and, if_false]
    exact ⟨hi, hr, h⟩
  | pdo =>
    dsimp only at h
    simp only [Initing.next, reduceCtorEq, false_and, if_false]
    by_cases hp : p = .works
    · simp only [if_pos hp, sent_app]
      refine ⟨hi, hr, h.1, ?_, h.2.2⟩
      rw [h.2.1]; rfl
    · by_cases hf : p = .fails
      · simp only [if_neg hp, if_pos hf, nodup_sent, List.append_nil]
        exact ⟨hi, hr, trivial⟩
      · simp only [if_neg hp, if_neg hf, nodup_sent, List.append_nil]
        exact ⟨hi, hr, trivial⟩
  | values =>
    dsimp only at h
    simp only [Initing.next, true_and]
    by_cases hp : p = .works
    · simp only [if_pos hp, sent_app]
      obtain ⟨h1, h2, h3, h4, h5, h6⟩ := h
      refine ⟨hi, hr, h1, ?_, h3, h4, h5, h6, rfl⟩
      dsimp only
      rw [h2]; rfl
    · simp only [if_neg hp, nodup_sent, List.append_nil]
      exact ⟨hi, hr, trivial⟩
  | sdoAgain =>
    simp only [Initing.next, reduceCtorEq, false_and, if_false]
    by_cases hp : p = .works
    · simp only [if_pos hp, nodup_sent, List.append_nil]
      exact ⟨hi, hr, h⟩
    · simp only [if_neg hp, nodup_sent, List.append_nil]
      exact ⟨hi, hr, trivial⟩
  | start =>
    dsimp only at h
    simp only [Initing.next, reduceCtorEq, false_and, if_false]
    by_cases hp : p = .works
    · simp only [if_pos hp, call_sent n _ _ h.1]
      obtain ⟨h1, h2, h3, h4, h5, h6, h7⟩ := h
      refine ⟨hi, hr, h7, h6, _, rfl, Or.inl ⟨?_, h3, h4, h5⟩⟩
      rw [h2]
      simp [sent, items, hi, Cmd.code]
    · simp only [if_neg hp, nodup_sent, List.append_nil]
      exact ⟨hi, hr, h⟩
  | starting =>
    simp only [Initing.next, nodup_sent, List.append_nil, reduceCtorEq, false_and, if_false]
    exact ⟨hi, hr, h⟩
  | done r =>
    simp only [Initing.next, nodup_sent, List.append_nil, reduceCtorEq, false_and, if_false]
    exact ⟨hi, hr, h⟩

/-- a command that waits for the boot-up message and evaluates its condition -/
theorem wake_reset (n : Node) (log : List Item) (rc : Bool) (d : Int) (h : n.phase = .waiting .resetCom d) :
    Initing.step ⟨n, .resetting, log, rc⟩ .wake =
      if n.state = 0 then ⟨{ n with phase := .finishing .resetCom }, .resetting, log, rc⟩ else ⟨n, .resetting, log, rc⟩ := by
  show _ = if n.state = BootUp then _ else _
  by_cases hz : n.state = BootUp <;>
    simp [Initing.step, Initing.cont, Initing.command, Node.step, h, hz, Node.waited, Cmd.target, Cmd.isReset, items]

theorem wake_finishing (n : Node) (log : List Item) (rc : Bool) (h : n.phase = .finishing .resetCom) :
    Initing.step ⟨n, .resetting, log, rc⟩ .wake = ⟨n, .resetting, log, rc⟩ := by
  simp [Initing.step, Initing.cont, Initing.command, Node.step, h, items]

theorem expire_finishing (n : Node) (log : List Item) (rc : Bool) (h : n.phase = .finishing .resetCom) (now : Int) (sdo : Option (BitVec 16)) (to : Bool) :
    Initing.step ⟨n, .resetting, log, rc⟩ (.expire now sdo to) = ⟨n, .resetting, log, rc⟩ := by
  simp [Initing.step, Initing.cont, Initing.command, Node.step, h, items]

theorem finish_reset (n : Node) (log : List Item) (rc : Bool) (d : Int) (h : n.phase = .waiting .resetCom d) (ok to : Bool) :
    Initing.step ⟨n, .resetting, log, rc⟩ (.finish ok to) = ⟨n, .resetting, log, rc⟩ := by
  simp [Initing.step, Initing.cont, Initing.command, Node.step, h, items]

theorem finish_starting (n : Node) (log : List Item) (rc : Bool) (d : Int) (h : n.phase = .waiting .start d) (ok to : Bool) :
    Initing.step ⟨n, .starting, log, rc⟩ (.finish ok to) = ⟨n, .starting, log, rc⟩ := by
  simp [Initing.step, Initing.cont, Initing.command, Node.step, h, items]

/-- a command that waits for the boot-up message and times out: nothing, it is through, or it failed -/
theorem expire_reset (n : Node) (log : List Item) (rc : Bool) (d : Int) (h : n.phase = .waiting .resetCom d) (now : Int) (sdo : Option (BitVec 16)) (to : Bool) :
    Initing.step ⟨n, .resetting, log, rc⟩ (.expire now sdo to) = ⟨n, .resetting, log, rc⟩ ∨
    (n.state = 0 ∧ Initing.step ⟨n, .resetting, log, rc⟩ (.expire now sdo to) = ⟨{ n with phase := .finishing .resetCom }, .resetting, log, rc⟩) ∨
    (n.state ≠ 0 ∧ ∃ n' m r, Initing.step ⟨n, .resetting, log, rc⟩ (.expire now sdo to) = ⟨n', .done r, log ++ m, rc⟩ ∧ r ≠ .fine ∧ sent m = [] ∧ n'.id = n.id) := by
  by_cases ht : now < d
  · left
    simp [Initing.step, Initing.cont, Initing.command, Node.step, h, ht, items]
  · by_cases hz : n.state = 0
    · right; left
      simp [Initing.step, Initing.cont, Initing.command, Node.step, h, ht, hz, Node.waited, Cmd.target, BootUp, Cmd.isReset, items]
    · right; right
      refine ⟨hz, ?_⟩
      rcases hv : n.hb.interval sdo with ⟨hb, o⟩
      cases o with
      | none =>
        have hz' : ¬ n.state = BootUp := hz
        refine ⟨{ n with hb := hb, phase := .idle }, [], if to then .error else .exception, ?_, by cases to <;> simp, rfl, rfl⟩
        simp [Initing.step, Initing.cont, Initing.command, Node.step, h, ht, hz', Cmd.target, items, hv]
      | some v =>
        have hz' : ¬ n.state = BootUp := hz
        by_cases hv0 : v = 0#16
        · subst hv0
          refine ⟨({ n with hb := hb, phase := .idle } : Node).switchState BootUp |>.1, [.assumed BootUp], .error, ?_, by simp, rfl, ?_⟩
          · simp [Initing.step, Initing.cont, Initing.command, Node.step, h, ht, hz', Node.waited, Node.switchState, Cmd.target, Cmd.isReset, items, hv]
          · simp [Node.switchState, hz']
        · refine ⟨{ n with hb := hb, phase := .idle }, [], .error, ?_, by simp, rfl, rfl⟩
          simp [Initing.step, Initing.cont, Initing.command, Node.step, h, ht, hz', hv0, Node.waited, Cmd.target, Cmd.isReset, items, hv]

theorem wake_start (n : Node) (log : List Item) (rc : Bool) (d : Int) (h : n.phase = .waiting .start d) :
    Initing.step ⟨n, .starting, log, rc⟩ .wake =
      if n.state = 5 then ⟨{ n with phase := .idle }, .done .fine, log, rc⟩ else ⟨n, .starting, log, rc⟩ := by
  show _ = if n.state = Operational then _ else _
  by_cases hz : n.state = Operational <;>
    simp [Initing.step, Initing.cont, Initing.command, Node.step, h, hz, Node.waited, Cmd.target, Cmd.isReset, items]

/-- a start command that times out: nothing, it is through, the device does not use heartbeats, or it failed -/
theorem expire_start (n : Node) (log : List Item) (d : Int) (h : n.phase = .waiting .start d) (now : Int) (sdo : Option (BitVec 16)) (to : Bool) :
    Initing.step ⟨n, .starting, log, false⟩ (.expire now sdo to) = ⟨n, .starting, log, false⟩ ∨
    (n.state = 5 ∧ Initing.step ⟨n, .starting, log, false⟩ (.expire now sdo to) = ⟨{ n with phase := .idle }, .done .fine, log, false⟩) ∨
    ∃ n' m r, Initing.step ⟨n, .starting, log, false⟩ (.expire now sdo to) = ⟨n', .done r, log ++ m, false⟩ ∧ sent m = [] ∧ n'.id = n.id ∧
      n'.hb.present = n.hb.present ∧ n'.hb.conf = n.hb.conf ∧ (r = .fine → (n.hb.interval sdo).2 = some 0) := by
  by_cases ht : now < d
  · left
    simp [Initing.step, Initing.cont, Initing.command, Node.step, h, ht, items]
  · by_cases hz : n.state = 5
    · right; left
      simp [Initing.step, Initing.cont, Initing.command, Node.step, h, ht, hz, Node.waited, Cmd.target, Operational, Cmd.isReset, items]
    · right; right
      have hz' : ¬ n.state = Operational := hz
      have hpc : (n.hb.interval sdo).1.present = n.hb.present ∧ (n.hb.interval sdo).1.conf = n.hb.conf := by
        unfold Hb.interval; split
        · exact ⟨rfl, rfl⟩
        · split
          · exact ⟨rfl, rfl⟩
          · split <;> exact ⟨rfl, rfl⟩
      rcases hv : n.hb.interval sdo with ⟨hb, o⟩
      rw [hv] at hpc
      dsimp only at hpc
      cases o with
      | none =>
        refine ⟨{ n with hb := hb, phase := .idle }, [], if to then .error else .exception, ?_, rfl, rfl, hpc.1, hpc.2, by cases to <;> simp⟩
        simp [Initing.step, Initing.cont, Initing.command, Node.step, h, ht, hz', Cmd.target, items, hv]
      | some v =>
        by_cases hv0 : v = 0#16
        · subst hv0
          refine ⟨({ n with hb := hb, phase := .idle } : Node).switchState Operational |>.1, [.assumed Operational], .fine, ?_, rfl, ?_, ?_, ?_, fun _ => rfl⟩
          · simp [Initing.step, Initing.cont, Initing.command, Node.step, h, ht, hz', Node.waited, Node.switchState, Cmd.target, Cmd.isReset, items, hv]
          · simp [Node.switchState, hz']
          · simp [Node.switchState, hz', hpc.1]
          · simp [Node.switchState, hz', hpc.2]
        · refine ⟨{ n with hb := hb, phase := .idle }, [], .error, ?_, rfl, rfl, hpc.1, hpc.2, by simp⟩
          simp [Initing.step, Initing.cont, Initing.command, Node.step, h, ht, hz', hv0, Node.waited, Cmd.target, Cmd.isReset, items, hv]

/-- the rest of the reset -/
theorem finish_finishing (n : Node) (log : List Item) (rc : Bool) (h : n.phase = .finishing .resetCom) (ok to : Bool) :
    (Initing.step ⟨n, .resetting, log, rc⟩ (.finish ok to) = ⟨{ n with state := 127, phase := .idle }, .pdo, log ++ [.isReset], rc⟩ ∧ n.hb.present = false) ∨
    (∃ v, n.hb.conf = some v ∧ n.hb.present = true ∧ ok = true ∧
      Initing.step ⟨n, .resetting, log, rc⟩ (.finish ok to) =
        ⟨{ n with state := 127, phase := .idle, hb := { n.hb with buf := v, valid := true } }, .pdo, log ++ [.isReset], rc⟩) ∨
    (n.hb.present = true ∧ (n.hb.conf = none ∨ ok = false) ∧
      ∃ n' r, Initing.step ⟨n, .resetting, log, rc⟩ (.finish ok to) = ⟨n', .done r, log, rc⟩ ∧ r ≠ .fine ∧ n'.id = n.id) := by
  cases hpr : n.hb.present with
  | false =>
    left
    simp [Initing.step, Initing.cont, Initing.command, Node.step, h, hpr, items, PreOperational]
  | true =>
    right
    cases hc : n.hb.conf with
    | none =>
      right
      cases to <;> simp [Initing.step, Initing.cont, Initing.command, Node.step, h, hpr, hc, items] <;> exact ⟨_, _, ⟨rfl, rfl⟩, by simp, rfl⟩
    | some v =>
      cases ok with
      | true =>
        left
        simp [Initing.step, Initing.cont, Initing.command, Node.step, h, hpr, hc, items, PreOperational]
      | false =>
        right
        cases to <;> simp [Initing.step, Initing.cont, Initing.command, Node.step, h, hpr, hc, items] <;> exact ⟨_, _, ⟨rfl, rfl⟩, by simp, rfl⟩

/-- elsewhere these events do nothing -/
theorem cont_other (n : Node) (pc : Pc) (log : List Item) (rc : Bool) (e : IEv) (h1 : pc ≠ .resetting) (h2 : pc ≠ .starting)
    (he : e = .wake ∨ (∃ a b c, e = .expire a b c) ∨ ∃ a b, e = .finish a b) : Initing.step ⟨n, pc, log, rc⟩ e = ⟨n, pc, log, rc⟩ := by
  rcases he with he | ⟨a, b, c, he⟩ | ⟨a, b, he⟩ <;> subst he <;> cases pc <;> simp_all [Initing.step, Initing.cont]

theorem wake_safe (s : Sys) (h : Safe s) : Safe (s.step .wake) := by
  rcases s with ⟨⟨n, pc, log, rc⟩, dev, inbox, wire⟩
  simp only [Sys.step, Sys.master]
  by_cases h1 : pc = .resetting
  · subst h1
    unfold Safe at h
    dsimp only at h
    obtain ⟨hi, hr, ⟨d, hd, h⟩ | h⟩ := h
    · rw [wake_reset n log rc d hd]
      by_cases hz : n.state = 0
      · simp only [if_pos hz, nodup_sent, List.append_nil]
        refine ⟨hi, hr, Or.inr ⟨rfl, ?_⟩⟩
        simp only [Before] at h
        rcases h with h | h | h | h
        · exact absurd hz h.2.2.2
        · exact absurd hz h.2.2.2
        · obtain ⟨_, _, a, g, b, _, _, _, _, h7⟩ := h; exact absurd hz h7
        · exact h
      · simp only [if_neg hz, nodup_sent, List.append_nil]
        exact ⟨hi, hr, Or.inl ⟨d, hd, h⟩⟩
    · rw [wake_finishing n log rc h.1]
      simp only [nodup_sent, List.append_nil]
      exact ⟨hi, hr, Or.inr h⟩
  · by_cases h2 : pc = .starting
    · subst h2
      unfold Safe at h
      dsimp only at h
      obtain ⟨hi, hr, hc, hh, d, hd, h⟩ := h
      rw [wake_start n log rc d hd]
      by_cases hz : n.state = 5
      · simp only [if_pos hz, nodup_sent, List.append_nil]
        refine ⟨hi, hr, hc, ?_⟩
        rcases h with h | h
        · exfalso; rw [h.2.2.2] at hz; exact absurd hz (by decide)
        · exact Or.inl h
      · simp only [if_neg hz, nodup_sent, List.append_nil]
        exact ⟨hi, hr, hc, hh, d, hd, h⟩
    · rw [cont_other n pc log rc _ h1 h2 (Or.inl rfl)]
      simp only [nodup_sent, List.append_nil]
      exact h

theorem expire_safe (s : Sys) (now : Int) (sdo : Option (BitVec 16)) (to : Bool) (h : Safe s) : Safe (s.step (.expire now sdo to)) := by
  rcases s with ⟨⟨n, pc, log, rc⟩, dev, inbox, wire⟩
  simp only [Sys.step, Sys.master]
  by_cases h1 : pc = .resetting
  · subst h1
    unfold Safe at h
    dsimp only at h
    obtain ⟨hi, hr, ⟨d, hd, h⟩ | h⟩ := h
    · rcases expire_reset n log rc d hd now sdo to with he | ⟨hz, he⟩ | ⟨hz, n', m, r, he, hr', hm, hn⟩
      · rw [he]
        simp only [nodup_sent, List.append_nil]
        exact ⟨hi, hr, Or.inl ⟨d, hd, h⟩⟩
      · rw [he]
        simp only [nodup_sent, List.append_nil]
        refine ⟨hi, hr, Or.inr ⟨rfl, ?_⟩⟩
        simp only [Before] at h
        rcases h with h | h | h | h
        · exact absurd hz h.2.2.2
        · exact absurd hz h.2.2.2
        · obtain ⟨_, _, a, g, b, _, _, _, _, h7⟩ := h; exact absurd hz h7
        · exact h
      · rw [he]
        refine ⟨by dsimp only; rw [hn]; exact hi, hr, ?_⟩
        cases r
        · exact absurd rfl hr'
        · trivial
        · trivial
    · rw [expire_finishing n log rc h.1]
      simp only [nodup_sent, List.append_nil]
      exact ⟨hi, hr, Or.inr h⟩
  · by_cases h2 : pc = .starting
    · subst h2
      unfold Safe at h
      dsimp only at h
      obtain ⟨hi, hr, hc, hh, d, hd, h⟩ := h
      subst hr
      rcases expire_start n log d hd now sdo to with he | ⟨hz, he⟩ | ⟨n', m, r, he, hm, hn, hp, hcf, hrf⟩
      · rw [he]
        simp only [nodup_sent, List.append_nil]
        exact ⟨hi, rfl, hc, hh, d, hd, h⟩
      · rw [he]
        simp only [nodup_sent, List.append_nil]
        refine ⟨hi, rfl, hc, ?_⟩
        rcases h with h | h
        · exfalso; rw [h.2.2.2] at hz; exact absurd hz (by decide)
        · exact Or.inl h
      · rw [he]
        simp only [sent_app, hm, List.append_nil]
        refine ⟨by dsimp only; rw [hn]; exact hi, rfl, ?_⟩
        cases r with
        | fine =>
          refine ⟨hc, ?_⟩
          rcases h with h | h
          · refine Or.inr ⟨h.1, h.2.1, ?_⟩
            dsimp only
            rw [hp, hcf]
            have h0 := hrf rfl
            cases hpr : n.hb.present with
            | false => exact Or.inl rfl
            | true =>
              right
              obtain ⟨g1, g2⟩ := hh hpr
              simp only [Hb.interval, hpr, g1, Bool.not_true, Bool.false_eq_true, if_false, if_true, Option.some.injEq] at h0
              rw [g2, h0]
          · exact Or.inl h
        | error => trivial
        | exception => trivial
    · rw [cont_other n pc log rc _ h1 h2 (Or.inr (Or.inl ⟨_, _, _, rfl⟩))]
      simp only [nodup_sent, List.append_nil]
      exact h

/-- the heartbeat of the device is not part of what is kept safe -/
theorem safe_beats (s : Sys) (b : Bool) (h : Safe s) : Safe { s with dev := { s.dev with beats := b } } := h

theorem finish_safe (s : Sys) (ok to : Bool) (h : Safe s) : Safe (s.step (.finish ok to)) := by
  suffices hm : Safe (s.master (.finish ok to)) by
    simp only [Sys.step]
    cases s.i.node.hb.conf with
    | none => exact hm
    | some v =>
      dsimp only
      split
      · exact safe_beats _ _ hm
      · exact hm
  rcases s with ⟨⟨n, pc, log, rc⟩, dev, inbox, wire⟩
  simp only [Sys.master]
  by_cases h1 : pc = .resetting
  · subst h1
    unfold Safe at h
    dsimp only at h
    obtain ⟨hi, hr, ⟨d, hd, h⟩ | h⟩ := h
    · rw [finish_reset n log rc d hd]
      simp only [nodup_sent, List.append_nil]
      exact ⟨hi, hr, Or.inl ⟨d, hd, h⟩⟩
    · obtain ⟨hf, g1, g2, g3⟩ := h
      rcases finish_finishing n log rc hf ok to with ⟨he, hp⟩ | ⟨v, hv, hp, ho, he⟩ | ⟨hp, hw, n', r, he, hr', hn⟩
      · rw [he]
        refine ⟨hi, hr, rfl, ?_, g2, g3, rfl, ?_⟩
        · rw [sent_app, g1]; rfl
        · intro hp'; exfalso; rw [hp] at hp'; exact absurd hp' (by decide)
      · rw [he]
        refine ⟨hi, hr, rfl, ?_, g2, g3, rfl, fun _ => ⟨rfl, hv⟩⟩
        rw [sent_app, g1]; rfl
      · rw [he]
        refine ⟨by dsimp only; rw [hn]; exact hi, hr, ?_⟩
        cases r
        · exact absurd rfl hr'
        · trivial
        · trivial
  · by_cases h2 : pc = .starting
    · subst h2
      unfold Safe at h
      dsimp only at h
      obtain ⟨hi, hr, hc, hh, d, hd, h⟩ := h
      rw [finish_starting n log rc d hd]
      simp only [nodup_sent, List.append_nil]
      exact ⟨hi, hr, hc, hh, d, hd, h⟩
    · rw [cont_other n pc log rc _ h1 h2 (Or.inr (Or.inr ⟨_, _, rfl⟩))]
      simp only [nodup_sent, List.append_nil]
      exact h

theorem step_safe (s : Sys) (e : Ev) (h : Safe s) : Safe (s.step e) := by
  cases e with
  | next p now => exact next_safe s p now h
  | wake => exact wake_safe s h
  | expire a b c => exact expire_safe s a b c h
  | finish a b => exact finish_safe s a b h
  | hear t => exact hear_safe s t h
  | drain t => exact hears_safe t _ s h
  | take => exact take_safe s h
  | boot => exact boot_safe s h
  | beat => exact beat_safe s h

theorem run_safe (es : List Ev) : ∀ (s : Sys), Safe s → Safe (s.run es) := by
  induction es with
  | nil => intro s h; exact h
  | cons e es ih => intro s h; exact ih _ (step_safe s e h)

theorem begin_safe {n : Node} {d : Device} {old : List Frame} (h : Begin n d old) : Safe (begins n d old) :=
  ⟨h.id, rfl, h.idle, rfl, h.up, h.old, h.unheard⟩

/-! ### How far the initialisation has come -/

/-- what does not change -/
structure Fixed (s : Sys) : Prop where
  id : s.dev.id = s.i.node.id
  rc : s.i.recovering = false
  present : s.i.node.hb.present = true
  conf : ∃ v, s.i.node.hb.conf = some v ∧ v ≠ 0
  dflt : ∃ v, s.i.node.hb.dflt = some v
  quiet : s.dev.beatsAfterReset = false

/-- the stages of the initialisation -/
def At : Nat → Sys → Prop
  | 0, s => s.i.pc = .listen ∧ s.i.node.phase = .idle ∧ s.inbox = [] ∧ Before s
  | 1, s => s.i.pc = .sdo ∧ s.i.node.listening = true ∧ s.i.node.phase = .idle ∧ s.inbox = [] ∧ Before s
  | 2, s => s.i.pc = .reset ∧ s.i.node.listening = true ∧ s.i.node.phase = .idle ∧ s.inbox = [] ∧ Before s
  | 3, s => s.i.pc = .resetting ∧ s.i.node.listening = true ∧ s.i.node.hb.valid = true ∧ (∃ d, s.i.node.phase = .waiting .resetCom d) ∧
      s.inbox = [nmtFrame 130 s.dev.id] ∧ Before s
  | 4, s => s.i.pc = .resetting ∧ s.i.node.listening = true ∧ s.i.node.hb.valid = true ∧ (∃ d, s.i.node.phase = .waiting .resetCom d) ∧
      s.inbox = [] ∧ s.dev.beats = false ∧ s.dev.state = 0 ∧ (∀ f ∈ s.wire, f.data[0] ≠ 0) ∧ s.i.node.state ≠ 0
  | 5, s => s.i.pc = .resetting ∧ s.i.node.listening = true ∧ s.i.node.hb.valid = true ∧ (∃ d, s.i.node.phase = .waiting .resetCom d) ∧
      s.inbox = [] ∧ s.dev.beats = false ∧ s.dev.state = 127 ∧ s.i.node.state ≠ 0 ∧
      ∃ a g, s.wire = a ++ [g] ∧ g.data[0] = 0 ∧ (∀ f ∈ a, f.data[0] ≠ 0)
  | 6, s => s.i.pc = .resetting ∧ s.i.node.listening = true ∧ s.i.node.hb.valid = true ∧ (∃ d, s.i.node.phase = .waiting .resetCom d) ∧
      s.inbox = [] ∧ s.dev.beats = false ∧ s.dev.state = 127 ∧ s.i.node.state = 0 ∧ s.wire = []
  | 7, s => s.i.pc = .resetting ∧ s.i.node.listening = true ∧ s.i.node.hb.valid = true ∧ s.i.node.phase = .finishing .resetCom ∧
      s.inbox = [] ∧ s.dev.beats = false ∧ s.dev.state = 127 ∧ s.wire = []
  | 8, s => s.i.pc = .pdo ∧ s.i.node.listening = true ∧ s.i.node.hb.valid = true ∧ s.i.node.phase = .idle ∧
      s.inbox = [] ∧ s.dev.beats = true ∧ s.dev.state = 127 ∧ All 127 s.wire ∧ s.i.node.state = 127
  | 9, s => s.i.pc = .values ∧ s.i.node.listening = true ∧ s.i.node.hb.valid = true ∧ s.i.node.phase = .idle ∧
      s.inbox = [] ∧ s.dev.beats = true ∧ s.dev.state = 127 ∧ All 127 s.wire ∧ s.i.node.state = 127
  | 10, s => s.i.pc = .sdoAgain ∧ s.i.node.listening = true ∧ s.i.node.hb.valid = true ∧ s.i.node.phase = .idle ∧
      s.inbox = [] ∧ s.dev.beats = true ∧ s.dev.state = 127 ∧ All 127 s.wire ∧ s.i.node.state = 127
  | 11, s => s.i.pc = .start ∧ s.i.node.listening = true ∧ s.i.node.hb.valid = true ∧ s.i.node.phase = .idle ∧
      s.inbox = [] ∧ s.dev.beats = true ∧ s.dev.state = 127 ∧ All 127 s.wire ∧ s.i.node.state = 127
  | 12, s => s.i.pc = .starting ∧ s.i.node.listening = true ∧ s.i.node.hb.valid = true ∧ (∃ d, s.i.node.phase = .waiting .start d) ∧
      s.inbox = [nmtFrame 1 s.dev.id] ∧ s.dev.beats = true ∧ s.dev.state = 127 ∧ All 127 s.wire ∧ s.i.node.state = 127
  | 13, s => s.i.pc = .starting ∧ s.i.node.listening = true ∧ s.i.node.hb.valid = true ∧ (∃ d, s.i.node.phase = .waiting .start d) ∧
      s.inbox = [] ∧ s.dev.beats = true ∧ s.dev.state = 5 ∧ All 127 s.wire ∧ s.i.node.state = 127
  | 14, s => s.i.pc = .starting ∧ s.i.node.listening = true ∧ s.i.node.hb.valid = true ∧ (∃ d, s.i.node.phase = .waiting .start d) ∧
      s.inbox = [] ∧ s.dev.beats = true ∧ s.dev.state = 5 ∧ s.i.node.state = 127 ∧ ∃ a g b, s.wire = a ++ g :: b ∧ All 127 a ∧ g.data[0] = 5 ∧ All 5 b
  | 15, s => s.i.pc = .starting ∧ s.i.node.listening = true ∧ s.i.node.hb.valid = true ∧ (∃ d, s.i.node.phase = .waiting .start d) ∧
      s.inbox = [] ∧ s.dev.beats = true ∧ s.dev.state = 5 ∧ s.i.node.state = 5 ∧ All 5 s.wire
  | 16, s => s.i.pc = .done .fine
  | _, _ => False

/-- the step that leads on -/
def leads : Nat → Ev → Bool
  | 0, .next _ _ | 1, .next _ _ | 2, .next _ _ | 8, .next _ _ | 9, .next _ _ | 10, .next _ _ | 11, .next _ _ => true
  | 3, .take | 12, .take => true
  | 4, .boot => true
  | 5, .drain _ | 14, .drain _ => true
  | 6, .wake | 15, .wake => true
  | 7, .finish _ _ => true
  | 13, .beat => true
  | _, _ => false

theorem at_le {k : Nat} {s : Sys} (h : At k s) : k ≤ 16 := by
  by_cases hk : k ≤ 16
  · exact hk
  · exfalso
    have : ∃ m, k = m + 17 := ⟨k - 17, by omega⟩
    obtain ⟨m, rfl⟩ := this
    exact h

theorem hear_wire (s : Sys) (t : Int) : (s.hear t).wire = s.wire.tail := by
  unfold Sys.hear
  cases h : s.wire with
  | nil => simp [h]
  | cons f w => rfl

theorem hear_fixed (s : Sys) (t : Int) (h : Fixed s) : Fixed (s.hear t) := by
  rcases s with ⟨i, dev, inbox, wire⟩
  cases wire with
  | nil => exact h
  | cons f w =>
    obtain ⟨e1, e2, e3, e4, e5, e6, e7, e8, e9, e10, e11, e12⟩ := frame_eff i f t
    simp only [Sys.hear, Sys.master, Initing.step]
    exact ⟨by dsimp only; rw [e4]; exact h.id, by dsimp only; rw [e2]; exact h.rc, by dsimp only; rw [e6]; exact h.present,
      by dsimp only; rw [e7]; exact h.conf, by dsimp only; rw [e8]; exact h.dflt, h.quiet⟩

theorem hear_at (s : Sys) (t : Int) (k : Nat) (h : At k s) : ∃ k', k ≤ k' ∧ At k' (s.hear t) := by
  rcases s with ⟨i, dev, inbox, wire⟩
  cases wire with
  | nil => exact ⟨k, Nat.le_refl _, h⟩
  | cons f w =>
    obtain ⟨e1, e2, e3, e4, e5, e6, e7, e8, e9, e10, e11, e12⟩ := frame_eff i f t
    simp only [Sys.hear, Sys.master, Initing.step]
    rw [e12]
    simp only [List.append_nil]
    generalize i.frame f t = j at *
    have hk := at_le h
    match k, h with
    | 0, h => refine ⟨0, Nat.le_refl _, ?_⟩; simp only [At, Before] at h ⊢; grind
    | 1, h => refine ⟨1, Nat.le_refl _, ?_⟩; simp only [At, Before] at h ⊢; grind
    | 2, h => refine ⟨2, Nat.le_refl _, ?_⟩; simp only [At, Before] at h ⊢; grind
    | 3, h => refine ⟨3, Nat.le_refl _, ?_⟩; simp only [At, Before] at h ⊢; grind
    | 4, h => refine ⟨4, Nat.le_refl _, ?_⟩; simp only [At, Before] at h ⊢; grind
    | 5, h =>
      simp only [At] at h
      obtain ⟨h1, h2, h3, h4, h5, h6, h7, h8, a, g, h9, h10, h11⟩ := h
      have e9' := e9 h3
      have e11' := e11 h2 h3
      cases a with
      | nil =>
        simp only [List.nil_append, List.cons.injEq] at h9
        refine ⟨6, by omega, ?_⟩
        simp only [At]
        exact ⟨e1.trans h1, e5.trans h2, by rw [e9']; exact h3, by rw [e3]; exact h4, h5, h6, h7, by rw [e11', h9.1]; exact h10, h9.2⟩
      | cons x a =>
        simp only [List.cons_append, List.cons.injEq] at h9
        refine ⟨5, by omega, ?_⟩
        simp only [At]
        exact ⟨e1.trans h1, e5.trans h2, by rw [e9']; exact h3, by rw [e3]; exact h4, h5, h6, h7, by rw [e11', h9.1]; exact h11 x List.mem_cons_self,
          a, g, h9.2, h10, fun y hy => h11 y (List.mem_cons_of_mem _ hy)⟩
    | 6, h => simp only [At] at h; exact absurd h.2.2.2.2.2.2.2.2 (by simp)
    | 7, h => simp only [At] at h; exact absurd h.2.2.2.2.2.2.2 (by simp)
    | 8, h => refine ⟨8, Nat.le_refl _, ?_⟩; simp only [At, All] at h ⊢; grind
    | 9, h => refine ⟨9, Nat.le_refl _, ?_⟩; simp only [At, All] at h ⊢; grind
    | 10, h => refine ⟨10, Nat.le_refl _, ?_⟩; simp only [At, All] at h ⊢; grind
    | 11, h => refine ⟨11, Nat.le_refl _, ?_⟩; simp only [At, All] at h ⊢; grind
    | 12, h => refine ⟨12, Nat.le_refl _, ?_⟩; simp only [At, All] at h ⊢; grind
    | 13, h => refine ⟨13, Nat.le_refl _, ?_⟩; simp only [At, All] at h ⊢; grind
    | 14, h =>
      simp only [At] at h
      obtain ⟨h1, h2, h3, h4, h5, h6, h7, h8, a, g, b, h9, h10, h11, h12⟩ := h
      have e9' := e9 h3
      have e11' := e11 h2 h3
      cases a with
      | nil =>
        simp only [List.nil_append, List.cons.injEq] at h9
        refine ⟨15, by omega, ?_⟩
        simp only [At]
        exact ⟨e1.trans h1, e5.trans h2, by rw [e9']; exact h3, by rw [e3]; exact h4, h5, h6, h7, by rw [e11', h9.1]; exact h11, h9.2 ▸ h12⟩
      | cons x a =>
        simp only [List.cons_append, List.cons.injEq] at h9
        refine ⟨14, by omega, ?_⟩
        simp only [At]
        exact ⟨e1.trans h1, e5.trans h2, by rw [e9']; exact h3, by rw [e3]; exact h4, h5, h6, h7, by rw [e11', h9.1]; exact h10 x List.mem_cons_self,
          a, g, b, h9.2, fun y hy => h10 y (List.mem_cons_of_mem _ hy), h11, h12⟩
    | 15, h => refine ⟨15, Nat.le_refl _, ?_⟩; simp only [At, All] at h ⊢; grind
    | 16, h => refine ⟨16, Nat.le_refl _, ?_⟩; simp only [At] at h ⊢; grind
    | k + 17, _ => omega

theorem hears_at (t : Int) (n : Nat) : ∀ (s : Sys) (k : Nat), At k s → ∃ k', k ≤ k' ∧ At k' (s.hears t n) := by
  induction n with
  | zero => intro s k h; exact ⟨k, Nat.le_refl _, h⟩
  | succ n ih =>
    intro s k h
    obtain ⟨k1, h1, h2⟩ := hear_at s t k h
    obtain ⟨k2, h3, h4⟩ := ih _ _ h2
    exact ⟨k2, by omega, h4⟩

theorem hears_wire (t : Int) (n : Nat) : ∀ (s : Sys), (s.hears t n).wire = s.wire.drop n := by
  induction n with
  | zero => intro s; rfl
  | succ n ih => intro s; rw [Sys.hears, ih, hear_wire, List.drop_tail]

theorem hears_fixed (t : Int) (n : Nat) : ∀ (s : Sys), Fixed s → Fixed (s.hears t n) := by
  induction n with
  | zero => intro s h; exact h
  | succ n ih => intro s h; exact ih _ (hear_fixed s t h)

theorem drain_at (s : Sys) (t : Int) (k : Nat) (h : At k s) :
    ∃ k', k ≤ k' ∧ At k' (s.step (.drain t)) ∧ (leads k (.drain t) = true → k < k') := by
  obtain ⟨k', h1, h2⟩ := hears_at t s.wire.length s k h
  refine ⟨k', h1, h2, ?_⟩
  intro hl
  have hw : (s.hears t s.wire.length).wire = [] := by rw [hears_wire]; simp
  have hk : k = 5 ∨ k = 14 := by
    unfold leads at hl
    split at hl <;> simp_all
  have hne : k' ≠ k := by
    intro he
    subst he
    rcases hk with rfl | rfl
    · simp only [At, hw] at h2
      obtain ⟨a, g, h9, _⟩ := h2.2.2.2.2.2.2.2.2
      simp at h9
    · simp only [At, hw] at h2
      obtain ⟨a, g, b, h9, _⟩ := h2.2.2.2.2.2.2.2.2
      simp at h9
  omega

theorem take_fixed (s : Sys) (h : Fixed s) : Fixed (s.step .take) := by
  rcases s with ⟨i, dev, inbox, wire⟩
  cases inbox with
  | nil => exact h
  | cons f q =>
    have h1 : (dev.obey f).id = dev.id := by unfold Device.obey; grind
    have h2 : (dev.obey f).beatsAfterReset = dev.beatsAfterReset := by unfold Device.obey; grind
    exact ⟨h1.trans h.id, h.rc, h.present, h.conf, h.dflt, h2.trans h.quiet⟩

theorem take_at (s : Sys) (k : Nat) (hf : Fixed s) (h : At k s) : ∃ k', k ≤ k' ∧ At k' (s.step .take) ∧ (leads k .take = true → k < k') := by
  rcases s with ⟨i, dev, inbox, wire⟩
  cases inbox with
  | nil =>
    refine ⟨k, Nat.le_refl _, h, ?_⟩
    intro hl
    exfalso
    have hk : k = 3 ∨ k = 12 := by
      unfold leads at hl
      split at hl <;> simp_all
    rcases hk with rfl | rfl <;> simp [At] at h
  | cons f q =>
    simp only [Sys.step]
    have hk := at_le h
    match k, h with
    | 3, h =>
      simp only [At, Before, List.cons.injEq] at h
      obtain ⟨h1, h2, h3, h4, ⟨h5, h6⟩, h7, h8, h9⟩ := h
      refine ⟨4, by omega, ?_, fun _ => by omega⟩
      rw [h5, obey_reset _ h7]
      simp only [At]
      exact ⟨h1, h2, h3, h4, h6, hf.quiet, trivial, h8, h9⟩
    | 12, h =>
      simp only [At, List.cons.injEq] at h
      obtain ⟨h1, h2, h3, h4, ⟨h5, h6⟩, h7, h8, h9, h10⟩ := h
      refine ⟨13, by omega, ?_, fun _ => by omega⟩
      rw [h5, obey_start _ (by rw [h8]; decide)]
      simp only [At]
      exact ⟨h1, h2, h3, h4, h6, h7, trivial, h9, h10⟩
    | 16, h => exact ⟨16, by omega, h, fun hl => by simp [leads] at hl⟩
    | 0, h => simp [At] at h
    | 1, h => simp [At] at h
    | 2, h => simp [At] at h
    | 4, h => simp [At] at h
    | 5, h => simp [At] at h
    | 6, h => simp [At] at h
    | 7, h => simp [At] at h
    | 8, h => simp [At] at h
    | 9, h => simp [At] at h
    | 10, h => simp [At] at h
    | 11, h => simp [At] at h
    | 13, h => simp [At] at h
    | 14, h => simp [At] at h
    | 15, h => simp [At] at h
    | k + 17, _ => omega

theorem boot_fixed (s : Sys) (h : Fixed s) : Fixed (s.step .boot) := by
  simp only [Sys.step]
  split
  · exact ⟨h.id, h.rc, h.present, h.conf, h.dflt, h.quiet⟩
  · exact h

theorem boot_at (s : Sys) (k : Nat) (h : At k s) : ∃ k', k ≤ k' ∧ At k' (s.step .boot) ∧ (leads k .boot = true → k < k') := by
  by_cases hz : s.dev.state = 0
  · by_cases h4 : k = 4
    · subst h4
      simp only [At] at h
      obtain ⟨h1, h2, h3, h4, h5, h6, h7, h8, h9⟩ := h
      refine ⟨5, by omega, ?_, fun _ => by omega⟩
      simp only [Sys.step, if_pos hz, At]
      exact ⟨h1, h2, h3, h4, h5, h6, trivial, h9, s.wire, _, rfl, rfl, h8⟩
    · by_cases h16 : k = 16
      · subst h16
        refine ⟨16, by omega, ?_, fun hl => by simp [leads] at hl⟩
        simp only [Sys.step, if_pos hz]
        exact h
      · exfalso
        have hk := at_le h
        match k, h with
        | 0, h => simp only [At, Before] at h; grind
        | 1, h => simp only [At, Before] at h; grind
        | 2, h => simp only [At, Before] at h; grind
        | 3, h => simp only [At, Before] at h; grind
        | 5, h => simp only [At] at h; grind
        | 6, h => simp only [At] at h; grind
        | 7, h => simp only [At] at h; grind
        | 8, h => simp only [At] at h; grind
        | 9, h => simp only [At] at h; grind
        | 10, h => simp only [At] at h; grind
        | 11, h => simp only [At] at h; grind
        | 12, h => simp only [At] at h; grind
        | 13, h => simp only [At] at h; grind
        | 14, h => simp only [At] at h; grind
        | 15, h => simp only [At] at h; grind
        | k + 17, _ => omega
  · refine ⟨k, Nat.le_refl _, ?_, ?_⟩
    · simp only [Sys.step, if_neg hz]; exact h
    · intro hl
      exfalso
      have hk : k = 4 := by
        unfold leads at hl
        split at hl <;> simp_all
      subst hk
      simp only [At] at h
      exact hz h.2.2.2.2.2.2.1

theorem beat_fixed (s : Sys) (h : Fixed s) : Fixed (s.step .beat) := by
  simp only [Sys.step]
  split
  · exact ⟨h.id, h.rc, h.present, h.conf, h.dflt, h.quiet⟩
  · exact h

theorem beat_at (s : Sys) (k : Nat) (h : At k s) : ∃ k', k ≤ k' ∧ At k' (s.step .beat) ∧ (leads k .beat = true → k < k') := by
  by_cases hz : s.dev.state ≠ 0 ∧ s.dev.beats = true
  · have hsn : (∀ f ∈ s.wire, f.data[0] ≠ 0) → ∀ f ∈ s.wire ++ [report s.dev.id s.dev.state], f.data[0] ≠ 0 := by
      intro hw f hf
      rcases List.mem_append.1 hf with hf | hf
      · exact hw f hf
      · cases List.mem_singleton.1 hf; exact hz.1
    have hal : ∀ x, s.dev.state = x → All x s.wire → All x (s.wire ++ [report s.dev.id s.dev.state]) := fun x h1 h2 => by rw [h1]; exact all_snoc h2 _
    simp only [Sys.step, if_pos hz]
    have hk := at_le h
    match k, h with
    | 0, h => refine ⟨0, by omega, ?_, fun hl => by simp [leads] at hl⟩; simp only [At, Before] at h ⊢; exact ⟨h.1, h.2.1, h.2.2.1, h.2.2.2.1, hsn h.2.2.2.2.1, h.2.2.2.2.2⟩
    | 1, h => refine ⟨1, by omega, ?_, fun hl => by simp [leads] at hl⟩; simp only [At, Before] at h ⊢; exact ⟨h.1, h.2.1, h.2.2.1, h.2.2.2.1, h.2.2.2.2.1, hsn h.2.2.2.2.2.1, h.2.2.2.2.2.2⟩
    | 2, h => refine ⟨2, by omega, ?_, fun hl => by simp [leads] at hl⟩; simp only [At, Before] at h ⊢; exact ⟨h.1, h.2.1, h.2.2.1, h.2.2.2.1, h.2.2.2.2.1, hsn h.2.2.2.2.2.1, h.2.2.2.2.2.2⟩
    | 3, h => refine ⟨3, by omega, ?_, fun hl => by simp [leads] at hl⟩; simp only [At, Before] at h ⊢; exact ⟨h.1, h.2.1, h.2.2.1, h.2.2.2.1, h.2.2.2.2.1, h.2.2.2.2.2.1, hsn h.2.2.2.2.2.2.1, h.2.2.2.2.2.2.2⟩
    | 4, h => simp only [At] at h; exact absurd h.2.2.2.2.2.2.1 hz.1
    | 5, h => simp only [At] at h; exact absurd hz.2 (by rw [h.2.2.2.2.2.1]; decide)
    | 6, h => simp only [At] at h; exact absurd hz.2 (by rw [h.2.2.2.2.2.1]; decide)
    | 7, h => simp only [At] at h; exact absurd hz.2 (by rw [h.2.2.2.2.2.1]; decide)
    | 8, h => refine ⟨8, by omega, ?_, fun hl => by simp [leads] at hl⟩; simp only [At] at h ⊢; obtain ⟨h1, h2, h3, h4, h5, h6, h7, h8, h9⟩ := h; exact ⟨h1, h2, h3, h4, h5, h6, h7, hal _ h7 h8, h9⟩
    | 9, h => refine ⟨9, by omega, ?_, fun hl => by simp [leads] at hl⟩; simp only [At] at h ⊢; obtain ⟨h1, h2, h3, h4, h5, h6, h7, h8, h9⟩ := h; exact ⟨h1, h2, h3, h4, h5, h6, h7, hal _ h7 h8, h9⟩
    | 10, h => refine ⟨10, by omega, ?_, fun hl => by simp [leads] at hl⟩; simp only [At] at h ⊢; obtain ⟨h1, h2, h3, h4, h5, h6, h7, h8, h9⟩ := h; exact ⟨h1, h2, h3, h4, h5, h6, h7, hal _ h7 h8, h9⟩
    | 11, h => refine ⟨11, by omega, ?_, fun hl => by simp [leads] at hl⟩; simp only [At] at h ⊢; obtain ⟨h1, h2, h3, h4, h5, h6, h7, h8, h9⟩ := h; exact ⟨h1, h2, h3, h4, h5, h6, h7, hal _ h7 h8, h9⟩
    | 12, h => refine ⟨12, by omega, ?_, fun hl => by simp [leads] at hl⟩; simp only [At] at h ⊢; obtain ⟨h1, h2, h3, h4, h5, h6, h7, h8, h9⟩ := h; exact ⟨h1, h2, h3, h4, h5, h6, h7, hal _ h7 h8, h9⟩
    | 13, h =>
      refine ⟨14, by omega, ?_, fun _ => by omega⟩
      simp only [At] at h ⊢
      obtain ⟨h1, h2, h3, h4, h5, h6, h7, h8, h9⟩ := h
      exact ⟨h1, h2, h3, h4, h5, h6, h7, h9, s.wire, _, [], rfl, h8, h7, fun _ hx => nomatch hx⟩
    | 14, h =>
      refine ⟨14, by omega, ?_, fun hl => by simp [leads] at hl⟩
      simp only [At] at h ⊢
      obtain ⟨h1, h2, h3, h4, h5, h6, h7, h8, a, g, b, h9, h10, h11, h12⟩ := h
      refine ⟨h1, h2, h3, h4, h5, h6, h7, h8, a, g, b ++ [report s.dev.id s.dev.state], by rw [h9]; simp, h10, h11, ?_⟩
      rw [h7]; exact all_snoc h12 _
    | 15, h =>
      refine ⟨15, by omega, ?_, fun hl => by simp [leads] at hl⟩
      simp only [At] at h ⊢
      obtain ⟨h1, h2, h3, h4, h5, h6, h7, h8, h9⟩ := h
      exact ⟨h1, h2, h3, h4, h5, h6, h7, h8, hal _ h7 h9⟩
    | 16, h => exact ⟨16, by omega, h, fun hl => by simp [leads] at hl⟩
    | k + 17, _ => omega
  · refine ⟨k, Nat.le_refl _, ?_, ?_⟩
    · simp only [Sys.step, if_neg hz]; exact h
    · intro hl
      exfalso
      have hk : k = 13 := by
        unfold leads at hl
        split at hl <;> simp_all
      subst hk
      simp only [At] at h
      exact hz ⟨by rw [h.2.2.2.2.2.2.1]; decide, h.2.2.2.2.2.1⟩

theorem reset_valid (h : Hb) (hd : ∃ v, h.dflt = some v) : h.reset.valid = true ∧ h.reset.present = h.present ∧ h.reset.conf = h.conf ∧ h.reset.dflt = h.dflt := by
  obtain ⟨v, hv⟩ := hd
  simp [Hb.reset, hv]

theorem next_at (s : Sys) (k : Nat) (now : Int) (hf : Fixed s) (h : At k s) :
    Fixed (s.step (.next .works now)) ∧ ∃ k', k ≤ k' ∧ At k' (s.step (.next .works now)) ∧ (leads k (.next .works now) = true → k < k') := by
  rcases s with ⟨⟨n, pc, log, rc⟩, dev, inbox, wire⟩
  have hk := at_le h
  simp only [Sys.step, Sys.master, Initing.step, and_true]
  match k, h with
  | 0, h =>
    simp only [At, Before] at h
    obtain ⟨rfl, hh⟩ := h
    simp only [Initing.next, nodup_sent, List.append_nil, reduceCtorEq, if_false]
    exact ⟨⟨hf.id, hf.rc, hf.present, hf.conf, hf.dflt, hf.quiet⟩, 1, by omega, ⟨rfl, rfl, hh⟩, fun _ => by omega⟩
  | 1, h =>
    simp only [At, Before] at h
    obtain ⟨rfl, hh⟩ := h
    simp only [Initing.next, if_true, nodup_sent, List.append_nil, reduceCtorEq, if_false]
    exact ⟨⟨hf.id, hf.rc, hf.present, hf.conf, hf.dflt, hf.quiet⟩, 2, by omega, ⟨rfl, hh⟩, fun _ => by omega⟩
  | 2, h =>
    simp only [At, Before] at h
    obtain ⟨rfl, h1, h2, h3, h4⟩ := h
    simp only [Initing.next, if_true, call_sent n _ _ h2, reduceCtorEq, if_false]
    have hr := reset_valid n.hb hf.dflt
    have hid := hf.id
    dsimp only at hid
    refine ⟨⟨hf.id, hf.rc, hr.2.1.trans hf.present, ?_, ?_, hf.quiet⟩, 3, by omega, ⟨rfl, h1, hr.1, ⟨_, rfl⟩, ?_, h4⟩, fun _ => by omega⟩
    · simp only [Cmd.isReset, if_true]; rw [hr.2.2.1]; exact hf.conf
    · simp only [Cmd.isReset, if_true]; rw [hr.2.2.2]; exact hf.dflt
    · subst h3; simp [sent, items, hid, Cmd.code]
  | 3, h =>
    simp only [At] at h
    obtain ⟨rfl, hh⟩ := h
    simp only [Initing.next, nodup_sent, List.append_nil, reduceCtorEq, if_false]
    exact ⟨hf, 3, by omega, ⟨rfl, hh⟩, fun hl => by simp [leads] at hl⟩
  | 4, h =>
    simp only [At] at h
    obtain ⟨rfl, hh⟩ := h
    simp only [Initing.next, nodup_sent, List.append_nil, reduceCtorEq, if_false]
    exact ⟨hf, 4, by omega, ⟨rfl, hh⟩, fun hl => by simp [leads] at hl⟩
  | 5, h =>
    simp only [At] at h
    obtain ⟨rfl, hh⟩ := h
    simp only [Initing.next, nodup_sent, List.append_nil, reduceCtorEq, if_false]
    exact ⟨hf, 5, by omega, ⟨rfl, hh⟩, fun hl => by simp [leads] at hl⟩
  | 6, h =>
    simp only [At] at h
    obtain ⟨rfl, hh⟩ := h
    simp only [Initing.next, nodup_sent, List.append_nil, reduceCtorEq, if_false]
    exact ⟨hf, 6, by omega, ⟨rfl, hh⟩, fun hl => by simp [leads] at hl⟩
  | 7, h =>
    simp only [At] at h
    obtain ⟨rfl, hh⟩ := h
    simp only [Initing.next, nodup_sent, List.append_nil, reduceCtorEq, if_false]
    exact ⟨hf, 7, by omega, ⟨rfl, hh⟩, fun hl => by simp [leads] at hl⟩
  | 8, h =>
    simp only [At] at h
    obtain ⟨rfl, h1, h2, h3, h4, h5⟩ := h
    simp only [Initing.next, if_true, sent_app, reduceCtorEq, if_false]
    refine ⟨⟨hf.id, hf.rc, hf.present, hf.conf, hf.dflt, hf.quiet⟩, 9, by omega, ⟨rfl, h1, h2, h3, ?_, h5⟩, fun _ => by omega⟩
    subst h4; rfl
  | 9, h =>
    simp only [At] at h
    obtain ⟨rfl, h1, h2, h3, h4, h5⟩ := h
    simp only [Initing.next, if_true, sent_app]
    refine ⟨⟨hf.id, hf.rc, hf.present, hf.conf, hf.dflt, hf.quiet⟩, 10, by omega, ⟨rfl, h1, h2, h3, ?_, h5⟩, fun _ => by omega⟩
    subst h4; rfl
  | 10, h =>
    simp only [At] at h
    obtain ⟨rfl, hh⟩ := h
    simp only [Initing.next, if_true, nodup_sent, List.append_nil, reduceCtorEq, if_false]
    exact ⟨⟨hf.id, hf.rc, hf.present, hf.conf, hf.dflt, hf.quiet⟩, 11, by omega, ⟨rfl, hh⟩, fun _ => by omega⟩
  | 11, h =>
    simp only [At] at h
    obtain ⟨rfl, h1, h2, h3, h4, h5⟩ := h
    simp only [Initing.next, if_true, call_sent n _ _ h3, reduceCtorEq, if_false]
    have hid := hf.id
    dsimp only at hid
    refine ⟨⟨hf.id, hf.rc, hf.present, hf.conf, hf.dflt, hf.quiet⟩, 12, by omega, ⟨rfl, h1, h2, ⟨_, rfl⟩, ?_, h5⟩, fun _ => by omega⟩
    subst h4; simp [sent, items, hid, Cmd.code]
  | 12, h =>
    simp only [At] at h
    obtain ⟨rfl, hh⟩ := h
    simp only [Initing.next, nodup_sent, List.append_nil, reduceCtorEq, if_false]
    exact ⟨hf, 12, by omega, ⟨rfl, hh⟩, fun hl => by simp [leads] at hl⟩
  | 13, h =>
    simp only [At] at h
    obtain ⟨rfl, hh⟩ := h
    simp only [Initing.next, nodup_sent, List.append_nil, reduceCtorEq, if_false]
    exact ⟨hf, 13, by omega, ⟨rfl, hh⟩, fun hl => by simp [leads] at hl⟩
  | 14, h =>
    simp only [At] at h
    obtain ⟨rfl, hh⟩ := h
    simp only [Initing.next, nodup_sent, List.append_nil, reduceCtorEq, if_false]
    exact ⟨hf, 14, by omega, ⟨rfl, hh⟩, fun hl => by simp [leads] at hl⟩
  | 15, h =>
    simp only [At] at h
    obtain ⟨rfl, hh⟩ := h
    simp only [Initing.next, nodup_sent, List.append_nil, reduceCtorEq, if_false]
    exact ⟨hf, 15, by omega, ⟨rfl, hh⟩, fun hl => by simp [leads] at hl⟩
  | 16, h =>
    simp only [At] at h
    subst h
    simp only [Initing.next, nodup_sent, List.append_nil, reduceCtorEq, if_false]
    exact ⟨hf, 16, by omega, rfl, fun hl => by simp [leads] at hl⟩
  | k + 17, _ => omega

theorem wake_at (s : Sys) (k : Nat) (hf : Fixed s) (h : At k s) :
    Fixed (s.step .wake) ∧ ∃ k', k ≤ k' ∧ At k' (s.step .wake) ∧ (leads k .wake = true → k < k') := by
  rcases s with ⟨⟨n, pc, log, rc⟩, dev, inbox, wire⟩
  have hk := at_le h
  simp only [Sys.step, Sys.master]
  by_cases h1 : pc = .resetting
  · subst h1
    by_cases h7 : k = 7
    · subst h7
      have h0 := h
      simp only [At] at h0
      rw [wake_finishing n log rc h0.2.2.2.1]
      simp only [nodup_sent, List.append_nil]
      exact ⟨hf, 7, by omega, h, fun hl => by simp [leads] at hl⟩
    · by_cases h6 : k = 6
      · subst h6
        simp only [At] at h
        obtain ⟨g1, g2, g3, ⟨d, g4⟩, g5, g6, g7, g8, g9⟩ := h
        rw [wake_reset n log rc d g4]
        simp only [if_pos g8, nodup_sent, List.append_nil]
        exact ⟨⟨hf.id, hf.rc, hf.present, hf.conf, hf.dflt, hf.quiet⟩, 7, by omega, ⟨rfl, g2, g3, rfl, g5, g6, g7, g9⟩, fun _ => by omega⟩
      · have hx : (∃ d, n.phase = .waiting .resetCom d) ∧ n.state ≠ 0 := by
          match k, h with
          | 3, h => simp only [At, Before] at h; exact ⟨h.2.2.2.1, h.2.2.2.2.2.2.2⟩
          | 4, h => simp only [At] at h; exact ⟨h.2.2.2.1, h.2.2.2.2.2.2.2.2⟩
          | 5, h => simp only [At] at h; exact ⟨h.2.2.2.1, h.2.2.2.2.2.2.2.1⟩
          | 0, h => simp [At] at h
          | 1, h => simp [At] at h
          | 2, h => simp [At] at h
          | 8, h => simp [At] at h
          | 9, h => simp [At] at h
          | 10, h => simp [At] at h
          | 11, h => simp [At] at h
          | 12, h => simp [At] at h
          | 13, h => simp [At] at h
          | 14, h => simp [At] at h
          | 15, h => simp [At] at h
          | 16, h => simp [At] at h
          | k + 17, _ => omega
        obtain ⟨⟨d, hd⟩, hz⟩ := hx
        rw [wake_reset n log rc d hd]
        simp only [if_neg hz, nodup_sent, List.append_nil]
        refine ⟨hf, k, by omega, h, fun hl => ?_⟩
        exfalso
        have : k = 6 ∨ k = 15 := by
          unfold leads at hl
          split at hl <;> simp_all
        rcases this with rfl | rfl
        · exact h6 rfl
        · simp [At] at h
  · by_cases h2 : pc = .starting
    · subst h2
      by_cases h15 : k = 15
      · subst h15
        simp only [At] at h
        obtain ⟨g1, g2, g3, ⟨d, g4⟩, g5, g6, g7, g8, g9⟩ := h
        rw [wake_start n log rc d g4]
        simp only [if_pos g8, nodup_sent, List.append_nil]
        exact ⟨⟨hf.id, hf.rc, hf.present, hf.conf, hf.dflt, hf.quiet⟩, 16, by omega, rfl, fun _ => by omega⟩
      · have hx : (∃ d, n.phase = .waiting .start d) ∧ n.state = 127 := by
          match k, h with
          | 12, h => simp only [At] at h; exact ⟨h.2.2.2.1, h.2.2.2.2.2.2.2.2⟩
          | 13, h => simp only [At] at h; exact ⟨h.2.2.2.1, h.2.2.2.2.2.2.2.2⟩
          | 14, h => simp only [At] at h; exact ⟨h.2.2.2.1, h.2.2.2.2.2.2.2.1⟩
          | 0, h => simp [At] at h
          | 1, h => simp [At] at h
          | 2, h => simp [At] at h
          | 3, h => simp [At] at h
          | 4, h => simp [At] at h
          | 5, h => simp [At] at h
          | 6, h => simp [At] at h
          | 7, h => simp [At] at h
          | 8, h => simp [At] at h
          | 9, h => simp [At] at h
          | 10, h => simp [At] at h
          | 11, h => simp [At] at h
          | 16, h => simp [At] at h
          | k + 17, _ => omega
        obtain ⟨⟨d, hd⟩, hz⟩ := hx
        rw [wake_start n log rc d hd]
        simp only [if_neg (show ¬ n.state = 5 by rw [hz]; decide), nodup_sent, List.append_nil]
        refine ⟨hf, k, by omega, h, fun hl => ?_⟩
        exfalso
        have : k = 6 ∨ k = 15 := by
          unfold leads at hl
          split at hl <;> simp_all
        rcases this with rfl | rfl
        · simp [At] at h
        · exact h15 rfl
    · rw [cont_other n pc log rc _ h1 h2 (Or.inl rfl)]
      simp only [nodup_sent, List.append_nil]
      refine ⟨hf, k, by omega, h, fun hl => ?_⟩
      exfalso
      have : k = 6 ∨ k = 15 := by
        unfold leads at hl
        split at hl <;> simp_all
      rcases this with rfl | rfl <;> simp only [At] at h
      · exact h1 h.1
      · exact h2 h.1

theorem finish_at (s : Sys) (k : Nat) (to : Bool) (hf : Fixed s) (h : At k s) :
    Fixed (s.step (.finish true to)) ∧ ∃ k', k ≤ k' ∧ At k' (s.step (.finish true to)) ∧ (leads k (.finish true to) = true → k < k') := by
  rcases s with ⟨⟨n, pc, log, rc⟩, dev, inbox, wire⟩
  have hk := at_le h
  obtain ⟨v, hv, hv0⟩ := hf.conf
  dsimp only at hv
  simp only [Sys.step, Sys.master, hv]
  by_cases h7 : k = 7
  · subst h7
    simp only [At] at h
    obtain ⟨rfl, g2, g3, g4, g5, g6, g7, g8⟩ := h
    have hp := hf.present
    dsimp only at hp
    rcases finish_finishing n log rc g4 true to with ⟨_, hq⟩ | ⟨w, hw, _, _, he⟩ | ⟨_, hq, _⟩
    · exact absurd hq (by rw [hp]; decide)
    · rw [hv] at hw
      cases hw
      simp only [he, hp, true_and, if_true]
      refine ⟨⟨hf.id, hf.rc, rfl, ⟨v, hv, hv0⟩, hf.dflt, hf.quiet⟩, 8, by omega, ⟨rfl, g2, rfl, rfl, ?_, decide_eq_true hv0, g7, ?_, rfl⟩, fun _ => by omega⟩
      · subst g5; simp [sent]
      · subst g8; exact fun _ hx => nomatch hx
    · rcases hq with hq | hq
      · rw [hv] at hq; exact absurd hq (by simp)
      · exact absurd hq (by decide)
  · have hl : leads k (.finish true to) = true → k < k := by
      intro hl
      exfalso
      apply h7
      unfold leads at hl
      split at hl <;> simp_all
    by_cases h1 : pc = .resetting
    · subst h1
      have hx : ∃ d, n.phase = .waiting .resetCom d := by
        match k, h with
        | 3, h => simp only [At, Before] at h; exact h.2.2.2.1
        | 4, h => simp only [At] at h; exact h.2.2.2.1
        | 5, h => simp only [At] at h; exact h.2.2.2.1
        | 6, h => simp only [At] at h; exact h.2.2.2.1
        | 0, h => simp [At] at h
        | 1, h => simp [At] at h
        | 2, h => simp [At] at h
        | 8, h => simp [At] at h
        | 9, h => simp [At] at h
        | 10, h => simp [At] at h
        | 11, h => simp [At] at h
        | 12, h => simp [At] at h
        | 13, h => simp [At] at h
        | 14, h => simp [At] at h
        | 15, h => simp [At] at h
        | 16, h => simp [At] at h
        | k + 17, _ => omega
      obtain ⟨d, hd⟩ := hx
      simp only [finish_reset n log rc d hd, nodup_sent, List.append_nil, reduceCtorEq, false_and, and_false, if_false]
      exact ⟨hf, k, by omega, h, hl⟩
    · by_cases h2 : pc = .starting
      · subst h2
        have hx : ∃ d, n.phase = .waiting .start d := by
          match k, h with
          | 12, h => simp only [At] at h; exact h.2.2.2.1
          | 13, h => simp only [At] at h; exact h.2.2.2.1
          | 14, h => simp only [At] at h; exact h.2.2.2.1
          | 15, h => simp only [At] at h; exact h.2.2.2.1
          | 0, h => simp [At] at h
          | 1, h => simp [At] at h
          | 2, h => simp [At] at h
          | 3, h => simp [At] at h
          | 4, h => simp [At] at h
          | 5, h => simp [At] at h
          | 6, h => simp [At] at h
          | 8, h => simp [At] at h
          | 9, h => simp [At] at h
          | 10, h => simp [At] at h
          | 11, h => simp [At] at h
          | 16, h => simp [At] at h
          | k + 17, _ => omega
        obtain ⟨d, hd⟩ := hx
        simp only [finish_starting n log rc d hd, nodup_sent, List.append_nil, reduceCtorEq, false_and, if_false]
        exact ⟨hf, k, by omega, h, hl⟩
      · simp only [cont_other n pc log rc (.finish true to) h1 h2 (Or.inr (Or.inr ⟨_, _, rfl⟩)), nodup_sent, List.append_nil, h1, false_and, if_false]
        exact ⟨hf, k, by omega, h, hl⟩

theorem step_at (s : Sys) (e : Ev) (k : Nat) (hw : Well e) (hf : Fixed s) (h : At k s) :
    Fixed (s.step e) ∧ ∃ k', k ≤ k' ∧ At k' (s.step e) ∧ (leads k e = true → k < k') := by
  cases e with
  | next p now => cases hw; exact next_at s k now hf h
  | wake => exact wake_at s k hf h
  | expire a b c => exact hw.elim
  | finish ok to => cases hw; exact finish_at s k to hf h
  | hear t =>
    obtain ⟨k', h1, h2⟩ := hear_at s t k h
    refine ⟨hear_fixed s t hf, k', h1, h2, fun hl => ?_⟩
    unfold leads at hl
    split at hl <;> simp_all
  | drain t => exact ⟨hears_fixed t _ s hf, drain_at s t k h⟩
  | take => exact ⟨take_fixed s hf, take_at s k hf h⟩
  | boot => exact ⟨boot_fixed s hf, boot_at s k h⟩
  | beat => exact ⟨beat_fixed s hf, beat_at s k h⟩

theorem run_at (es : List Ev) : ∀ (s : Sys) (k : Nat), (∀ e ∈ es, Well e) → Fixed s → At k s →
    Fixed (s.run es) ∧ ∃ k', k ≤ k' ∧ At k' (s.run es) ∧ ((∃ e ∈ es, leads k e = true) → k < k') := by
  induction es with
  | nil => intro s k _ hf h; exact ⟨hf, k, Nat.le_refl _, h, fun ⟨e, he, _⟩ => nomatch he⟩
  | cons e es ih =>
    intro s k hw hf h
    obtain ⟨hf1, k1, h1, h2, h3⟩ := step_at s e k (hw e List.mem_cons_self) hf h
    obtain ⟨hf2, k2, h4, h5, h6⟩ := ih _ k1 (fun x hx => hw x (List.mem_cons_of_mem _ hx)) hf1 h2
    refine ⟨hf2, k2, by omega, h5, ?_⟩
    rintro ⟨x, hx, hl⟩
    rcases List.mem_cons.1 hx with rfl | hx
    · have := h3 hl; omega
    · by_cases hk : k1 = k
      · subst hk; exact h6 ⟨x, hx, hl⟩
      · omega

theorem round_leads {es : List Ev} (h : Round es) (k : Nat) (hk : k < 16) : ∃ e ∈ es, leads k e = true := by
  obtain ⟨t, ht⟩ := h.drain
  obtain ⟨ok, to, hfi⟩ := h.finish
  obtain ⟨p, now, hn⟩ := h.next
  match k, hk with
  | 0, _ => exact ⟨_, hn, rfl⟩
  | 1, _ => exact ⟨_, hn, rfl⟩
  | 2, _ => exact ⟨_, hn, rfl⟩
  | 3, _ => exact ⟨_, h.take, rfl⟩
  | 4, _ => exact ⟨_, h.boot, rfl⟩
  | 5, _ => exact ⟨_, ht, rfl⟩
  | 6, _ => exact ⟨_, h.wake, rfl⟩
  | 7, _ => exact ⟨_, hfi, rfl⟩
  | 8, _ => exact ⟨_, hn, rfl⟩
  | 9, _ => exact ⟨_, hn, rfl⟩
  | 10, _ => exact ⟨_, hn, rfl⟩
  | 11, _ => exact ⟨_, hn, rfl⟩
  | 12, _ => exact ⟨_, h.take, rfl⟩
  | 13, _ => exact ⟨_, h.beat, rfl⟩
  | 14, _ => exact ⟨_, ht, rfl⟩
  | 15, _ => exact ⟨_, h.wake, rfl⟩
  | k + 16, hk => omega

theorem run_append (es fs : List Ev) : ∀ (s : Sys), s.run (es ++ fs) = (s.run es).run fs := by
  induction es with
  | nil => intro s; rfl
  | cons e es ih => intro s; exact ih _

theorem rounds_at (rs : List (List Ev)) : ∀ (s : Sys) (k : Nat), (∀ r ∈ rs, Round r ∧ ∀ e ∈ r, Well e) → Fixed s → At k s →
    ∃ k', At k' (s.run rs.flatten) ∧ min 16 (k + rs.length) ≤ k' := by
  induction rs with
  | nil => intro s k _ _ h; exact ⟨k, h, by simp; omega⟩
  | cons r rs ih =>
    intro s k hr hf h
    obtain ⟨hf1, k1, h1, h2, h3⟩ := run_at r s k (hr r List.mem_cons_self).2 hf h
    obtain ⟨k2, h4, h5⟩ := ih _ k1 (fun x hx => hr x (List.mem_cons_of_mem _ hx)) hf1 h2
    refine ⟨k2, ?_, ?_⟩
    · rw [List.flatten_cons, run_append]; exact h4
    · have := at_le h4
      have hk := at_le h
      simp only [List.length_cons]
      by_cases hlt : k < 16
      · have := h3 (round_leads (hr r List.mem_cons_self).1 k hlt); omega
      · omega

theorem at_fine {s : Sys} (h : At 16 s) : s.i.pc = .done .fine := h

theorem obey_id (d : Device) (f : Frame) : (d.obey f).id = d.id := by unfold Device.obey; grind

theorem hears_dev (t : Int) (n : Nat) : ∀ (s : Sys), (s.hears t n).dev = s.dev := by
  induction n with
  | zero => intro s; rfl
  | succ n ih =>
    intro s
    rw [Sys.hears, ih]
    unfold Sys.hear
    split <;> rfl

theorem step_dev_id (s : Sys) (e : Ev) : (s.step e).dev.id = s.dev.id := by
  cases e with
  | next p now => simp only [Sys.step]; split <;> rfl
  | wake => rfl
  | expire a b c => rfl
  | finish a b =>
    simp only [Sys.step]
    split
    · split <;> rfl
    · rfl
  | hear t => simp only [Sys.step, Sys.hear]; split <;> rfl
  | drain t => simp only [Sys.step]; rw [hears_dev]
  | take =>
    simp only [Sys.step]
    split
    · rfl
    · exact obey_id _ _
  | boot => simp only [Sys.step]; split <;> rfl
  | beat => simp only [Sys.step]; split <;> rfl

theorem run_dev_id (es : List Ev) : ∀ (s : Sys), (s.run es).dev.id = s.dev.id := by
  induction es with
  | nil => intro s; rfl
  | cons e es ih => intro s; exact (ih _).trans (step_dev_id s e)

/-- the boot-up message was missed: the device is up and nothing on its way says that it booted -/
def Lost (s : Sys) : Prop :=
  (s.i.pc = .resetting ∧ (∃ d, s.i.node.phase = .waiting .resetCom d) ∧ s.i.node.state ≠ 0 ∧ s.dev.state = 127 ∧ s.inbox = [] ∧ ∀ f ∈ s.wire, f.data[0] ≠ 0) ∨
  ∃ r, r ≠ .fine ∧ s.i.pc = .done r

theorem hear_lost (s : Sys) (t : Int) (h : Lost s) : Lost (s.hear t) := by
  rcases s with ⟨i, dev, inbox, wire⟩
  cases wire with
  | nil => exact h
  | cons f w =>
    obtain ⟨e1, e2, e3, e4, e5, e6, e7, e8, e9, e10, e11, e12⟩ := frame_eff i f t
    simp only [Sys.hear, Sys.master, Initing.step]
    rw [e12]
    simp only [List.append_nil]
    generalize i.frame f t = j at *
    unfold Lost at h ⊢
    dsimp only at h ⊢
    rw [e1, e3]
    rcases h with h | h
    · left; grind
    · right; exact h

theorem hears_lost (t : Int) (n : Nat) : ∀ (s : Sys), Lost s → Lost (s.hears t n) := by
  induction n with
  | zero => intro s h; exact h
  | succ n ih => intro s h; exact ih _ (hear_lost s t h)

theorem done_master (s : Sys) (e : IEv) (r : Report) (h : s.i.pc = .done r) (he : ∀ f t, e ≠ .frame f t) : (s.master e).i.pc = .done r := by
  rcases s with ⟨⟨n, pc, log, rc⟩, dev, inbox, wire⟩
  dsimp only at h
  subst h
  cases e with
  | frame f t => exact absurd rfl (he f t)
  | _ => rfl

theorem step_lost (s : Sys) (e : Ev) (h : Lost s) : Lost (s.step e) := by
  rcases h with h | ⟨r, hr, h⟩
  · rcases s with ⟨⟨n, pc, log, rc⟩, dev, inbox, wire⟩
    dsimp only at h
    obtain ⟨rfl, ⟨d, hd⟩, h3, h4, rfl, h6⟩ := h
    have hlost : Lost ⟨⟨n, .resetting, log, rc⟩, dev, [], wire⟩ := Or.inl ⟨rfl, ⟨d, hd⟩, h3, h4, rfl, h6⟩
    cases e with
    | next p now =>
      simp only [Sys.step, Sys.master, Initing.step, Initing.next, nodup_sent, List.append_nil, reduceCtorEq, false_and, if_false]
      exact hlost
    | wake =>
      simp only [Sys.step, Sys.master, wake_reset n log rc d hd, if_neg h3, nodup_sent, List.append_nil]
      exact hlost
    | expire a b c =>
      rcases expire_reset n log rc d hd a b c with he | ⟨hz, he⟩ | ⟨hz, n', m, r, he, hr', hm, hn⟩
      · simp only [Sys.step, Sys.master, he, nodup_sent, List.append_nil]
        exact hlost
      · exact absurd hz h3
      · simp only [Sys.step, Sys.master, he]
        exact Or.inr ⟨r, hr', rfl⟩
    | finish a b =>
      simp only [Sys.step, Sys.master, finish_reset n log rc d hd, nodup_sent, List.append_nil, reduceCtorEq, false_and, and_false, if_false]
      split <;> exact hlost
    | hear t => exact hear_lost _ t hlost
    | drain t => exact hears_lost t _ _ hlost
    | take => exact hlost
    | boot =>
      simp only [Sys.step]
      rw [if_neg (show ¬ dev.state = 0 by rw [h4]; decide)]
      exact hlost
    | beat =>
      simp only [Sys.step]
      split
      · refine Or.inl ⟨rfl, ⟨d, hd⟩, h3, h4, rfl, ?_⟩
        intro f hf
        rcases List.mem_append.1 hf with hf | hf
        · exact h6 f hf
        · cases List.mem_singleton.1 hf; rw [h4]; show (127 : Byte) ≠ 0; decide
      · exact hlost
  · right
    refine ⟨r, hr, ?_⟩
    cases e with
    | next p now =>
      have := done_master s (.next p now) r h (fun _ _ => by simp)
      simp only [Sys.step]; split <;> exact this
    | wake => exact done_master s _ r h (fun _ _ => by simp)
    | expire a b c => exact done_master s _ r h (fun _ _ => by simp)
    | finish a b =>
      have := done_master s (.finish a b) r h (fun _ _ => by simp)
      simp only [Sys.step]
      split
      · split <;> exact this
      · exact this
    | hear t =>
      have : (s.hear t).i.pc = s.i.pc := by
        unfold Sys.hear
        split
        · rfl
        · exact (frame_eff _ _ _).1
      exact this.trans h
    | drain t =>
      have hp : ∀ n (s : Sys), (s.hears t n).i.pc = s.i.pc := by
        intro n
        induction n with
        | zero => intro s; rfl
        | succ n ih =>
          intro s
          rw [Sys.hears, ih]
          unfold Sys.hear
          split
          · rfl
          · exact (frame_eff _ _ _).1
      exact (hp _ s).trans h
    | take => simp only [Sys.step]; split <;> exact h
    | boot => simp only [Sys.step]; split <;> exact h
    | beat => simp only [Sys.step]; split <;> exact h

theorem run_lost (es : List Ev) : ∀ (s : Sys), Lost s → Lost (s.run es) := by
  induction es with
  | nil => intro s h; exact h
  | cons e es ih => intro s h; exact ih _ (step_lost s e h)

end Verif.Spec.BringUp
