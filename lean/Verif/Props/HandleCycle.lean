import Verif.Lemmas.HandleCycle

/-!
# C92: commands, limits and measured values of a joint
-/

namespace Verif.Props
open Verif.Lay Verif.Rob Verif.Cyc
open Verif.M402 (Dbl)

/-- The measured values of a joint are those of the latest initialisation or read cycle; read cycles of a layer that is off, being initialised or shut down change nothing, nor does
anything else. -/
theorem C92_measured (conv : Kind → Dbl → Dbl) (es : List Cyc.Ev) : ∀ s : St, (run conv s es).1.meas = lastMeasured s.st s.meas es := by
  induction es with
  | nil => intro s; rfl
  | cons e es ih =>
    intro s
    have hrun : (run conv s (e :: es)).1 = (run conv (step conv s e).1 es).1 := rfl
    rw [hrun, ih]
    cases e with
    | read m =>
      simp only [Cyc.step, lastMeasured]
      cases h : s.st <;> simp [LayerState.toNat, h]
    | init m => rfl
    | layer l => rfl
    | _ =>
      simp only [Cyc.step, lastMeasured]
      repeat' split
      all_goals rfl

/-- read cycles before, during and after operation -/
example : (run (fun _ x => x) { working (.fin 1) (.fin 5) with st := .off }
    [.read (fun _ => .fin 2), .layer .init, .init (fun _ => .fin 3), .layer .ready, .read (fun _ => .fin 4), .layer .shutdown, .read (fun _ => .fin 6)]).1.meas .pos = .fin 4 := rfl

/-- While the controller manager runs and limits are enabled, every target given to the motor is the conversion of a
command that satisfies the limits, in every schedule. -/
theorem C92_limits (conv : Kind → Dbl → Dbl) (A : Kind → Dbl → Prop) (s : St) (es : List Cyc.Ev)
    (hpc : s.pc = .top) (hcm : s.cm = true) (hst : LayerState.shutdown.toNat < s.cmSt.toNat)
    (hl : s.hs.h.limits = true) (he : ∀ e ∈ es, LimitsHold A e) (k : Kind) (v : Dbl)
    (hv : Out.sent k v ∈ (run conv s es).2) : ∃ c, A k c ∧ v = conv k c :=
  LimInv.run conv es ⟨hcm, hst, hl, by simp [hpc], by simp [hpc]⟩ he k v hv

/-- a limit of 3 for commands of 5 -/
example : (∀ e ∈ [Cyc.Ev.begin, .set .pos (.fin 5), .enforce (fun _ _ => .fin 3), .look, .act],
      LimitsHold (fun _ c => c = .fin 3) e) ∧
    (run (fun _ x => x) (working (.fin 0) (.fin 0))
      [.begin, .set .pos (.fin 5), .enforce (fun _ _ => .fin 3), .look, .act]).2 =
      [.update false, .limits false true, .sent .pos (.fin 3)] := by
  refine ⟨?_, rfl⟩
  intro e he
  simp only [List.mem_cons, List.not_mem_nil, or_false] at he
  rcases he with h | h | h | h | h <;> subst h <;> simp [LimitsHold]

/-- With limits disabled commands reach the motor as they are. -/
example : (run (fun _ x => x) (working (.fin 0) (.fin 0))
      [.limits false, .begin, .set .pos (.fin 5), .enforce (fun _ _ => .fin 3), .look, .act]).2 =
      [.update false, .limits false false, .sent .pos (.fin 5)] := rfl

/-- What a write cycle sends is exactly the conversion of the command the controllers left, limited if limits are
enabled; nothing that happens between enforcing the limits and writing changes it. -/
theorem C92_target (conv : Kind → Dbl → Dbl) (s : St) (r : Bool) (hpc : s.pc = .upd r) (f : Kind → Dbl → Dbl)
    (es : List Cyc.Ev) (he : ∀ e ∈ es, WithinCycle e) (k : Kind) (v : Dbl)
    (hv : Out.sent k v ∈ (step conv (run conv s (.enforce f :: es)).1 .act).2) :
    v = conv k (if s.hs.h.limits then f k (s.cmd k) else s.cmd k) := by
  have h1 : (step conv s (.enforce f)).1.cmd = (fun k => if s.hs.h.limits then f k (s.cmd k) else s.cmd k) ∧
      ∀ r, (step conv s (.enforce f)).1.pc ≠ .upd r := by
    simp only [Cyc.step, hpc]; split <;> simp_all
  have h2 := within_run conv es h1.2 he
  simp only [run] at hv
  have hc : (run conv (step conv s (.enforce f)).1 es).1.cmd k = if s.hs.h.limits then f k (s.cmd k) else s.cmd k := by
    rw [h2.1, h1.1]
  generalize run conv (step conv s (.enforce f)).1 es = R at hv hc
  simp only [Cyc.step] at hv
  repeat' split at hv
  all_goals simp at hv
  obtain ⟨rfl, rfl⟩ := hv
  rw [hc]

example : (step (fun _ x => x)
    (run (fun _ x => x) { working (.fin 0) (.fin 5) with pc := .upd false }
      [.enforce (fun _ _ => .fin 3), .read (fun _ => .fin 9), .look]).1 .act).2 = [.sent .pos (.fin 3)] := rfl

/-- Every completed write cycle of a ready joint lets the commands of the interfaces that are not in use follow the
measured values, and leaves the command in use alone. -/
theorem C92_tracking (conv : Kind → Dbl → Dbl) (s : St) (fwd : Bool) (hpc : s.pc = .seen fwd) (k : Kind) :
    ((∃ v, Out.sent k v ∈ (step conv s .act).2) → (step conv s .act).1.cmd k = s.cmd k) ∧
    ((¬ ∃ v, Out.sent k v ∈ (step conv s .act).2) → (step conv s .act).1.cmd k = s.meas k) := by
  simp only [Cyc.step, hpc]
  split <;> simp [track]
  exact ⟨fun h1 h2 => absurd h1.symm h2, fun h1 h2 => absurd h2.symm h1⟩

example : (step (fun _ x => x) { working (.fin 1) (.fin 5) with pc := .seen true } .act).1.cmd .pos = .fin 5 ∧
    (step (fun _ x => x) { working (.fin 1) (.fin 5) with pc := .seen true } .act).1.cmd .vel = .fin 1 := by
  constructor <;> rfl

/-- A handle that comes into use starts from the measured value: if a cycle did not use handle `k` and no controller
gives it a command before the next cycle sends one, then the target sent is the conversion of the value measured last
before that cycle ended, limited if limits are enabled. -/
theorem C92_start (conv : Kind → Dbl → Dbl) (s : St) (fwd : Bool) (hpc : s.pc = .seen fwd) (k : Kind)
    (hk : ∀ v, Out.sent k v ∉ (step conv s .act).2) (es₁ es₂ : List Cyc.Ev) (f : Kind → Dbl → Dbl)
    (h₁ : ∀ e ∈ es₁, LeavesCommand k e) (h₂ : ∀ e ∈ es₂, LeavesCommand k e)
    (r : Bool) (hu : (run conv (step conv s .act).1 es₁).1.pc = .upd r) (v : Dbl)
    (hv : Out.sent k v ∈ (step conv (run conv s (.act :: es₁ ++ .enforce f :: es₂)).1 .act).2) :
    v = conv k (if (run conv s (.act :: es₁)).1.hs.h.limits then f k (s.meas k) else s.meas k) := by
  have ht := (C92_tracking conv s fwd hpc k).2 (by rintro ⟨v, hv⟩; exact hk v hv)
  have hc1 : (run conv s (.act :: es₁)).1.cmd k = s.meas k := by
    simp only [run]; rw [leaves_run conv k es₁ h₁, ht]
  have hu' : (run conv s (.act :: es₁)).1.pc = .upd r := by simpa only [run] using hu
  rw [run_append] at hv
  generalize (run conv s (.act :: es₁)).1 = R at hv hc1 hu' ⊢
  have hc2 : (run conv R (.enforce f :: es₂)).1.cmd k = if R.hs.h.limits then f k (s.meas k) else s.meas k := by
    simp only [run]
    rw [leaves_run conv k es₂ h₂]
    simp only [Cyc.step, hu']
    split <;> simp_all
  generalize (run conv R (.enforce f :: es₂)).1 = R2 at hv hc2
  simp only [Cyc.step] at hv
  repeat' split at hv
  all_goals simp at hv
  obtain ⟨rfl, rfl⟩ := hv
  rw [hc2]

/-- a joint is switched from position mode to velocity mode between two cycles: the first target is the velocity measured -/
example : (run (fun _ x => x) { working (.fin 1) (.fin 5) with pc := .seen true }
      ([.act] ++ [.ctl (.begin 3), .ctl (.finish .entered), .begin, .ctl (.forward 3)] ++
        [.enforce (fun _ x => x), .look, .act])).2 =
      [.sent .pos (.fin 5), .update false, .limits false true, .sent .vel (.fin 1)] := rfl

/-- While the handle layer is not ready (off, halted, in error, recovering), no target is given to the motor. -/
theorem C92_silent (conv : Kind → Dbl → Dbl) (s : St) (es : List Cyc.Ev) (hs : s.st ≠ .ready)
    (hpc : ∀ f, s.pc ≠ .seen f) (he : ∀ e ∈ es, NotReady e) (k : Kind) (v : Dbl) :
    Out.sent k v ∉ (run conv s es).2 := QuietInv.run conv es ⟨hs, hpc⟩ he k v

example : ({ working (.fin 1) (.fin 5) with st := .error } : St).st ≠ .ready ∧
    (∀ f, ({ working (.fin 1) (.fin 5) with st := .error } : St).pc ≠ .seen f) ∧
    (run (fun _ x => x) { working (.fin 1) (.fin 5) with st := .error }
      [.begin, .set .pos (.fin 7), .enforce (fun _ x => x), .look, .act]).2 = [.update false, .limits false true] := by
  refine ⟨by decide, by decide, rfl⟩

/-- The next update restarts the controllers (and the limits handles) if and only if a recovery of the controller
manager was performed since the last update; each request is served once. -/
theorem C92_restart (conv : Kind → Dbl → Dbl) (s : St) (es : List Cyc.Ev) (hcm : s.cm = true) (hr : s.recover = false)
    (he : ∀ e ∈ es, NoUpdate e) (r : Bool) (hv : Out.update r ∈ (step conv (run conv s es).1 .begin).2) :
    (r = true ↔ Cyc.Ev.cmRecover ∈ es) ∧ (step conv (run conv s es).1 .begin).1.recover = false ∧
    (∀ f fs, (∀ e ∈ fs, NoUpdate e ∧ ∀ g, e ≠ .enforce g) →
      ∃ b, (step conv (run conv (step conv (run conv s es).1 .begin).1 fs).1 (.enforce f)).2 = [.limits r b]) := by
  have hR := recover_run conv es hcm he
  rw [hr] at hR
  generalize (run conv s es).1 = R at hv hR ⊢
  have hpc : R.pc = .top ∧ LayerState.shutdown.toNat < R.cmSt.toNat ∧ r = R.recover := by
    simp only [Cyc.step] at hv
    repeat' split at hv
    all_goals simp at hv
    exact ⟨by assumption, by assumption, hv⟩
  have hb : (step conv R .begin).1 = { R with pc := .upd r, recover := false } := by
    simp [Cyc.step, hpc.1, hpc.2.1, hR.1, hpc.2.2]
  rw [hb]
  refine ⟨by rw [hpc.2.2, hR.2]; simp, rfl, ?_⟩
  intro f fs hfs
  have key : ∀ (fs : List Cyc.Ev) (s : St), s.pc = .upd r → (∀ e ∈ fs, NoUpdate e ∧ ∀ g, e ≠ .enforce g) →
      (run conv s fs).1.pc = .upd r := by
    intro fs
    induction fs with
    | nil => intro s h _; exact h
    | cons e es ih =>
      intro s h he
      simp only [run]
      refine ih _ ?_ (fun e' h' => he e' (by simp [h']))
      have := he e (by simp)
      cases e <;> simp only [Cyc.step] <;> repeat' split
      all_goals grind [NoUpdate]
  have hk := key fs _ (rfl : ({ R with pc := .upd r, recover := false } : St).pc = .upd r) hfs
  generalize run conv { R with pc := .upd r, recover := false } fs = Q at hk
  simp only [Cyc.step, hk]
  split
  · exact ⟨true, rfl⟩
  · exact ⟨false, rfl⟩

example : (run (fun _ x => x) (working (.fin 1) (.fin 5))
      [.cmRecover, .begin, .enforce (fun _ x => x), .look, .act, .begin, .enforce (fun _ x => x)]).2 =
      [.update true, .limits true true, .sent .pos (.fin 5), .update false, .limits false true] := rfl

/-- The first update after the controller manager was created restarts the controllers and resets the limits. -/
theorem C92_first_update (conv : Kind → Dbl → Dbl) (s : St) (es : List Cyc.Ev) (hcm : s.cm = false)
    (he : ∀ e ∈ es, NoUpdate e) (r : Bool)
    (hv : Out.update r ∈ (step conv (run conv s (.cmInit :: es)).1 .begin).2) : r = true := by
  have h1 : (step conv s .cmInit).1.cm = true ∧ (step conv s .cmInit).1.recover = true := by simp [Cyc.step, hcm]
  have hR := recover_run conv es h1.1 he
  simp only [run] at hv
  generalize (run conv (step conv s .cmInit).1 es).1 = R at hv hR
  have : R.recover = true := hR.2.2 (Or.inl h1.2)
  simp only [Cyc.step] at hv
  repeat' split at hv
  all_goals simp at hv
  rw [hv, this]

example : (step (fun _ x => x)
    (run (fun _ x => x) { working (.fin 1) (.fin 5) with cm := false } [.cmInit, .read (fun _ => .fin 2)]).1 .begin).2 =
    [.update true] := rfl

/-- It is not true that after a halt the controllers are restarted before a joint moves again: the handle layer is
recovered before the controller manager layer, and a cycle in between sends the old command, here 5 for a joint that has
meanwhile moved to 2, without restarting the controllers. -/
theorem C92_recover_race_false :
    let s := run (fun _ x => x) (working (.fin 1) (.fin 5))
      [.begin, .enforce (fun _ x => x), .look, .act,                       -- position 5 is commanded
       .layer .halt, .layer .error, .cmLayer .halt, .cmLayer .error,       -- halt
       .read (fun _ => .fin 2),                                            -- the joint is moved
       .layer .recover, .layer .ready,                                     -- recovery of the handle layer
       .begin, .enforce (fun _ x => x), .look, .act,                       -- a cycle
       .cmLayer .recover, .cmRecover, .cmLayer .ready]                     -- recovery of the controller manager layer
    s.2 = [.update false, .limits false true, .sent .pos (.fin 5), .update false, .limits false true, .sent .pos (.fin 5)] ∧
    s.1.meas .pos = .fin 2 := by
  exact ⟨rfl, rfl⟩

/-- It is not true that a halted joint forgets its command: the command is not set to the measured value while the
layer is halted, so the first cycle after the recovery starts from the old one if no controller replaces it. -/
theorem C92_halt_tracking_false :
    let s := run (fun _ x => x) (working (.fin 1) (.fin 5))
      [.layer .halt, .layer .error, .cmLayer .error, .read (fun _ => .fin 2),
       .begin, .enforce (fun _ x => x), .look, .act,
       .layer .recover, .layer .ready, .cmLayer .recover, .cmRecover, .cmLayer .ready,
       .begin, .enforce (fun _ x => x), .look, .act]
    s.2 = [.update false, .limits false true, .update true, .limits true true, .sent .pos (.fin 5)] ∧
    s.1.meas .pos = .fin 2 := by
  exact ⟨rfl, rfl⟩

/-- It is not true that a command is forwarded only after `doSwitch` enabled it: the two loads of `handleWrite` straddle
a whole mode switch. Here the velocity command is sent although forwarding is switched off. -/
theorem C92_early_false :
    let s := run (fun _ x => x) (working (.fin 1) (.fin 1))
      [.begin, .enforce (fun _ x => x), .look, .ctl (.begin 3), .ctl (.finish .entered)]
    s.1.hs.h.forward = false ∧ (step (fun _ x => x) s.1 .act).2 = [.sent .vel (.fin 1)] := by
  exact ⟨rfl, rfl⟩

/-- It is not true that shutting down waits for the running update: the controller manager can be destroyed while the
loop thread is in its `update`. -/
theorem C92_shutdown_race_false :
    (run (fun _ x => x) (working (.fin 1) (.fin 1)) [.begin, .cmLayer .shutdown, .cmShutdown]).2 =
      [.update false, .ub] := rfl

/-- The controller manager is not destroyed while it runs if the shutdown falls between two write cycles. -/
theorem C92_shutdown_partial (conv : Kind → Dbl → Dbl) (s : St) (h : ∀ r, s.pc ≠ .upd r) :
    Out.ub ∉ (step conv s .cmShutdown).2 ∧ (step conv s .cmShutdown).1.cm = false := by
  simp [Cyc.step]

example : ∀ r, (working (.fin 1) (.fin 1)).pc ≠ .upd r := by decide

/-! ## Variables -/

/-- After a synchronisation the variable of an object has the value read, or its old value if it could not be read; the
result is positive exactly if all objects were read. -/
theorem C92_sync {κ : Type} [DecidableEq κ] (get : κ → Option Dbl) (vs : Vars κ) :
    (∀ k, (sync get vs).1.lookup k = (vs.lookup k).map (fun old => (get k).getD old)) ∧
    ((sync get vs).2 = true ↔ ∀ k ∈ vs.map Prod.fst, (get k).isSome) := by
  induction vs with
  | nil => simp [sync]
  | cons a vs ih =>
    obtain ⟨k0, v0⟩ := a
    unfold sync
    cases hg : get k0 with
    | some x =>
      refine ⟨?_, by simp [ih.2, hg]⟩
      intro k
      by_cases hk : k = k0
      · subst hk; simp [hg]
      · have : (k == k0) = false := by simpa using hk
        simp [List.lookup_cons, this, ih.1 k]
    | none =>
      refine ⟨?_, by simp [hg]⟩
      intro k
      by_cases hk : k = k0
      · subst hk; simp [hg]
      · have : (k == k0) = false := by simpa using hk
        simp [List.lookup_cons, this, ih.1 k]

example : sync (fun k : Nat => if k = 0x6064 then some (.fin 7) else none) [(0x6064, .fin 1), (0x606C, .fin 2)] =
    ([(0x6064, .fin 7), (0x606C, .fin 2)], false) := rfl

/-- A name in a conversion refers to an object exactly if it is "obj" followed by the key of an object that holds a
number (or one that is already mirrored); two names of the same object share one variable; the other variables keep
their values. -/
theorem C92_variable {κ : Type} [DecidableEq κ] (parse : List Char → Option κ) (kind : κ → Option Bool) (junk : Dbl)
    (vs : Vars κ) (n : List Char) :
    (∀ k, (getVariable parse kind junk vs n).2 = some k ↔
      ∃ t, n = ['o', 'b', 'j'] ++ t ∧ parse t = some k ∧ ((vs.lookup k).isSome ∨ kind k = some true)) ∧
    (∀ k, (getVariable parse kind junk vs n).2 = some k →
      ((getVariable parse kind junk vs n).1.lookup k).isSome) ∧
    (∀ k, (vs.lookup k).isSome → (getVariable parse kind junk vs n).1.lookup k = vs.lookup k) ∧
    ((getVariable parse kind junk vs n).2 = none → (getVariable parse kind junk vs n).1 = vs ∧
      valueOf vs (getVariable parse kind junk vs n).2 = .nan) := by
  unfold getVariable
  by_cases hp : ['o', 'b', 'j'] <+: n
  · obtain ⟨t, rfl⟩ := hp
    have hd : (['o', 'b', 'j'] ++ t).drop 3 = t := rfl
    rw [if_pos ⟨t, rfl⟩, hd]
    cases hq : parse t with
    | none =>
      refine ⟨?_, by simp, by simp, by simp [valueOf]⟩
      intro k
      constructor
      · intro h; simp at h
      · rintro ⟨t', ht, hp', _⟩
        have : t = t' := List.append_cancel_left ht
        subst this; simp [hq] at hp'
    | some key =>
      dsimp only
      have huniq : ∀ t', (['o', 'b', 'j'] ++ t : List Char) = ['o', 'b', 'j'] ++ t' → t' = t :=
        fun t' h => (List.append_cancel_left h).symm
      split
      · rename_i hs
        refine ⟨?_, ?_, by simp, by simp⟩
        · intro k
          constructor
          · intro h; simp at h; subst h; exact ⟨t, rfl, hq, Or.inl hs⟩
          · rintro ⟨t', ht, hp', _⟩
            rw [huniq t' ht, hq] at hp'; exact hp'
        · intro k h; simp at h; subst h; exact hs
      · rename_i hs
        split
        · rename_i hkk
          refine ⟨?_, ?_, ?_, by simp⟩
          · intro k
            constructor
            · intro h; simp at h; subst h; exact ⟨t, rfl, hq, Or.inr hkk⟩
            · rintro ⟨t', ht, hp', _⟩
              rw [huniq t' ht, hq] at hp'; exact hp'
          · intro k h; simp at h; subst h; simp
          · intro k hk
            have hne : (k == key) = false := by
              by_cases h : k = key
              · subst h; exact absurd hk hs
              · simpa using h
            simp [List.lookup_cons, hne]
        · rename_i hkk
          refine ⟨?_, by simp, by simp, by simp [valueOf]⟩
          intro k
          constructor
          · intro h; simp at h
          · rintro ⟨t', ht, hp', h⟩
            rw [huniq t' ht, hq] at hp'
            simp at hp'; subst hp'
            rcases h with h | h
            · exact absurd h hs
            · exact absurd h hkk
  · rw [if_neg hp]
    refine ⟨?_, by simp, by simp, by simp [valueOf]⟩
    intro k
    constructor
    · intro h; simp at h
    · rintro ⟨t, ht, _⟩; exact absurd ⟨t, ht.symm⟩ hp

example : (getVariable (fun t => if t = "6064".toList then some 0x6064 else none) (fun _ => some true) .nan []
    "obj6064".toList).2 = some 0x6064 := by decide

/-- It is not true that the measured values come from the drive: if the object could not be read yet, the variable has
the arbitrary content of fresh memory, and neither initialisation nor read cycles report anything. -/
theorem C92_unread_false (junk : Dbl) :
    let vs := (getVariable (fun t => if t = "6064".toList then some 0x6064 else none) (fun _ => some true) junk []
      "obj6064".toList).1
    valueOf (sync (fun _ : Nat => none) vs).1 (some 0x6064) = junk ∧ (sync (fun _ : Nat => none) vs).2 = false ∧
    ∀ (conv : Kind → Dbl → Dbl) (s : St), (step conv s (.init (fun _ => junk))).2 = [] ∧
      (step conv s (.init (fun _ => junk))).1.meas .pos = junk ∧ (step conv s (.read (fun _ => junk))).2 = [] := by
  refine ⟨rfl, rfl, fun conv s => ⟨rfl, rfl, ?_⟩⟩
  simp only [Cyc.step]; split <;> rfl

end Verif.Props
