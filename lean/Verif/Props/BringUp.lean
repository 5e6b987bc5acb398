import Verif.Lemmas.BringUp

/-!
# C114: a node and its device come up together
-/

namespace Verif.Props
open Verif Verif.Spec.BringUp
open Verif.Nmt hiding Ev

/-- node 5 of the examples, with a heartbeat of 100 ms -/
private def n5 : Node := { Node.fresh 5 true { present := true, dflt := some 0, conf := some 100, buf := 0, valid := false } with listening := false }
/-- its device, still operational from an earlier life and sending heartbeats -/
private def d5 : Device := { id := 5, state := 5, beats := true, beatsAfterReset := false, configured := false }
/-- two heartbeats that are still on their way -/
private def w5 : List Frame := [report 5 5, report 5 5]
private theorem b5 : Begin n5 d5 w5 :=
  ⟨rfl, rfl, by decide, by decide, by intro f hf; simp [w5] at hf; subst hf; decide⟩

/-- everybody does something, in an order that is not the most helpful one -/
private def r5 : List Ev := [.wake, .drain 7, .finish true false, .beat, .boot, .take, .next .works 7]
private theorem round5 : Round r5 := by
  refine ⟨?_, ?_, ?_, ⟨7, ?_⟩, ?_, ⟨true, false, ?_⟩, ⟨.works, 7, ?_⟩⟩ <;> simp [r5]

/-- **C114.** Whatever happens and in whatever order, time-outs and failures included: when the initialisation of a node ends without complaint, its device holds
the configured values and is operational — unless no heartbeat is used; then the start command may still be on its way to the device, which is pre-operational. -/
theorem C114_operational_partial {n : Node} {d : Device} {old : List Frame} (h : Begin n d old) (es : List Ev)
    (hd : ((begins n d old).run es).i.pc = .done .fine) :
    ((begins n d old).run es).dev.configured = true ∧
    (((begins n d old).run es).dev.state = 5 ∨
     (((begins n d old).run es).inbox = [nmtFrame 1 d.id] ∧ ((begins n d old).run es).dev.state = 127 ∧
      (((begins n d old).run es).i.node.hb.present = false ∨ ((begins n d old).run es).i.node.hb.conf = some 0))) := by
  have hs := run_safe es _ (begin_safe h)
  have hid : ((begins n d old).run es).dev.id = d.id := run_dev_id es _
  generalize (begins n d old).run es = s at *
  unfold Safe at hs
  rw [hd] at hs
  obtain ⟨_, _, h1, h2 | h2⟩ := hs
  · exact ⟨h1, Or.inl h2.2⟩
  · exact ⟨h1, Or.inr ⟨by rw [h2.1, hid], h2.2⟩⟩

-- an initialisation that ends, with old heartbeats on the wire; and its end
example : ((begins n5 d5 w5).run (List.replicate 16 r5).flatten).i.pc = .done .fine := by decide +kernel
example : ((begins n5 d5 w5).run (List.replicate 16 r5).flatten).dev = { d5 with configured := true } := by decide +kernel

/-- **C114.** The PDOs are set up and the values are written while the device is pre-operational, after it was reset, and no command is on its way to it. -/
theorem C114_configured_in_preop {n : Node} {d : Device} {old : List Frame} (h : Begin n d old) (es : List Ev)
    (hp : ((begins n d old).run es).i.pc = .pdo ∨ ((begins n d old).run es).i.pc = .values ∨ ((begins n d old).run es).i.pc = .sdoAgain ∨
      ((begins n d old).run es).i.pc = .start) :
    ((begins n d old).run es).dev.state = 127 ∧ ((begins n d old).run es).inbox = [] ∧ ((begins n d old).run es).i.node.state = 127 := by
  have hs := run_safe es _ (begin_safe h)
  generalize (begins n d old).run es = s at *
  unfold Safe at hs
  rcases hp with hp | hp | hp | hp <;> rw [hp] at hs <;> exact ⟨hs.2.2.2.2.1, hs.2.2.2.1, hs.2.2.2.2.2.2.1⟩

example : ((begins n5 d5 w5).run (List.replicate 7 r5).flatten).i.pc = .values := by decide +kernel

/-- **C114.** If the device is up, is quiet after a reset until its heartbeat is configured, and nothing times out or fails, then sixteen rounds, in each of which
everybody does something in whatever order, bring the node to the end of its initialisation without complaint, and the device is operational and configured. -/
theorem C114_comes_up {n : Node} {d : Device} {old : List Frame} (h : Begin n d old) (hp : n.hb.present = true) (hv : ∃ v, n.hb.conf = some v ∧ v ≠ 0)
    (hdf : ∃ v, n.hb.dflt = some v) (hq : d.beatsAfterReset = false) (rs : List (List Ev)) (hr : ∀ r ∈ rs, Round r ∧ ∀ e ∈ r, Well e) (hl : 16 ≤ rs.length) :
    ((begins n d old).run rs.flatten).i.pc = .done .fine ∧ ((begins n d old).run rs.flatten).dev.state = 5 ∧
    ((begins n d old).run rs.flatten).dev.configured = true := by
  have hf : Fixed (begins n d old) := ⟨h.id, rfl, hp, hv, hdf, hq⟩
  have h0 : At 0 (begins n d old) := ⟨rfl, h.idle, rfl, h.up, h.old, h.unheard⟩
  obtain ⟨k, hk, hm⟩ := rounds_at rs _ 0 hr hf h0
  have hle := at_le hk
  have : k = 16 := by omega
  subst this
  have hd := at_fine hk
  refine ⟨hd, ?_, (C114_operational_partial h _ hd).1⟩
  rcases (C114_operational_partial h _ hd).2 with hs | ⟨_, _, hs⟩
  · exact hs
  · exfalso
    have hf' := (run_at rs.flatten _ 0 (by
      intro e he
      obtain ⟨r, hr', he'⟩ := List.mem_flatten.1 he
      exact (hr r hr').2 e he') hf h0).1
    rcases hs with hs | hs
    · rw [hf'.present] at hs; exact absurd hs (by decide)
    · obtain ⟨v, hv1, hv2⟩ := hf'.conf
      rw [hv1] at hs
      exact hv2 (Option.some.inj hs)

example : ∀ r ∈ List.replicate 16 r5, Round r ∧ ∀ e ∈ r, Well e := by
  intro r hr
  rw [List.eq_of_mem_replicate hr]
  refine ⟨round5, ?_⟩
  intro e he
  simp [r5] at he
  rcases he with rfl | rfl | rfl | rfl | rfl | rfl | rfl <;> simp [Well]

/-- **C114.** Nothing that happens without a time-out or a failure leads astray: whatever has happened so far, sixteen more rounds are enough. -/
theorem C114_never_stuck {n : Node} {d : Device} {old : List Frame} (h : Begin n d old) (hp : n.hb.present = true) (hv : ∃ v, n.hb.conf = some v ∧ v ≠ 0)
    (hdf : ∃ v, n.hb.dflt = some v) (hq : d.beatsAfterReset = false) (es : List Ev) (he : ∀ e ∈ es, Well e)
    (rs : List (List Ev)) (hr : ∀ r ∈ rs, Round r ∧ ∀ e ∈ r, Well e) (hl : 16 ≤ rs.length) :
    ((begins n d old).run (es ++ rs.flatten)).i.pc = .done .fine := by
  have hf : Fixed (begins n d old) := ⟨h.id, rfl, hp, hv, hdf, hq⟩
  have h0 : At 0 (begins n d old) := ⟨rfl, h.idle, rfl, h.up, h.old, h.unheard⟩
  obtain ⟨hf1, k, h1, h2, _⟩ := run_at es _ 0 he hf h0
  rw [run_append]
  obtain ⟨k2, hk, hm⟩ := rounds_at rs _ k hr hf1 h2
  have hle := at_le hk
  have : k2 = 16 := by omega
  subst this
  exact at_fine hk

example : ∀ e ∈ [Ev.next .works 3, .beat, .hear 4, .next .works 5, .wake, .next .works 5, .beat, .take, .boot, .drain 9], Well e := by
  intro e he
  simp at he
  rcases he with rfl | rfl | rfl | rfl | rfl | rfl | rfl | rfl | rfl | rfl <;> simp [Well]

/-- a device that sends heartbeats by itself after a reset -/
private def loud : Device := { d5 with beatsAfterReset := true }

/-- the boot-up message and the heartbeat that follows are both handled before the waiting thread looks -/
private def missed : List Ev := [.next .works 0, .next .works 0, .next .works 0, .take, .boot, .beat, .drain 1]

private theorem missed_run : (begins n5 loud []).run missed =
    ⟨((begins n5 loud []).run missed).i, { loud with state := 127 }, [], []⟩ ∧ ((begins n5 loud []).run missed).i.pc = .resetting ∧
    ((begins n5 loud []).run missed).i.node.phase = .waiting .resetCom 10000 ∧ ((begins n5 loud []).run missed).i.node.state = 127 := by
  refine ⟨rfl, rfl, rfl, rfl⟩

/-- **C114 (not so in general).** A device that sends heartbeats after a reset can be reset and up, and the node's initialisation has failed all the same: if the
heartbeat after the boot-up message is handled before the waiting thread looks at the state, the boot-up message is missed, and whatever happens from then on,
the initialisation does not succeed. -/
theorem C114_missed_boot_false : ∃ (n : Node) (d : Device) (es : List Ev), Begin n d [] ∧ (∀ e ∈ es, Well e) ∧
    ((begins n d []).run es).dev.state = 127 ∧ ((begins n d []).run es).inbox = [] ∧ ((begins n d []).run es).wire = [] ∧
    ∀ fs, ((begins n d []).run (es ++ fs)).i.pc = .resetting ∨ ∃ r, r ≠ .fine ∧ ((begins n d []).run (es ++ fs)).i.pc = .done r := by
  refine ⟨n5, loud, missed, ⟨rfl, rfl, by decide, by decide, (fun _ hx => nomatch hx)⟩, ?_, rfl, rfl, rfl, ?_⟩
  · intro e he
    simp [missed] at he
    rcases he with rfl | rfl | rfl | rfl | rfl | rfl | rfl <;> simp [Well]
  · intro fs
    rw [run_append]
    have h : Lost ((begins n5 loud []).run missed) := by
      refine Or.inl ⟨rfl, ⟨10000, rfl⟩, by decide, rfl, rfl, (fun _ hx => nomatch hx)⟩
    have := run_lost fs _ h
    rcases this with ⟨h1, _⟩ | h1
    · exact Or.inl h1
    · exact Or.inr h1

/-- **C114 (not so in general).** If a boot-up message of the device is still on its way when the initialisation begins, the initialisation can end without
complaint although the device holds none of the configured values: they were written before the reset took effect. -/
theorem C114_stale_boot_false : ∃ (n : Node) (d : Device) (es : List Ev), d.id = n.id ∧ n.phase = .idle ∧ d.state = 127 ∧ n.state ≠ 0 ∧ (∀ e ∈ es, Well e) ∧
    ((begins n d [report d.id 0]).run es).i.pc = .done .fine ∧ ((begins n d [report d.id 0]).run es).dev.configured = false ∧
    ((begins n d [report d.id 0]).run es).dev.state = 5 := by
  refine ⟨n5, { loud with state := 127 },
    [.next .works 0, .next .works 0, .next .works 2, .hear 1, .wake, .finish true false, .next .works 3, .next .works 4, .next .works 5, .next .works 6,
     .take, .boot, .take, .beat, .drain 7, .wake], rfl, rfl, rfl, by decide, ?_, rfl, rfl, rfl⟩
  intro e he
  simp at he
  rcases he with rfl | rfl | rfl | rfl | rfl | rfl | rfl | rfl | rfl | rfl | rfl | rfl | rfl | rfl | rfl | rfl <;> simp [Well]

end Verif.Props
