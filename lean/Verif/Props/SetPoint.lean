import Verif.Lemmas.SetPoint
import Verif.Props.Motor

/-!
# C115: a commanded target position is adopted by the drive
-/

namespace Verif.Props
open Verif Verif.Spec.M402 Verif.Spec.SetPoint
open Verif.M402 hiding Ev run_append

/-- C115: if the drive looks at every frame, then whatever commands are given and however long frames take, the targets it adopts are those that were sent,
in their order, none twice in a row, and each is the stored value of a command; and it has adopted all of them once nothing is on its way. -/
theorem C115_adopted_partial (p : ProfPos) (hlo : p.t.lo = -2147483648) (hhi : p.t.hi = 2147483647) (cw : BitVec 16) (obj : Int) (ack : Bool) (es : List Ev)
    (hs : ∀ e ∈ es, Seen e) :
    let s := (begins p cw obj ack).run es
    s.drive.adopted <+: sentTargets s.tr ∧ (s.out = [] → s.drive.adopted = sentTargets s.tr) ∧ NoRepeat s.drive.adopted ∧
    ∀ t ∈ s.drive.adopted, ∃ v, PObs.given v true ∈ s.tr ∧ Stored (-2147483648) 2147483647 v t := by
  intro s
  have hi : Inv s := run_inv es _ hs (begins_inv p cw obj ack)
  have ho : Obs s := run_obs es _ (begins_obs p cw obj ack hlo hhi)
  have hp : s.drive.adopted <+: sentTargets s.tr := ⟨_, hi.adopted⟩
  refine ⟨hp, ?_, noRepeat_prefix ho.chain hp, fun t ht => ho.given t (hp.subset ht)⟩
  intro h
  have := hi.adopted
  rw [h] at this
  simpa [edges] using this

private def fresh : ProfPos := { t := { has := false, target := 7, lo := -2147483648, hi := 2147483647 }, last := some 3, sw := 0x1000 }

/-- two commands, the second one while the first is not yet acknowledged -/
private def busy : List Ev := [.target (.fin 1), .write, .take, .target (.fin 2), .write, .report 0, .write, .take, .readAll, .write, .takeAll]

example : (∀ e ∈ busy, Seen e) ∧ ((begins fresh 0x1F 9 true).run (.write :: .take :: busy)).drive.adopted ≠ [] ∧
    ((begins fresh 0x0F 9 true).run busy).drive.adopted = [1, 2] := by
  refine ⟨by simp [busy, Seen], by decide +kernel, by decide +kernel⟩

/-- C115: once no new command is given, the target in force is the last one the drive adopts, after at most six rounds in which the mode writes, the drive
looks at what has arrived and sends its status, and the mode reads what has arrived; and it is adopted only once. -/
theorem C115_arrives_partial (p : ProfPos) (hlo : p.t.lo = -2147483648) (hhi : p.t.hi = 2147483647) (cw : BitVec 16) (obj : Int) (ack : Bool) (es : List Ev)
    (hs : ∀ e ∈ es, Seen e) (v : Dbl) (T : Int) (hv : inForce ((begins p cw obj ack).run es).tr = some v) (hT : Stored (-2147483648) 2147483647 v T)
    (rs : List (List Ev)) (hr : ∀ r ∈ rs, Round r ∧ ∀ e ∈ r, Seen e ∧ Calm e) (hn : 6 ≤ rs.length) :
    let s := (begins p cw obj ack).run (es ++ rs.flatten)
    s.drive.adopted.getLast? = some T ∧ ∀ fs, (∀ e ∈ fs, Seen e ∧ Calm e) → (s.run fs).drive.adopted = s.drive.adopted := by
  intro s
  have hi : Inv ((begins p cw obj ack).run es) := run_inv es _ hs (begins_inv p cw obj ack)
  have ho : Obs ((begins p cw obj ack).run es) := run_obs es _ (begins_obs p cw obj ack hlo hhi)
  obtain ⟨k, hk⟩ := at_of ho hv (C54_determined _ _ v _ _ (ho.p.val v hv) hT)
  obtain ⟨k', h1, h2⟩ := rounds_at T rs _ k hr hi hk
  rw [← run_append] at h1
  have h6 : 6 ≤ k' := by omega
  have hi' : Inv s := run_inv _ _ (by
    intro e he
    rcases List.mem_append.1 he with he | he
    · exact hs e he
    · obtain ⟨r, hrr, her⟩ := List.mem_flatten.1 he
      exact ((hr r hrr).2 e her).1) (begins_inv p cw obj ack)
  obtain ⟨g1, g2⟩ := at_6 h1 h6
  refine ⟨?_, fun fs hf => run_lost fs s (fun e he => (hf e he).2) (lost_of_6 hi' h1 h6)⟩
  show s.drive.adopted.getLast? = some T
  rw [show s.drive.adopted = sentTargets s.tr from g1]
  exact g2

private def calmly : List Ev := [.readAll, .report 0x0437, .takeAll, .write]

example : Round calmly ∧ (∀ e ∈ calmly, Seen e ∧ Calm e) ∧
    inForce ((begins fresh 0x1F 9 true).run busy).tr = some (.fin 2) ∧ Stored (-2147483648) 2147483647 (.fin 2) 2 ∧
    ((begins fresh 0x1F 9 true).run (busy ++ (List.replicate 6 calmly).flatten)).drive.adopted.getLast? = some 2 := by
  refine ⟨⟨by simp [calmly], by simp [calmly], ⟨0x0437, by simp [calmly]⟩, by simp [calmly]⟩, by simp [calmly, Seen, Calm], by rfl,
    ⟨2, by unfold IsIntegerPart; decide +kernel, by decide⟩, by decide +kernel⟩

/-- the second command is sent although the first is not acknowledged yet, and the frame with the lowered bit in between is overwritten -/
private def missed : List Ev := [.target (.fin 1), .write, .take, .target (.fin 2), .write, .write, .skip, .take]

/-- C115 is false for a drive that does not look at every frame: between two commands the bit may be low for one cycle only, as the second one does not wait for
the acknowledge of the first.  Then the second target is taken for sent and is never sent again, whatever happens, until another one is commanded. -/
theorem C115_missed_false :
    ¬ ∀ (p : ProfPos) (cw : BitVec 16) (obj : Int) (es : List Ev) (v : Dbl) (T : Int), p.t.lo = -2147483648 → p.t.hi = 2147483647 → newSetPoint cw = false →
      inForce ((begins p cw obj false).run es).tr = some v → Stored (-2147483648) 2147483647 v T →
      ∃ fs, (∀ e ∈ fs, Calm e) ∧ T ∈ ((begins p cw obj false).run (es ++ fs)).drive.adopted := by
  intro h
  obtain ⟨fs, hc, hm⟩ := h fresh 0x0F 9 missed (.fin 2) 2 rfl rfl (by decide) (by rfl) ⟨2, by unfold IsIntegerPart; decide +kernel, by decide⟩
  rw [run_append, run_lost fs _ hc ⟨by decide +kernel, by decide +kernel, by decide +kernel, by decide +kernel⟩] at hm
  revert hm
  decide +kernel

example : ((begins fresh 0x0F 9 false).run missed).drive.adopted = [1] ∧ sentTargets ((begins fresh 0x0F 9 false).run missed).tr = [1, 2] := by
  refine ⟨by decide +kernel, by decide +kernel⟩

end Verif.Props
