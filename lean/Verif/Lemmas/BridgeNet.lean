import Verif.Lemmas.BridgeNode
import Verif.Spec.BridgeNet

/-!
# Lemmas for C121
-/

namespace Verif.Spec.Brn
open Verif Verif.Drv Verif.Thr Verif.Brn Verif.Bridge

theorem arrived_other (s : TD) (e : Ev) (h : ∀ k, e ≠ .arrive k) : (s.step e).arrived = s.arrived := by
  have htrig : ∀ x : TD, x.trigger.arrived = x.arrived := by intro x; unfold TD.trigger; split <;> rfl
  cases e with
  | read w =>
    simp only [TD.step]
    split
    · split
      · unfold TD.readDone
        split
        · rw [htrig]
        · rfl
      · rfl
    · rfl
  | spawn =>
    simp only [TD.step]
    split
    · rw [htrig]
    · rfl
  | init dev lb em fm sys =>
    simp only [TD.step, TD.init]
    repeat' split
    all_goals rfl
  | join sys =>
    simp only [TD.step, TD.joined]
    repeat' split
    all_goals rfl
  | arrive k => exact absurd rfl (h k)
  | _ =>
    simp only [TD.step]
    repeat' split
    all_goals rfl

theorem node_arrived (n : Node) (e : NEv) (h : isArrival e = false) : (n.step e).t.arrived = n.t.arrived := by
  cases e with
  | main sys =>
    simp only [Node.step]
    split
    · split
      · rfl
      · split
        · exact arrived_other _ _ (fun k => by simp)
        · rfl
    · rfl
  | started =>
    simp only [Node.step]
    split
    · split
      · unfold Node.setup
        dsimp only
        repeat' split
        all_goals rfl
      · rfl
    · rfl
  | msg m ec =>
    simp only [Node.step]
    split
    · rcases (message_fields n m ec).2.2.2.2 with h | ⟨f, h⟩
      · rw [h]
      · rw [h]; exact arrived_other _ _ (fun k => by simp)
    · rfl
  | quit =>
    simp only [Node.step]
    split
    · exact arrived_other _ _ (fun k => by simp)
    · rfl
  | finish =>
    simp only [Node.step]
    repeat' split
    all_goals rfl
  | drv x =>
    simp only [Node.step]
    split
    · refine arrived_other _ _ (fun k hk => ?_)
      subst hk
      cases h
    · rfl

theorem node_arrive (n : Node) (k : KFrame) :
    (n.step (.drv (.arrive k))).t.arrived = n.t.arrived ∨ (n.step (.drv (.arrive k))).t.arrived = n.t.arrived ++ [k] := by
  simp only [Node.step]
  split
  · show (n.t.step (.arrive k)).arrived = _ ∨ _
    simp only [TD.step, after_fields]
    split
    · exact Or.inr rfl
    · exact Or.inl rfl
  · exact Or.inl rfl

/-- a driver writes at most one frame in a step, and what it wrote stays -/
theorem td_wire_prefix (s : TD) (f : Frame) (ec : Int) : s.d.wire <+: (s.step (.send f ec)).d.wire := by
  simp only [TD.step]
  cases h : s.d.send f ec with
  | ok p =>
    dsimp only
    unfold Driver.send at h
    split at h
    · split at h
      · split at h <;> cases h
        · rw [show ((s.d.setErrorCode ec).setNotReady).wire = s.d.wire from by
            unfold Driver.setNotReady Driver.setDriverState Driver.setErrorCode; repeat' split
            all_goals rfl]
          exact List.prefix_refl _
        · exact List.prefix_append _ _
      · cases h
      · cases h
    · cases h; exact List.prefix_refl _
  | throws e => exact List.prefix_refl _
  | ub => exact List.prefix_refl _

theorem node_wire_prefix (n : Node) (e : NEv) (hn : n.phase = .new → n.t.d.state.driver = .closed) : n.t.d.wire <+: (n.step e).t.d.wire := by
  by_cases hm : ∃ m ec, e = .msg m ec ∧ n.phase = .running ∧ n.cfg.toCan = true
  · obtain ⟨m, ec, rfl, h1, h2⟩ := hm
    simp only [Node.step]
    rw [if_pos ⟨h1, h2⟩]
    rcases (message_fields n m ec).2.2.2.2 with h | ⟨f, h⟩
    · rw [h]; exact List.prefix_refl _
    · rw [h]; exact td_wire_prefix _ _ _
  · rw [wire_node n e hm hn]; exact List.prefix_refl _

/-- what is known of a net -/
structure NetInv (cfg : Nat → Config) (junk : Vector Byte 8) (kjunk : KFrame) (s : Net) : Prop where
  node : ∀ i, s.node i = (Node.new (cfg i) junk kjunk).run (s.hist i)
  queue : ∀ j, (s.given j).map (·.2) = (s.node j).t.arrived ++ s.inbox j
  sent : ∀ i j, (s.from i j).Sublist (s.node i).t.d.wire

theorem netInv_new (cfg : Nat → Config) (junk : Vector Byte 8) (kjunk : KFrame) : NetInv cfg junk kjunk (Net.new cfg junk kjunk) :=
  ⟨fun _ => rfl, fun _ => rfl, fun _ _ => List.nil_sublist _⟩

theorem new_closed {cfg : Nat → Config} {junk : Vector Byte 8} {kjunk : KFrame} {s : Net} (h : NetInv cfg junk kjunk s) (i : Nat) :
    (s.node i).phase = .new → (s.node i).t.d.state.driver = .closed := by
  intro hp
  have hi := inv_run (cfg i) junk kjunk (s.hist i) _ (inv_new (cfg i) junk kjunk)
  rw [← h.node i] at hi
  rw [hi.new hp]
  rfl

theorem spread_from (s : Net) (src : Option Nat) (ks : List KFrame) (i j : Nat) :
    (s.spread src ks).from i j = if s.isOpen j ∧ src ≠ some j ∧ src = some i then s.from i j ++ ks else s.from i j := by
  simp only [Net.from, Net.spread]
  by_cases h : s.isOpen j = true ∧ src ≠ some j
  · rw [if_pos h]
    by_cases h2 : src = some i
    · rw [if_pos ⟨h.1, h.2, h2⟩, List.filter_append, List.map_append]
      congr 1
      rw [List.filter_eq_self.2, List.map_map, show ((fun x : Option Nat × KFrame => x.2) ∘ fun k => (src, k)) = id from rfl, List.map_id]
      intro a ha
      simp only [List.mem_map] at ha
      obtain ⟨k, -, rfl⟩ := ha
      simpa using h2
    · have hn : (ks.map fun k => (src, k)).filter (fun g => decide (g.1 = some i)) = [] := by
        rw [List.filter_eq_nil_iff]
        intro a ha
        simp only [List.mem_map] at ha
        obtain ⟨k, -, rfl⟩ := ha
        simpa using h2
      rw [if_neg (fun x => h2 x.2.2), List.filter_append, List.map_append, hn, List.map_nil, List.append_nil]
  · rw [if_neg h, if_neg (fun x => h ⟨x.1, x.2.1⟩)]

theorem netInv_step (cfg : Nat → Config) (junk : Vector Byte 8) (kjunk : KFrame) (s : Net) (e : NetEv) (h : NetInv cfg junk kjunk s) :
    NetInv cfg junk kjunk (s.step e) := by
  cases e with
  | own i e =>
    simp only [Net.step]
    split
    · exact h
    · rename_i ha
      have ha : isArrival e = false := by simpa using ha
      have hpre := node_wire_prefix (s.node i) e (new_closed h i)
      have harr := node_arrived (s.node i) e ha
      refine ⟨?_, ?_, ?_⟩
      · intro j
        simp only [Net.spread, Net.act]
        by_cases hj : j = i
        · subst hj
          simp only [if_true, node_run_append, ← h.node j]
          rfl
        · simp only [hj, if_false]
          exact h.node j
      · intro j
        have hq := h.queue j
        simp only [Net.spread, Net.act, Net.isOpen]
        by_cases hj : j = i
        · subst hj
          simp only [if_true, ne_eq, not_true_eq_false, and_false, if_false]
          rw [harr]
          exact hq
        · have : (some i : Option Nat) ≠ some j := fun e => hj (Option.some.inj e).symm
          simp only [hj, if_false, this, ne_eq, not_false_eq_true, and_true]
          split
          · rw [List.map_append, hq, List.append_assoc, List.map_map, show ((fun x : Option Nat × KFrame => x.2) ∘ fun k => (some i, k)) = id from rfl, List.map_id]
          · exact hq
      · intro i' j
        have hs := h.sent i' j
        obtain ⟨new, hnew⟩ := hpre
        have hdrop : ((s.node i).step e).t.d.wire.drop (s.node i).t.d.wire.length = new := by rw [← hnew]; simp
        rw [hdrop, spread_from]
        have hf : (s.act i e).from i' j = s.from i' j := rfl
        rw [hf]
        by_cases hi : i' = i
        · subst hi
          have hn : (((s.act i' e).spread (some i') new).node i').t.d.wire = (s.node i').t.d.wire ++ new := by
            rw [hnew]; simp [Net.spread, Net.act]
          rw [hn]
          split
          · exact List.Sublist.append hs (List.Sublist.refl _)
          · exact hs.trans (List.sublist_append_left _ _)
        · have hn : (((s.act i e).spread (some i) new).node i') = s.node i' := by simp [Net.spread, Net.act, hi]
          rw [hn, if_neg]
          · exact hs
          · rintro ⟨-, -, h⟩
            exact hi (Option.some.inj h).symm
  | foreign k =>
    refine ⟨h.node, ?_, ?_⟩
    · intro j
      have hq := h.queue j
      simp only [Net.step, Net.spread]
      split
      · rw [List.map_append, hq]; simp
      · exact hq
    · intro i j
      have hs := h.sent i j
      simp only [Net.from] at hs ⊢
      simp only [Net.step, Net.spread]
      split
      · simpa using hs
      · exact hs
  | notice j k =>
    refine ⟨h.node, ?_, ?_⟩
    · intro j'
      have hq := h.queue j'
      simp only [Net.step]
      split
      · rw [List.map_append, hq]; simp
      · exact hq
    · intro i j'
      have hs := h.sent i j'
      simp only [Net.from] at hs ⊢
      simp only [Net.step]
      split
      · simpa using hs
      · exact hs
  | receive j =>
    simp only [Net.step]
    cases hb : s.inbox j with
    | nil => exact h
    | cons k ks =>
      dsimp only
      split
      · exact h
      · rename_i hne
        have harr := (node_arrive (s.node j) k).resolve_left hne
        refine ⟨?_, ?_, ?_⟩
        · intro i
          simp only [Net.act]
          by_cases hj : i = j
          · subst hj
            simp only [if_true, node_run_append, ← h.node i]
            rfl
          · simp only [hj, if_false]
            exact h.node i
        · intro i
          have hq := h.queue i
          simp only [Net.act]
          by_cases hj : i = j
          · subst hj
            simp only [if_true, harr]
            rw [hq, hb]
            simp
          · simp only [hj, if_false]
            exact hq
        · intro i' i
          have hs := h.sent i' i
          simp only [Net.act, Net.from] at hs ⊢
          by_cases hj : i' = j
          · subst hj
            simp only [if_true]
            exact hs.trans (node_wire_prefix _ _ (new_closed h i')).sublist
          · simp only [hj, if_false]
            exact hs

theorem netInv_run (cfg : Nat → Config) (junk : Vector Byte 8) (kjunk : KFrame) (es : List NetEv) :
    ∀ s : Net, NetInv cfg junk kjunk s → NetInv cfg junk kjunk (s.run es) := by
  induction es with
  | nil => intro s h; exact h
  | cons e es ih => intro s h; exact ih _ (netInv_step cfg junk kjunk s e h)

theorem net_run_append (s : Net) (es fs : List NetEv) : s.run (es ++ fs) = (s.run es).run fs := by
  induction es generalizing s with
  | nil => rfl
  | cons e es ih => exact ih _

theorem spread_given (s : Net) (src : Option Nat) (ks : List KFrame) (j : Nat) : s.given j <+: (s.spread src ks).given j := by
  simp only [Net.spread]
  split
  · exact List.prefix_append _ _
  · exact List.prefix_refl _

theorem grows_step (s : Net) (e : NetEv) (j : Nat) : s.given j <+: (s.step e).given j ∧ s.hist j <+: (s.step e).hist j := by
  have hact : ∀ i e, s.hist j <+: (s.act i e).hist j := by
    intro i e
    simp only [Net.act]
    split
    · rename_i h; subst h; exact List.prefix_append _ _
    · exact List.prefix_refl _
  cases e with
  | own i e =>
    simp only [Net.step]
    split
    · exact ⟨List.prefix_refl _, List.prefix_refl _⟩
    · exact ⟨spread_given (s.act i e) _ _ _, hact i e⟩
  | foreign k => exact ⟨spread_given s _ _ _, List.prefix_refl _⟩
  | notice i k =>
    refine ⟨?_, List.prefix_refl _⟩
    simp only [Net.step]
    split
    · exact List.prefix_append _ _
    · exact List.prefix_refl _
  | receive i =>
    simp only [Net.step]
    split
    · exact ⟨List.prefix_refl _, List.prefix_refl _⟩
    · split
      · exact ⟨List.prefix_refl _, List.prefix_refl _⟩
      · exact ⟨List.prefix_refl _, hact i _⟩

theorem grows_run (es : List NetEv) (j : Nat) : ∀ s : Net, s.given j <+: (s.run es).given j ∧ s.hist j <+: (s.run es).hist j := by
  induction es with
  | nil => intro s; exact ⟨List.prefix_refl _, List.prefix_refl _⟩
  | cons e es ih => intro s; exact ⟨(grows_step s e j).1.trans (ih _).1, (grows_step s e j).2.trans (ih _).2⟩

/-- the program has been set up -/
def IsUp (p : Phase) : Prop := p = .running ∨ p = .closing ∨ p = .done

/-- a program runs after `started` only -/
theorem to_up (n : Node) (e : NEv) (h : IsUp (n.step e).phase) : IsUp n.phase ∨ n.phase = .starting ∧ e = .started ∧ (n.step e).phase = .running := by
  have no : ∀ {p : Phase}, (p = .undefined ∨ p = .starting ∨ p = .crashed ∨ p = .failing ∨ p = .failed) → ¬ IsUp p := by
    rintro p (rfl | rfl | rfl | rfl | rfl) h <;> rcases h with h | h | h <;> cases h
  cases e with
  | main sys =>
    simp only [Node.step] at h
    split at h
    · split at h
      · exact absurd h (no (.inl rfl))
      · split at h
        · exact absurd h (no (.inr (.inl rfl)))
        · exact absurd h (no (.inr (.inr (.inl rfl))))
    · exact .inl h
  | started =>
    simp only [Node.step] at h ⊢
    split at h
    · rename_i hc
      split at h
      · rename_i hres
        rw [if_pos hc, if_pos hres]
        refine .inr ⟨hc.1, trivial, ?_⟩
        unfold Node.setup at h ⊢
        dsimp only at h ⊢
        split at h
        · rename_i htt
          rw [if_pos htt]
          split at h
          · rfl
          · exact absurd h (no (.inr (.inr (.inl rfl))))
        · rename_i htt
          rw [if_neg htt]
      · exact absurd h (no (.inr (.inr (.inr (.inl rfl)))))
    · exact .inl h
  | msg m ec =>
    simp only [Node.step] at h
    split at h
    · rename_i hc; exact .inl (.inl hc.1)
    · exact .inl h
  | quit =>
    simp only [Node.step] at h
    split at h
    · rename_i hc; exact .inl (.inl hc)
    · exact .inl h
  | finish =>
    simp only [Node.step] at h
    split at h
    · split at h
      · rename_i hc; exact .inl (.inr (.inl hc))
      · split at h
        · exact absurd h (no (.inr (.inr (.inr (.inr rfl)))))
        · exact .inl h
    · exact .inl h
  | drv x =>
    simp only [Node.step] at h
    split at h
    · exact .inl h
    · exact .inl h

theorem split_up (cfg : Config) (junk : Vector Byte 8) (kjunk : KFrame) (es : List NEv) (h : IsUp ((Node.new cfg junk kjunk).run es).phase) :
    ∃ a b, es = a ++ .started :: b ∧ ((Node.new cfg junk kjunk).run a).phase = .starting ∧ ((Node.new cfg junk kjunk).run (a ++ [.started])).phase = .running := by
  obtain ⟨r, rfl⟩ : ∃ r : List NEv, es = r.reverse := ⟨es.reverse, by simp⟩
  induction r with
  | nil => rcases h with h | h | h <;> cases h
  | cons e r ih =>
    rw [List.reverse_cons, node_run_append] at h
    rw [List.reverse_cons]
    generalize r.reverse = es at *
    rcases to_up _ e h with h' | ⟨h', rfl, h''⟩
    · obtain ⟨a, b, rfl, h1, h2⟩ := ih h'
      exact ⟨a, b ++ [e], by simp, h1, h2⟩
    · exact ⟨es, [], rfl, h', by rw [node_run_append]; exact h''⟩

theorem split_running (cfg : Config) (junk : Vector Byte 8) (kjunk : KFrame) (es : List NEv) (h : ((Node.new cfg junk kjunk).run es).phase = .running) :
    ∃ a b, es = a ++ .started :: b ∧ ((Node.new cfg junk kjunk).run a).phase = .starting ∧ ((Node.new cfg junk kjunk).run (a ++ [.started])).phase = .running :=
  split_up cfg junk kjunk es (.inl h)

/-- ending publishes nothing -/
theorem to_done (n : Node) (e : NEv) (h : (n.step e).phase = .done) (hl : n.phase = .done → n.listener = none) : (n.step e).published = n.published := by
  have hafter : ∀ t, n.phase = .done → (n.after t).published = n.published := by
    intro t hd
    simp [Node.after, hl hd]
  cases e with
  | main sys =>
    simp only [Node.step] at h ⊢
    split
    · rename_i hc
      rw [if_pos hc] at h
      split at h
      · cases h
      · split at h <;> cases h
    · rfl
  | started =>
    simp only [Node.step] at h ⊢
    split
    · rename_i hc
      rw [if_pos hc] at h
      split
      · unfold Node.setup
        dsimp only
        repeat' split
        all_goals rfl
      · rfl
    · rfl
  | msg m ec =>
    simp only [Node.step] at h ⊢
    split
    · rename_i hc
      rw [if_pos hc] at h
      rw [(message_fields n m ec).2.1, hc.1] at h
      cases h
    · rfl
  | quit =>
    simp only [Node.step] at h ⊢
    split
    · rename_i hc
      rw [if_pos hc] at h
      cases h
    · rfl
  | finish =>
    simp only [Node.step]
    repeat' split
    all_goals rfl
  | drv x =>
    simp only [Node.step] at h ⊢
    split
    · rename_i hc
      rw [if_pos hc] at h
      exact hafter _ h
    · rfl

/-- a moment before the end with the same messages -/
theorem before_done (cfg : Config) (junk : Vector Byte 8) (kjunk : KFrame) (es : List NEv) :
    ∃ a, a <+: es ∧ ((Node.new cfg junk kjunk).run a).published = ((Node.new cfg junk kjunk).run es).published ∧ ((Node.new cfg junk kjunk).run a).phase ≠ .done := by
  obtain ⟨r, rfl⟩ : ∃ r : List NEv, es = r.reverse := ⟨es.reverse, by simp⟩
  induction r with
  | nil => exact ⟨[], List.prefix_refl _, rfl, fun h => nomatch h⟩
  | cons e r ih =>
    rw [List.reverse_cons]
    generalize r.reverse = es at *
    by_cases hd : ((Node.new cfg junk kjunk).run (es ++ [e])).phase = .done
    · obtain ⟨a, a1, a2, a3⟩ := ih
      refine ⟨a, a1.trans (List.prefix_append _ _), ?_, a3⟩
      have hi := inv_run cfg junk kjunk es _ (inv_new cfg junk kjunk)
      rw [node_run_append] at hd
      rw [a2, node_run_append]
      exact (to_done _ e hd (fun h => (hi.done h).2.2.2.1)).symm
    · exact ⟨es ++ [e], List.prefix_refl _, rfl, hd⟩

/-- the frame that is received for a message -/
theorem same_of (m : Msg) (k : KFrame) (f : Frame) (hv : Spec.ValidFrame (toSocketCAN m)) (h1 : OnWire (toSocketCAN m) k) (h2 : Spec.Received k f) :
    f.id = (toSocketCAN m).id ∧ f.isError = false ∧ f.isExtended = (toSocketCAN m).isExtended ∧ f.isRtr = (toSocketCAN m).isRtr ∧ f.dlc = m.dlc ∧
    ∀ i : Nat, (h : i < 8) → i < m.dlc.toNat → f.data[i] = m.data[i] := by
  obtain ⟨w1, w2, w3⟩ := h1
  obtain ⟨r1, r2, r3, r4, r5⟩ := h2
  have hbit : ∀ i, 29 ≤ i → (toSocketCAN m).id.getLsbD i = false := fun i hi => BitVec.getLsbD_of_ge _ _ hi
  have b29 : k.canId.getLsbD 29 = false := by rw [w3, hbit 29 (by omega)]; simp
  have b30 : k.canId.getLsbD 30 = (toSocketCAN m).isRtr := by rw [w3, hbit 30 (by omega)]; simp
  have b31 : k.canId.getLsbD 31 = (toSocketCAN m).isExtended := by rw [w3, hbit 31 (by omega)]; simp
  obtain ⟨r6, r7⟩ := r5 b29
  refine ⟨?_, by rw [r1, b29], by rw [r6, b31], by rw [r7, b30], by rw [r2, w1]; rfl, ?_⟩
  · apply BitVec.eq_of_getLsbD_eq
    intro i hi
    rw [r4, w3, b29, b31]
    have n31 : ¬ i = 31 := by omega
    have n30 : ¬ i = 30 := by omega
    simp only [n31, n30, decide_false, Bool.and_false, Bool.or_false, Bool.false_or]
    cases hx : (toSocketCAN m).isExtended with
    | true => simp [hi]
    | false =>
      simp only [Bool.false_eq_true, if_false]
      by_cases h11 : i < 11
      · simp [h11]
      · have hlt := hv.2 hx
        have : (toSocketCAN m).id.getLsbD i = false := by
          rw [BitVec.getLsbD]
          exact Nat.testBit_lt_two_pow (Nat.lt_of_lt_of_le hlt (Nat.le_trans (by decide : 2048 ≤ 2 ^ 11) (Nat.pow_le_pow_right (by omega) (by omega))))
        rw [this]; simp
  · intro i h hi
    have hi' : i < (toSocketCAN m).dlc.toNat := hi
    rw [r3 i h (by rw [w1]; exact hi'), w2 i h hi']
    rfl

end Verif.Spec.Brn
