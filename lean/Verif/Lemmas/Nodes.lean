import Verif.Spec.Nodes
import Verif.Lemmas.PdoRx

/-!
# Lemmas for the nodes of a bus
-/

namespace Verif.Many
open Verif Verif.Spec.Many

/-- the listeners of a key -/
def heard (d : Disp.Filtered (BitVec 32) Lst) (k : BitVec 32) : List Lst := ((d.filtered k).getD ⟨[]⟩).listeners

theorem dispatch_eq {d : Disp.Filtered (BitVec 32) Lst} (hd : d.dispatcher.listeners = []) (k : BitVec 32) : d.dispatch k = heard d k := by
  unfold Disp.Filtered.dispatch heard Disp.Base.dispatchNolock
  rw [hd]
  cases d.filtered k <;> simp

theorem heard_create (d : Disp.Filtered (BitVec 32) Lst) (k k' : BitVec 32) (l : Lst) :
    heard (d.createKeyed k l) k' = if k' = k then heard d k ++ [l] else heard d k' := by
  unfold heard Disp.Filtered.createKeyed Disp.Base.createListener
  by_cases h : k' = k <;> simp [h]

theorem heard_destroy (d : Disp.Filtered (BitVec 32) Lst) (k k' : BitVec 32) (l : Lst) :
    heard (d.destroy (some k) l) k' = if k' = k then (heard d k).filter (· ≠ l) else heard d k' := by
  unfold heard Disp.Filtered.destroy Disp.Base.remove
  by_cases h : k' = k
  · subst h
    cases hd : d.filtered k' <;> simp [hd]
  · simp [h]

theorem create_general (d : Disp.Filtered (BitVec 32) Lst) (k : BitVec 32) (l : Lst) : (d.createKeyed k l).dispatcher = d.dispatcher := rfl

theorem destroy_general (d : Disp.Filtered (BitVec 32) Lst) (k : BitVec 32) (l : Lst) : (d.destroy (some k) l).dispatcher = d.dispatcher := rfl

theorem call_disp (f : Frame) (now : Int) : ∀ (ls : List Lst) (n : Net), (n.call f now ls).disp = n.disp
  | [], _ => rfl
  | l :: ls, n => by
    unfold Net.call
    dsimp only
    split
    · rw [call_disp f now ls]; rfl
    · rfl

/-- two nets that agree on a node -/
theorem call_agree (i : Nat) (f : Frame) (now : Int) : ∀ (ls : List Lst) (n m : Net), n.nodes i = m.nodes i → n.alive = true → m.alive = true →
    (n.call f now ls).alive = true →
    (n.call f now ls).nodes i = (m.call f now (ls.filter (fun l => decide (l.1 = i)))).nodes i ∧
      (m.call f now (ls.filter (fun l => decide (l.1 = i)))).alive = true
  | [], _, _, h, _, hm, _ => ⟨h, hm⟩
  | l :: ls, n, m, h, hn, hm, ha => by
    unfold Net.call at ha ⊢
    dsimp only at ha ⊢
    split at ha
    · rename_i hr
      rw [if_pos hr]
      by_cases hl : l.1 = i
      · rw [List.filter_cons_of_pos (by simpa using hl)]
        dsimp only
        rw [hl, h] at hr
        rw [hl, h, if_pos hr]
        rw [hl, h] at ha
        exact call_agree i f now ls _ _ (by simp [Net.put]) hn hm ha
      · rw [List.filter_cons_of_neg (by simpa using hl)]
        have := call_agree i f now ls (n.put l.1 ((n.nodes l.1).handle l.2 f now).1) m
          (by simp only [Net.put]; rw [if_neg (fun e => hl e.symm)]; exact h) hn hm ha
        cases hc : ls.filter (fun l => decide (l.1 = i)) with
        | nil => rw [hc] at this; exact this
        | cons a b => rw [hc] at this; exact this
    · simp at ha

/-- nobody of node `i` listens -/
theorem call_others (i : Nat) (f : Frame) (now : Int) (ls : List Lst) (n : Net) (hn : n.alive = true) (hl : ∀ l ∈ ls, l.1 ≠ i)
    (ha : (n.call f now ls).alive = true) : (n.call f now ls).nodes i = n.nodes i := by
  have h := (call_agree i f now ls n n rfl hn hn ha).1
  rw [List.filter_eq_nil_iff.2 (by simpa using hl)] at h
  exact h

theorem dead_run : ∀ (es : List Ev) (n : Net), n.alive = false → (n.run es).alive = false
  | [], _, h => h
  | e :: es, n, h => by
    have : n.step e = n := by unfold Net.step; simp [h]
    show ((n.step e).run es).alive = false
    rw [this]
    exact dead_run es n h

/-- the full bus `n` and a bus `m` with node `i` alone -/
structure Same (i : Nat) (keys : List (BitVec 32)) (n m : Net) : Prop where
  node : n.nodes i = m.nodes i
  aliveN : n.alive = true
  aliveM : m.alive = true
  generalN : n.disp.dispatcher.listeners = []
  generalM : m.disp.dispatcher.listeners = []
  heard : ∀ k, (heard n.disp k).filter (fun l => decide (l.1 = i)) = Many.heard m.disp k
  keys : ∀ k l, l ∈ Many.heard n.disp k → l.1 = i → k ∈ keys

theorem same_step {i : Nat} {keys : List (BitVec 32)} {n m : Net} (s : Same i keys n m) (e : Ev)
    (hk : ∀ p h, e = .listen (i, p) h → h.key ∈ keys) (ha : (n.step e).alive = true) :
    Same i keys (n.step e) (if concerns i keys e then m.step e else m) := by
  have hs : n.step e = n.act e := by unfold Net.step; rw [if_pos s.aliveN]
  have hsm : m.step e = m.act e := by unfold Net.step; rw [if_pos s.aliveM]
  rw [hs] at ha ⊢
  rw [hsm]
  cases e with
  | frame f now =>
    simp only [Net.act] at ha ⊢
    rw [dispatch_eq s.generalN] at ha ⊢
    rw [dispatch_eq s.generalM, ← s.heard]
    simp only [concerns, decide_eq_true_eq]
    split
    · have hc := call_agree i f now _ n m s.node s.aliveN s.aliveM ha
      exact ⟨hc.1, ha, hc.2, by rw [call_disp]; exact s.generalN, by rw [call_disp]; exact s.generalM,
        by rw [call_disp, call_disp]; exact s.heard, by rw [call_disp]; exact s.keys⟩
    · rename_i hf
      refine ⟨?_, ha, s.aliveM, by rw [call_disp]; exact s.generalN, s.generalM, by rw [call_disp]; exact s.heard, by rw [call_disp]; exact s.keys⟩
      rw [call_others i f now _ n s.aliveN (fun l hl he => hf (s.keys _ l hl he)) ha]
      exact s.node
  | listen l h =>
    simp only [Net.act, concerns, decide_eq_true_eq]
    refine ⟨?_, s.aliveN, ?_, s.generalN, ?_, ?_, ?_⟩
    · split <;> exact s.node
    · split <;> exact s.aliveM
    · split <;> exact s.generalM
    · intro k
      rw [heard_create]
      by_cases hl : l.1 = i
      · rw [if_pos hl]
        dsimp only
        rw [heard_create]
        split
        · rw [List.filter_append, s.heard]; simp [hl]
        · exact s.heard k
      · rw [if_neg hl]
        split
        · rename_i hk'
          rw [List.filter_append, s.heard, hk']; simp [hl]
        · exact s.heard k
    · intro k x hx hi
      rw [heard_create] at hx
      split at hx
      · rename_i hk'
        rcases List.mem_append.1 hx with hx | hx
        · rw [hk']; exact s.keys _ x hx hi
        · rw [List.mem_singleton] at hx
          subst hx
          rw [hk']
          exact hk x.2 h (by rw [← hi])
      · exact s.keys _ x hx hi
  | drop l h =>
    simp only [Net.act, concerns, decide_eq_true_eq]
    refine ⟨?_, s.aliveN, ?_, s.generalN, ?_, ?_, ?_⟩
    · split <;> exact s.node
    · split <;> exact s.aliveM
    · split <;> exact s.generalM
    · intro k
      rw [heard_destroy]
      by_cases hl : l.1 = i
      · rw [if_pos hl]
        dsimp only
        rw [heard_destroy]
        split
        · rw [← s.heard, List.filter_filter, List.filter_filter]
          apply List.filter_congr
          intro x _
          rw [Bool.and_comm]
        · exact s.heard k
      · rw [if_neg hl]
        split
        · rename_i hk'
          rw [hk', ← s.heard, List.filter_filter]
          apply List.filter_congr
          intro x _
          by_cases hx : x.1 = i
          · have : x ≠ l := fun e => hl (e ▸ hx)
            simp [hx, this]
          · simp [hx]
        · exact s.heard k
    · intro k x hx hi
      rw [heard_destroy] at hx
      split at hx
      · rename_i hk'
        rw [hk']
        exact s.keys _ x (List.mem_filter.1 hx).1 hi
      · exact s.keys _ x hx hi
  | own j g =>
    simp only [Net.act, concerns, decide_eq_true_eq]
    refine ⟨?_, s.aliveN, ?_, s.generalN, ?_, ?_, s.keys⟩
    · split
      · rename_i hj
        subst hj
        simp [Net.put, s.node]
      · rename_i hj
        simp only [Net.put]
        rw [if_neg (fun e => hj e.symm)]
        exact s.node
    · split <;> exact s.aliveM
    · split <;> exact s.generalM
    · split <;> exact s.heard

theorem same_run {i : Nat} {keys : List (BitVec 32)} : ∀ (es : List Ev) {n m : Net}, Same i keys n m →
    (∀ p h, Ev.listen (i, p) h ∈ es → h.key ∈ keys) → (n.run es).alive = true → Same i keys (n.run es) (m.run (es.filter (concerns i keys)))
  | [], _, _, s, _, _ => s
  | e :: es, n, m, s, hk, ha => by
    have h1 : (n.step e).alive = true := by
      cases hd : (n.step e).alive with
      | true => rfl
      | false =>
        have := dead_run es _ hd
        rw [show n.run (e :: es) = (n.step e).run es from rfl, this] at ha
        cases ha
    have s1 := same_step s e (fun p h he => hk p h (by rw [he]; exact List.mem_cons_self)) h1
    have h2 := same_run es s1 (fun p h he => hk p h (List.mem_cons_of_mem _ he)) ha
    show Same i keys ((n.step e).run es) _
    rw [List.filter_cons]
    split at h2 <;> rename_i hc <;> simp only [hc, if_true, Bool.false_eq_true, if_false] <;> exact h2

theorem same_fresh (i : Nat) (keys : List (BitVec 32)) (nodes nodes' : Nat → Station) (h : nodes i = nodes' i) :
    Same i keys (Net.fresh nodes) (Net.fresh nodes') :=
  ⟨h, rfl, rfl, rfl, rfl, fun _ => rfl, fun _ _ h => by simp [Many.heard, Net.fresh, Disp.Filtered.empty] at h⟩

/-- the listeners of node `i` for key `k` -/
def mine (i : Nat) (n : Net) (k : BitVec 32) : List Lst := (heard n.disp k).filter (fun l => decide (l.1 = i))

theorem alive_prefix (n : Net) (a b : List Ev) (h : (n.run (a ++ b)).alive = true) : (n.run a).alive = true := by
  cases hd : (n.run a).alive with
  | true => rfl
  | false =>
    have := dead_run b _ hd
    rw [show n.run (a ++ b) = (n.run a).run b by simp [Net.run]] at h
    rw [this] at h
    cases h

theorem general_step (n : Net) (e : Ev) (h : n.disp.dispatcher.listeners = []) : (n.step e).disp.dispatcher.listeners = [] := by
  unfold Net.step
  split
  · cases e with
    | frame f now => simp only [Net.act]; rw [call_disp]; exact h
    | listen l hd => exact h
    | drop l hd => exact h
    | own j g => exact h
  · exact h

theorem general_run : ∀ (es : List Ev) (n : Net), n.disp.dispatcher.listeners = [] → (n.run es).disp.dispatcher.listeners = []
  | [], _, h => h
  | e :: es, n, h => general_run es _ (general_step n e h)

theorem mine_step (i : Nat) (n : Net) (k : BitVec 32) (e : Ev) (hl : ∀ p h, e = .listen (i, p) h → h.key ≠ k)
    (hd : ∀ p h, e = .drop (i, p) h → (i, p) ∈ mine i n k → h.key ≠ k) : mine i (n.step e) k = mine i n k := by
  unfold Net.step
  split
  · cases e with
    | frame f now => simp only [Net.act, mine]; rw [call_disp]
    | own j g => rfl
    | listen l h =>
      simp only [Net.act, mine]
      rw [heard_create]
      split
      · rename_i hk
        by_cases hi : l.1 = i
        · exact absurd hk.symm (hl l.2 h (by rw [← hi]))
        · rw [hk, List.filter_append]; simp [hi]
      · rfl
    | drop l h =>
      simp only [Net.act, mine]
      rw [heard_destroy]
      split
      · rename_i hk
        rw [List.filter_filter, ← hk]
        apply List.filter_congr
        intro x hx
        by_cases hi : x.1 = i
        · by_cases hxl : x = l
          · refine absurd hk.symm (hd l.2 h (by rw [← hi, hxl]) ?_)
            rw [← hi, hxl]
            unfold mine
            rw [List.mem_filter]
            exact ⟨by rw [hxl] at hx; exact hx, by simp⟩
          · simp [hxl]
        · simp [hi]
      · rfl
  · rfl

theorem mine_run (i : Nat) (k : BitVec 32) : ∀ (es : List Ev) (n : Net), (∀ p h, Ev.listen (i, p) h ∈ es → h.key ≠ k) →
    (∀ p h, Ev.drop (i, p) h ∈ es → (i, p) ∈ mine i n k → h.key ≠ k) → mine i (n.run es) k = mine i n k
  | [], _, _, _ => rfl
  | e :: es, n, hl, hd => by
    have h1 := mine_step i n k e (fun p h he => hl p h (by rw [he]; exact List.mem_cons_self))
      (fun p h he => hd p h (by rw [he]; exact List.mem_cons_self))
    show mine i ((n.step e).run es) k = _
    rw [mine_run i k es (n.step e) (fun p h he => hl p h (List.mem_cons_of_mem _ he))
      (fun p h he hm => hd p h (List.mem_cons_of_mem _ he) (by rw [← h1]; exact hm)), h1]

/-- a part that listens handles a frame -/
theorem handled (nodes : Nat → Station) (i : Nat) (p : Part) (h : Header) (es es' : List Ev) (f : Frame) (now : Int) (hf : f.key = h.key)
    (h1 : ∀ q g, Ev.listen (i, q) g ∈ es → g.key ≠ f.key) (h2 : ∀ q g, Ev.listen (i, q) g ∈ es' → g.key ≠ f.key)
    (h3 : ∀ g, Ev.drop (i, p) g ∈ es' → g.key ≠ f.key)
    (ha : ((Net.fresh nodes).run (es ++ .listen (i, p) h :: es' ++ [.frame f now])).alive = true) :
    ((Net.fresh nodes).run (es ++ .listen (i, p) h :: es' ++ [.frame f now])).nodes i =
      ((((Net.fresh nodes).run (es ++ .listen (i, p) h :: es')).nodes i).handle p f now).1 ∧
    ((((Net.fresh nodes).run (es ++ .listen (i, p) h :: es')).nodes i).handle p f now).2 = true := by
  have halive := alive_prefix _ _ _ ha
  have halive0 := alive_prefix _ _ _ halive
  have hm0 : mine i (Net.fresh nodes) f.key = [] := rfl
  have hm1 : mine i ((Net.fresh nodes).run es) f.key = [] := by
    rw [mine_run i f.key es _ h1 (fun q g _ hm => by rw [hm0] at hm; cases hm), hm0]
  have hrun : (Net.fresh nodes).run (es ++ .listen (i, p) h :: es') = ((((Net.fresh nodes).run es).step (.listen (i, p) h)).run es') := by
    simp [Net.run]
  have hm2 : mine i (((Net.fresh nodes).run es).step (.listen (i, p) h)) f.key = [(i, p)] := by
    unfold Net.step
    rw [if_pos halive0]
    simp only [Net.act, mine]
    rw [heard_create, if_pos hf, List.filter_append]
    rw [← hf]
    have := hm1
    unfold mine at this
    rw [this]
    simp
  have hm3 : mine i ((Net.fresh nodes).run (es ++ .listen (i, p) h :: es')) f.key = [(i, p)] := by
    rw [hrun, mine_run i f.key es' _ h2 (fun q g hq hm => by
      rw [hm2, List.mem_singleton] at hm
      injection hm with _ hm
      subst hm
      exact h3 g hq), hm2]
  have hg := general_run (es ++ .listen (i, p) h :: es') (Net.fresh nodes) rfl
  rw [show (Net.fresh nodes).run (es ++ .listen (i, p) h :: es' ++ [.frame f now]) =
    ((Net.fresh nodes).run (es ++ .listen (i, p) h :: es')).step (.frame f now) by simp [Net.run]] at ha ⊢
  generalize (Net.fresh nodes).run (es ++ .listen (i, p) h :: es') = n at *
  unfold Net.step at ha ⊢
  rw [if_pos halive] at ha ⊢
  simp only [Net.act] at ha ⊢
  rw [dispatch_eq hg] at ha ⊢
  have hc := call_agree i f now _ n n rfl halive halive ha
  unfold mine at hm3
  rw [hm3] at hc
  rw [hc.1]
  have h2 := hc.2
  simp only [Net.call, Net.put] at h2 ⊢
  split at h2
  · rename_i hh
    exact ⟨by simp [hh], hh⟩
  · cases h2

theorem mine_only (i : Nat) (p : Part) (k : BitVec 32) : ∀ (es : List Ev) (n : Net), (∀ q g, Ev.listen (i, q) g ∈ es → g.key = k → q = p) →
    (∀ x ∈ mine i n k, x = (i, p)) → ∀ x ∈ mine i (n.run es) k, x = (i, p)
  | [], _, _, h => h
  | e :: es, n, hl, h => by
    refine mine_only i p k es (n.step e) (fun q g he => hl q g (List.mem_cons_of_mem _ he)) ?_
    unfold Net.step
    split
    · cases e with
      | frame f now => simp only [Net.act, mine]; rw [call_disp]; exact h
      | own j g => exact h
      | listen l g =>
        simp only [Net.act, mine]
        rw [heard_create]
        split
        · rename_i hk
          rw [List.filter_append, ← hk]
          intro x hx
          rcases List.mem_append.1 hx with hx | hx
          · exact h x hx
          · have hx' := List.mem_filter.1 hx
            rw [List.mem_singleton, decide_eq_true_eq] at hx'
            have hi : l.1 = i := by rw [← hx'.1]; exact hx'.2
            have hp := hl l.2 g (by rw [← hi]; exact List.mem_cons_self) hk.symm
            rw [hx'.1]
            exact Prod.ext hi hp
        · exact h
      | drop l g =>
        simp only [Net.act, mine]
        rw [heard_destroy]
        split
        · rename_i hk
          intro x hx
          refine h x ?_
          rw [← hk, List.filter_filter] at hx
          have hx' := List.mem_filter.1 hx
          simp only [Bool.and_eq_true] at hx'
          exact List.mem_filter.2 ⟨hx'.1, hx'.2.1⟩
        · exact h
    · exact h

/-- a part that stopped listening hears nothing -/
theorem unheard (nodes : Nat → Station) (i : Nat) (p : Part) (h : Header) (es es' : List Ev) (f : Frame) (now : Int) (hf : f.key = h.key)
    (h1 : ∀ q g, Ev.listen (i, q) g ∈ es → g.key = f.key → q = p) (h2 : ∀ q g, Ev.listen (i, q) g ∈ es' → g.key ≠ f.key)
    (ha : ((Net.fresh nodes).run (es ++ .drop (i, p) h :: es' ++ [.frame f now])).alive = true) :
    ((Net.fresh nodes).run (es ++ .drop (i, p) h :: es' ++ [.frame f now])).nodes i =
      ((Net.fresh nodes).run (es ++ .drop (i, p) h :: es')).nodes i := by
  have halive := alive_prefix _ _ _ ha
  have halive0 := alive_prefix _ _ _ halive
  have hm1 := mine_only i p f.key es (Net.fresh nodes) h1 (fun x hx => by cases hx)
  have hrun : (Net.fresh nodes).run (es ++ .drop (i, p) h :: es') = ((((Net.fresh nodes).run es).step (.drop (i, p) h)).run es') := by
    simp [Net.run]
  have hm2 : mine i (((Net.fresh nodes).run es).step (.drop (i, p) h)) f.key = [] := by
    unfold Net.step
    rw [if_pos halive0]
    simp only [Net.act, mine]
    rw [heard_destroy, if_pos hf, List.filter_filter, List.filter_eq_nil_iff]
    intro x hx hc
    simp only [Bool.and_eq_true, decide_eq_true_eq] at hc
    refine hc.2 (hm1 x ?_)
    unfold mine
    rw [hf]
    exact List.mem_filter.2 ⟨hx, by simpa using hc.1⟩
  have hm3 : mine i ((Net.fresh nodes).run (es ++ .drop (i, p) h :: es')) f.key = [] := by
    rw [hrun, mine_run i f.key es' _ h2 (fun q g hq hm => by rw [hm2] at hm; cases hm), hm2]
  have hg := general_run (es ++ .drop (i, p) h :: es') (Net.fresh nodes) rfl
  rw [show (Net.fresh nodes).run (es ++ .drop (i, p) h :: es' ++ [.frame f now]) =
    ((Net.fresh nodes).run (es ++ .drop (i, p) h :: es')).step (.frame f now) by simp [Net.run]] at ha ⊢
  generalize (Net.fresh nodes).run (es ++ .drop (i, p) h :: es') = n at *
  unfold Net.step at ha ⊢
  rw [if_pos halive] at ha ⊢
  simp only [Net.act] at ha ⊢
  rw [dispatch_eq hg] at ha ⊢
  have hc := call_agree i f now _ n n rfl halive halive ha
  unfold mine at hm3
  rw [hm3] at hc
  exact hc.1

theorem fit_handle {s : Station} (h : Fit s) (p : Part) (f : Frame) (now : Int) (hf : f.dlc.toNat ≤ 8) :
    (s.handle p f now).2 = true ∧ Fit (s.handle p f now).1 := by
  cases p with
  | nmt =>
    simp only [Station.handle]
    have hi : ∃ v, s.node.hb.interval none = (s.node.hb, some v) := by
      unfold Nmt.Hb.interval
      by_cases hp : s.node.hb.present = true
      · exact ⟨s.node.hb.buf, by simp [hp, h.1 hp]⟩
      · exact ⟨0, by simp [hp]⟩
    obtain ⟨v, hv⟩ := hi
    simp only [Nmt.Node.handleNMT, hv, Nmt.Node.switchState]
    refine ⟨?_, ?_, h.2⟩
    · split <;> rfl
    · dsimp only
      split <;> exact h.1
  | sdo => exact ⟨rfl, h.1, h.2⟩
  | emcy => exact ⟨rfl, h.1, h.2⟩
  | rpdo k =>
    simp only [Station.handle]
    cases hr : s.rpdos k with
    | none => exact ⟨rfl, h⟩
    | some r =>
      obtain ⟨bs, h1, h2⟩ := Pdo.deliver_ok f hf r.bufs 0 (h.2 k r hr)
      simp only [Pdo.Rpdo.handleFrame, h1]
      refine ⟨trivial, h.1, ?_⟩
      intro j q hq
      dsimp only at hq
      split at hq
      · injection hq with hq; subst hq; exact h2
      · exact h.2 j q hq

theorem fit_call (f : Frame) (now : Int) (hf : f.dlc.toNat ≤ 8) : ∀ (ls : List Lst) (n : Net), n.alive = true → (∀ i, Fit (n.nodes i)) →
    (n.call f now ls).alive = true ∧ ∀ i, Fit ((n.call f now ls).nodes i)
  | [], _, ha, h => ⟨ha, h⟩
  | l :: ls, n, ha, h => by
    unfold Net.call
    dsimp only
    have hh := fit_handle (h l.1) l.2 f now hf
    rw [if_pos hh.1]
    refine fit_call f now hf ls _ ha ?_
    intro i
    simp only [Net.put]
    split
    · exact hh.2
    · exact h i

theorem fit_run : ∀ (es : List Ev) (n : Net), n.alive = true → (∀ i, Fit (n.nodes i)) → (∀ f now, Ev.frame f now ∈ es → f.dlc.toNat ≤ 8) →
    (∀ i g, Ev.own i g ∈ es → ∀ s, Fit s → Fit (g s)) → (n.run es).alive = true ∧ ∀ i, Fit ((n.run es).nodes i)
  | [], _, ha, h, _, _ => ⟨ha, h⟩
  | e :: es, n, ha, h, hf, hg => by
    have hs : n.step e = n.act e := by unfold Net.step; rw [if_pos ha]
    have key : (n.step e).alive = true ∧ ∀ i, Fit ((n.step e).nodes i) := by
      rw [hs]
      cases e with
      | frame f now => exact fit_call f now (hf f now List.mem_cons_self) _ n ha h
      | listen l hd => exact ⟨ha, h⟩
      | drop l hd => exact ⟨ha, h⟩
      | own j g =>
        refine ⟨ha, fun i => ?_⟩
        simp only [Net.act, Net.put]
        split
        · exact hg j g List.mem_cons_self _ (h j)
        · exact h i
    exact fit_run es _ key.1 key.2 (fun f now he => hf f now (List.mem_cons_of_mem _ he)) (fun i g he => hg i g (List.mem_cons_of_mem _ he))

end Verif.Many
