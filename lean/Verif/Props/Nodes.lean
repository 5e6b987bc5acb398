import Verif.Lemmas.Nodes

/-!
# C112: nodes of one bus do not disturb each other
-/

namespace Verif.Props
open Verif Verif.Many Verif.Spec.Many

/-! ## A small bus for the examples -/

private def cl112 : Sdo.Client :=
  { clientId := .default', sent := [], buffer := [], offset := 0, total := 0, done := false, lastMsg := { (default : Frame) with dlc := 0 },
    current := none }

private def st112 (id : Byte) : Station :=
  { node := .fresh id true { present := true, dflt := some 100, conf := none, buf := 100, valid := true }
    chan := .fresh cl112
    emcy := .fresh false
    rpdos := fun k => if k = 0 then some (.fresh default 255 []) else none }

private def fr112 (id : BitVec 29) (b : Byte) : Frame :=
  { id := id, isError := false, isRtr := false, isExtended := false, data := #v[b, 0, 1, 0, 0, 0, 0, 0], dlc := 1 }

/-- two nodes listen for their states, the second stops listening; the first is operational, the second pre-operational and has an error -/
private def es112 : List Ev :=
  [.listen (0, .nmt) (nmtHeader 1), .listen (1, .nmt) (nmtHeader 2), .listen (1, .emcy) (Emcy.header 0x82),
   .frame (fr112 0x702 127) 5, .frame (fr112 0x701 5) 6, .frame (fr112 0x82 0) 7, .drop (1, .nmt) (nmtHeader 2), .frame (fr112 0x702 4) 8,
   .own 1 (fun s => { s with node := { s.node with synced := false } })]

private def bus112 : Net := .fresh (fun j => st112 (BitVec.ofNat 8 (j + 1)))

/-! ## Theorems -/

/-- C112.  In every history of a bus that the program survives, what became of a node (its state, its SDO channel, its emergency flag, its received
process data) depends only on its own start, on what was done with this node, and on the frames with an identifier it listened for: on a bus
with any other nodes the history reduced to these leads to the same.  Partial: see `C112_escape_false`. -/
theorem C112_isolated_partial (nodes others : Nat → Station) (i : Nat) (hi : others i = nodes i) (es : List Ev) (keys : List (BitVec 32))
    (hk : ∀ p h, Ev.listen (i, p) h ∈ es → h.key ∈ keys) (ha : ((Net.fresh nodes).run es).alive = true) :
    ((Net.fresh nodes).run es).nodes i = ((Net.fresh others).run (es.filter (concerns i keys))).nodes i :=
  (same_run es (same_fresh i keys nodes others hi.symm) hk ha).node

/-- non-trivial: two of the nine events concern node 0 -/
example : (∀ p h, Ev.listen (1, p) h ∈ es112 → h.key ∈ [0x702#32, 0x82#32]) ∧ (bus112.run es112).alive = true ∧
    (es112.filter (concerns 0 [0x701#32])).length = 2 ∧ ((bus112.run es112).nodes 0).node.state = 5 ∧
    ((bus112.run es112).nodes 1).node.state = 127 ∧ ((bus112.run es112).nodes 1).emcy.hasError = true := by
  refine ⟨?_, by decide +kernel, by decide +kernel, by decide +kernel, by decide +kernel, by decide +kernel⟩
  intro p h hm
  simp only [es112, List.mem_cons, reduceCtorEq, List.not_mem_nil, or_false, false_or, Ev.listen.injEq, Prod.mk.injEq] at hm
  rcases hm with ⟨⟨h1, _⟩, _⟩ | ⟨_, rfl⟩ | ⟨_, rfl⟩
  · cases h1
  · decide
  · decide

/-- C112.  A frame with an identifier nobody of a node listens for leaves this node as it is. -/
theorem C112_foreign_frame (nodes : Nat → Station) (i : Nat) (es : List Ev) (f : Frame) (now : Int)
    (hk : ∀ p h, Ev.listen (i, p) h ∈ es → h.key ≠ f.key) (ha : ((Net.fresh nodes).run (es ++ [.frame f now])).alive = true) :
    ((Net.fresh nodes).run (es ++ [.frame f now])).nodes i = ((Net.fresh nodes).run es).nodes i := by
  let keys := es.filterMap (fun e => match e with | .listen l h => if l.1 = i then some h.key else none | _ => none)
  have hk1 : ∀ p h, Ev.listen (i, p) h ∈ es → h.key ∈ keys := fun p h hm => List.mem_filterMap.2 ⟨_, hm, by simp⟩
  have hk2 : f.key ∉ keys := by
    intro hm
    obtain ⟨e, he, h⟩ := List.mem_filterMap.1 hm
    split at h
    · rename_i l hd
      split at h
      · rename_i hl
        injection h with h
        exact hk l.2 hd (by rw [← hl]; exact he) h
      · cases h
    · cases h
  have ha' := alive_prefix _ _ _ ha
  have e1 := C112_isolated_partial nodes nodes i rfl es keys hk1 ha'
  have e2 := C112_isolated_partial nodes nodes i rfl (es ++ [.frame f now]) keys (by
    intro p h hm
    rcases List.mem_append.1 hm with hm | hm
    · exact hk1 p h hm
    · simp at hm) ha
  rw [List.filter_append, List.filter_cons_of_neg (by simp [concerns, hk2])] at e2
  rw [e1, e2]
  simp

/-- the second heartbeat of the other node -/
example : (∀ p h, Ev.listen (0, p) h ∈ es112 → h.key ≠ (fr112 0x702 5).key) ∧ (bus112.run (es112 ++ [.frame (fr112 0x702 5) 9])).alive = true := by
  refine ⟨?_, by decide +kernel⟩
  intro p h hm
  simp only [es112, List.mem_cons, reduceCtorEq, List.not_mem_nil, or_false, false_or, Ev.listen.injEq, Prod.mk.injEq] at hm
  rcases hm with ⟨_, rfl⟩ | ⟨⟨h1, _⟩, _⟩ | ⟨⟨h1, _⟩, _⟩
  · decide
  · cases h1
  · cases h1

/-- C112.  And a part of a node that listens hears every frame with its identifier, whatever was done to the other nodes before: the state machine of the
node, its SDO channel, its emergency flag or its process data object takes the step the model of this part describes, the other parts stay as
they are.  That the program survived the frame means that the heartbeat interval was known or the frame could be stored.  (Each node listens for an identifier with one part only.) -/
theorem C112_delivered (nodes : Nat → Station) (i : Nat) (p : Part) (h : Header) (es es' : List Ev) (f : Frame) (now : Int) (hf : f.key = h.key)
    (h1 : ∀ q g, Ev.listen (i, q) g ∈ es → g.key ≠ f.key) (h2 : ∀ q g, Ev.listen (i, q) g ∈ es' → g.key ≠ f.key)
    (h3 : ∀ g, Ev.drop (i, p) g ∈ es' → g.key ≠ f.key)
    (ha : ((Net.fresh nodes).run (es ++ .listen (i, p) h :: es' ++ [.frame f now])).alive = true)
    (s t : Station) (hs : s = ((Net.fresh nodes).run (es ++ .listen (i, p) h :: es')).nodes i)
    (ht : t = ((Net.fresh nodes).run (es ++ .listen (i, p) h :: es' ++ [.frame f now])).nodes i) :
    (p = .nmt → s.node.listening = true → t = { s with node := (s.node.step (.frame f now)).1 } ∧ (s.node.hb.present = true → s.node.hb.valid = true)) ∧
    (p = .sdo → s.chan.listens = some f.key → t = { s with chan := (s.chan.step (.arrive f)).1 }) ∧
    (p = .emcy → t = { s with emcy := { s.emcy with hasError := f.data[2] &&& 0xDF#8 ≠ 0 } }) ∧
    (∀ k r, p = .rpdo k → s.rpdos k = some r → ∃ r', r.handleFrame f = .ok r' ∧
      t = { s with rpdos := fun j => if j = k then some r' else s.rpdos j }) := by
  obtain ⟨this, hok⟩ := handled nodes i p h es es' f now hf h1 h2 h3 ha
  rw [← hs, ← ht] at this
  rw [← hs] at hok
  subst this
  refine ⟨?_, ?_, ?_, ?_⟩
  · rintro rfl hl
    refine ⟨by simp [Station.handle, Nmt.Node.step, hl], fun hp => ?_⟩
    cases hv : s.node.hb.valid with
    | true => rfl
    | false => simp [Station.handle, Nmt.Node.handleNMT, Nmt.Hb.interval, hp, hv] at hok
  · rintro rfl hl
    simp [Station.handle, Chan.State.step, Chan.State.arrive, hl]
  · rintro rfl
    simp only [Station.handle, Emcy.Handler.handleEMCY]
    rfl
  · rintro k r rfl hr
    cases hh : r.handleFrame f with
    | ok r' => exact ⟨r', rfl, by simp [Station.handle, hr, hh]⟩
    | throws e => simp [Station.handle, hr, hh] at hok
    | ub => simp [Station.handle, hr, hh] at hok

/-- the report of node 0 amid those of node 1 -/
example : ∃ es es', es112.take 5 = es ++ .listen (0, .nmt) (nmtHeader 1) :: es' ++ [.frame (fr112 0x701 5) 6] ∧
    (fr112 0x701 5).key = (nmtHeader 1).key ∧ (∀ q g, Ev.listen (0, q) g ∉ es ++ es') ∧ (∀ g, Ev.drop (0, .nmt) g ∉ es') ∧
    (bus112.run (es112.take 5)).alive = true :=
  ⟨[], (es112.take 4).drop 1, rfl, by decide +kernel, by simp [es112], by simp [es112], by decide +kernel⟩

/-- C112.  A part that stopped listening hears nothing any more: if it alone listened for an identifier, frames with it leave the node as it is. -/
theorem C112_stopped (nodes : Nat → Station) (i : Nat) (p : Part) (h : Header) (es es' : List Ev) (f : Frame) (now : Int) (hf : f.key = h.key)
    (h1 : ∀ q g, Ev.listen (i, q) g ∈ es → g.key = f.key → q = p) (h2 : ∀ q g, Ev.listen (i, q) g ∈ es' → g.key ≠ f.key)
    (ha : ((Net.fresh nodes).run (es ++ .drop (i, p) h :: es' ++ [.frame f now])).alive = true) :
    ((Net.fresh nodes).run (es ++ .drop (i, p) h :: es' ++ [.frame f now])).nodes i =
      ((Net.fresh nodes).run (es ++ .drop (i, p) h :: es')).nodes i :=
  unheard nodes i p h es es' f now hf h1 h2 ha

/-- node 1 after it stopped listening for its own state -/
example : ∃ es es', es112.take 8 = es ++ .drop (1, .nmt) (nmtHeader 2) :: es' ++ [.frame (fr112 0x702 4) 8] ∧
    (fr112 0x702 4).key = (nmtHeader 2).key ∧ Ev.listen (1, .nmt) (nmtHeader 2) ∈ es ∧
    (∀ q g, Ev.listen (1, q) g ∈ es → g.key = (fr112 0x702 4).key → q = .nmt) ∧ es' = [] ∧ (bus112.run (es112.take 8)).alive = true := by
  refine ⟨es112.take 6, [], rfl, by decide +kernel, by simp [es112], ?_, rfl, by decide +kernel⟩
  intro q g hm hk
  simp only [es112, List.take_succ_cons, List.take_zero, List.mem_cons, reduceCtorEq, List.not_mem_nil, or_false, Ev.listen.injEq,
    Prod.mk.injEq] at hm
  rcases hm with ⟨⟨h1, _⟩, _⟩ | ⟨⟨_, rfl⟩, _⟩ | ⟨⟨_, rfl⟩, rfl⟩
  · cases h1
  · rfl
  · revert hk; decide

/-- C112.  With the pre-defined connection set the parts of a node listen for exactly the identifiers CiA 301 gives its device: emergency and four
process data objects (`cob`: the entries of the dictionary), the answers of the SDO server and error control. -/
theorem C112_predefined (a : Byte) (h1 : 1 ≤ a.toNat) (h2 : a.toNat ≤ 127) :
    ([(Emcy.header (0x80#32 + a.setWidth 32)).key] ++
      [0x180#32, 0x280#32, 0x380#32, 0x480#32].map (fun cob => (Pdo.PdoId.header ⟨cob + a.setWidth 32⟩ false).key) ++
      [(Chan.channelId [] a 2 0x580#32).key, (nmtHeader a).key]).map BitVec.toNat = predefined a.toNat := by
  have key : ∀ n : Fin 128, 1 ≤ n.val →
      ([(Emcy.header (0x80#32 + (BitVec.ofNat 8 n.val).setWidth 32)).key] ++
      [0x180#32, 0x280#32, 0x380#32, 0x480#32].map (fun cob => (Pdo.PdoId.header ⟨cob + (BitVec.ofNat 8 n.val).setWidth 32⟩ false).key) ++
      [(Chan.channelId [] (BitVec.ofNat 8 n.val) 2 0x580#32).key, (nmtHeader (BitVec.ofNat 8 n.val)).key]).map BitVec.toNat = predefined n.val := by
    decide +kernel
  have := key ⟨a.toNat, by omega⟩ h1
  simpa only [BitVec.ofNat_toNat, BitVec.setWidth_eq] using this

/-- node 5 -/
example : predefined 5 = [0x85, 0x185, 0x285, 0x385, 0x485, 0x585, 0x705] := by decide

/-- C112.  So two nodes with different numbers from 1 to 127 have no identifier in common. -/
theorem C112_disjoint (a b : Nat) (ha : 1 ≤ a) (ha' : a ≤ 127) (hb : 1 ≤ b) (hb' : b ≤ 127) (hab : a ≠ b) : ∀ x ∈ predefined a, x ∉ predefined b := by
  intro x hx
  simp only [predefined, List.mem_cons, List.not_mem_nil, or_false] at hx ⊢
  omega

/-- the limits are needed: number 257 would collide with another service of node 1 -/
example : ∃ x ∈ predefined 257, x ∈ predefined 1 := ⟨0x181, by decide, by decide⟩

/-- C112.  The program survives every history in which every node can handle frames (its heartbeat interval is known if it has one, its PDO
buffers have their sizes), what is done with nodes keeps this, and frames carry at most eight bytes. -/
theorem C112_survives (nodes : Nat → Station) (hn : ∀ i, Fit (nodes i)) (es : List Ev) (hf : ∀ f now, Ev.frame f now ∈ es → f.dlc.toNat ≤ 8)
    (hg : ∀ i g, Ev.own i g ∈ es → ∀ s, Fit s → Fit (g s)) :
    ((Net.fresh nodes).run es).alive = true ∧ ∀ i, Fit (((Net.fresh nodes).run es).nodes i) :=
  fit_run es _ rfl hn hf hg

example : (∀ i, Fit (bus112.nodes i)) ∧ (∀ f now, Ev.frame f now ∈ es112 → f.dlc.toNat ≤ 8) ∧
    (∀ i g, Ev.own i g ∈ es112 → ∀ s, Fit s → Fit (g s)) := by
  refine ⟨?_, ?_, ?_⟩
  · intro i
    refine ⟨fun _ => rfl, ?_⟩
    intro k r hr b hb
    simp only [bus112, Net.fresh, st112] at hr
    split at hr
    · injection hr with hr
      subst hr
      simp [Pdo.Rpdo.fresh] at hb
    · cases hr
  · intro f now hm
    simp only [es112, List.mem_cons, reduceCtorEq, List.not_mem_nil, or_false, false_or, Ev.frame.injEq] at hm
    rcases hm with ⟨rfl, _⟩ | ⟨rfl, _⟩ | ⟨rfl, _⟩ | ⟨rfl, _⟩ <;> decide
  · intro i g hm s hs
    simp only [es112, List.mem_cons, reduceCtorEq, List.not_mem_nil, or_false, false_or, Ev.own.injEq] at hm
    obtain ⟨rfl, rfl⟩ := hm
    exact hs

/-- C112 does not hold without the assumption of surviving: resetting node 1, whose heartbeat interval has no default in its EDS, makes the boot-up message
of this node an exception on the thread that receives for all, and node 0 hears nothing any more. -/
theorem C112_escape_false :
    ¬ ∀ (nodes : Nat → Station) (i : Nat) (es : List Ev) (keys : List (BitVec 32)), (∀ p h, Ev.listen (i, p) h ∈ es → h.key ∈ keys) →
      ((Net.fresh nodes).run es).nodes i = ((Net.fresh nodes).run (es.filter (concerns i keys))).nodes i := by
  intro h
  have := h (fun j => if j = 1 then { st112 2 with node := .fresh 2 true { present := true, dflt := none, conf := some 100, buf := 0, valid := true } }
      else st112 1) 0
    [.listen (0, .nmt) (nmtHeader 1), .listen (1, .nmt) (nmtHeader 2), .own 1 (fun s => { s with node := (s.node.step (.call .resetCom 0)).1 }),
     .frame (fr112 0x702 0) 5, .frame (fr112 0x701 5) 6] [0x701#32] (by
      intro p h hm
      simp only [List.mem_cons, reduceCtorEq, List.not_mem_nil, or_false, false_or, Ev.listen.injEq, Prod.mk.injEq] at hm
      rcases hm with ⟨_, rfl⟩ | ⟨⟨h1, _⟩, _⟩
      · decide
      · cases h1)
  have h2 := congrArg (fun s => s.node.state) this
  revert h2
  decide +kernel

end Verif.Props
