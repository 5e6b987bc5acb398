import Verif.Lemmas.BridgeNet
import Verif.Props.BridgeNode

/-!
# C121: bridge programs on different computers with one CAN bus between them
-/

namespace Verif.Spec.Brn
open Verif Verif.Drv Verif.Thr Verif.Brn Verif.Bridge

/-- a program with these `can_ids` publishes what the bus says of this message -/
def WantsMsg (ids : Option Ids) (m : Msg) : Prop := ∃ f, Spec.MsgMatches (said m) f ∧ Wanted ids f

end Verif.Spec.Brn

namespace Verif.Props
open Verif Verif.Drv Verif.Thr Verif.Bridge Verif.Flt Verif.Brn Verif.Spec Verif.Spec.Thr Verif.Spec.Brn

private def jk121 : Vector Byte 8 := Vector.replicate 8 0
private def kf121 (id n : Nat) : KFrame := { canId := BitVec.ofNat 32 id, dlc := 1, data := #v[BitVec.ofNat 8 n, 0, 0, 0, 0, 0, 0, 0] }
private def msg121 (id : Nat) : Msg := { id := BitVec.ofNat 32 id, isRtr := 0, isExtended := 0, isError := 0, dlc := 1, data := #v[5, 0, 0, 0, 0, 0, 0, 0] }
/-- program 0 publishes everything, the others what `can_ids` selects -/
private def cfg121 (i : Nat) : Config :=
  { device := none, settings := fun _ => none, ids := if i = 0 then none else some (.list [.int 0x123, .str "700-70f".toList]), toTopic := true, toCan := true }
private def net121 : Net := Net.new cfg121 jk121 (kf121 0 0)
private def up121 (i : Nat) : List NetEv := [.own i (.main .ok), .own i (.drv .begin), .own i (.drv .reset), .own i (.drv .spawn), .own i (.drv (.waited false)), .own i .started]
private def take121 (i : Nat) : List NetEv := [.receive i, .own i (.drv (.read .main)), .own i (.drv (.enter .main)), .own i (.drv (.call .main)), .own i (.drv (.ret .main)), .own i (.drv (.leave .main))]
/-- programs 0 and 1 are running, program 1 has published a frame of another station -/
private def es121 : List NetEv := up121 0 ++ up121 1 ++ .foreign (kf121 0x705 9) :: take121 1
/-- program 0 sends two more messages, program 1 takes one frame and reads the next one -/
private def gs121 : List NetEv := [.own 0 (.msg (msg121 0x124) 0), .own 0 (.msg (msg121 0x70f) 0)] ++ take121 1 ++ [.receive 1]

/-- C121.  Let program `j` be running after the history `es`.  Then, whatever happens next until `j` has ended: the frames the kernel ever queued for it are, in this order, frames dropped
(all read before `es` ended), frames published if they are valid and selected by the program, one message for each and in this order, and frames that wait: in the kernel, in the
queue of the program, or at most one that is being read. -/
theorem C121_published (cfg : Nat → Config) (junk : Vector Byte 8) (kjunk : KFrame) (es gs : List NetEv) (j : Nat) (ht : (cfg j).toTopic = true)
    [DecidablePred fun f => ValidFrame f ∧ Wanted (cfg j).ids f] (hr : (((Net.new cfg junk kjunk).run es).node j).phase = .running) :
    let s := (Net.new cfg junk kjunk).run es
    let s' := (Net.new cfg junk kjunk).run (es ++ gs)
    (s'.node j).phase ≠ .done →
    ∃ missed seen waiting fs, (s'.given j).map (·.2) = missed ++ seen ++ waiting ∧ missed.length + (s.inbox j).length ≤ (s.given j).length ∧
      waiting.length ≤ (s'.inbox j).length + (s'.node j).t.strand.length + 1 ∧ Pointwise Received seen fs ∧
      List.Forall₂ MsgMatches (s'.node j).published (fs.filter fun f => decide (ValidFrame f ∧ Wanted (cfg j).ids f)) := by
  intro s s' hd
  have hi := netInv_run cfg junk kjunk es _ (netInv_new cfg junk kjunk)
  have hi' := netInv_run cfg junk kjunk (es ++ gs) _ (netInv_new cfg junk kjunk)
  have hn := hi.node j
  have hn' := hi'.node j
  have hr0 := hr
  rw [hn] at hr0
  obtain ⟨a, b, h1, h2, h3⟩ := split_running (cfg j) junk kjunk _ hr0
  obtain ⟨c, hc⟩ := (grows_run gs j s).2
  have hh : s'.hist j = a ++ .started :: (b ++ c) := by
    show ((Net.new cfg junk kjunk).run (es ++ gs)).hist j = _
    rw [net_run_append]
    rw [show ((Net.new cfg junk kjunk).run es) = s from rfl, ← hc, show s.hist j = _ from h1]
    simp
  have hn'' : s'.node j = (Node.new (cfg j) junk kjunk).run (a ++ .started :: (b ++ c)) := by rw [← hh]; exact hn'
  have hpub := C99_published (cfg j) junk kjunk a (b ++ c) ht h2 h3 (by rw [← hn'']; exact hd)
  dsimp only at hpub
  rw [← hn''] at hpub
  obtain ⟨missed, seen, queued, pending, fs, p1, p2, p3, p4, p5, p6⟩ := hpub
  refine ⟨missed, seen, queued ++ pending ++ s'.inbox j, fs, ?_, ?_, ?_, p5, p6⟩
  · have hq : (s'.given j).map (·.2) = (s'.node j).t.arrived ++ s'.inbox j := hi'.queue j
    rw [hq, p1]
    simp only [List.append_assoc]
  · have hq : ((s.given j).map (·.2)).length = ((s.node j).t.arrived ++ s.inbox j).length := congrArg List.length (hi.queue j)
    have hp := p2.length_le
    have hm : ((Node.new (cfg j) junk kjunk).run a).t.arrived <+: (s.node j).t.arrived := by
      rw [show s.node j = _ from hn, h1, node_run_append]
      exact arrived_run _ _
    have := hm.length_le
    simp only [List.length_map, List.length_append] at hq
    omega
  · simp only [List.length_append]
    omega

example : (cfg121 1).toTopic = true ∧ ((net121.run es121).node 1).phase = .running ∧ ((net121.run (es121 ++ gs121)).node 1).phase ≠ .done ∧
    ((net121.run (es121 ++ .own 0 (.msg (msg121 0x123) 0) :: gs121)).node 1).published.map (fun m => (m.id, m.data[0])) = [(0x705, 9), (0x123, 5)] := by decide +kernel

private theorem pointwise_get {α β : Type} {R : α → β → Prop} : ∀ {as : List α} {bs : List β} (_ : Pointwise R as bs) (q : Nat) (a : α), as[q]? = some a → ∃ b, b ∈ bs ∧ R a b
  | [], _, _, q, a, h => by simp at h
  | x :: as, [], h, _, _, _ => h.elim
  | x :: as, y :: bs, h, 0, a, hq => by
    simp only [List.getElem?_cons_zero, Option.some.injEq] at hq
    subst hq
    exact ⟨y, by simp, h.1⟩
  | x :: as, y :: bs, h, q + 1, a, hq => by
    rw [List.getElem?_cons_succ] at hq
    obtain ⟨b, h1, h2⟩ := pointwise_get h.2 q a hq
    exact ⟨b, by simp [h1], h2⟩

private theorem forall₂_mem {α β : Type} {R : α → β → Prop} {as : List α} {bs : List β} (h : List.Forall₂ R as bs) (b : β) (hb : b ∈ bs) : ∃ a ∈ as, R a b := by
  induction h with
  | nil => cases hb
  | cons h1 _ ih =>
    rcases List.mem_cons.1 hb with rfl | hb
    · exact ⟨_, by simp, h1⟩
    · obtain ⟨a, h2, h3⟩ := ih hb
      exact ⟨a, by simp [h2], h3⟩

private theorem matches_same (m m' : Msg) (f : Frame) (h1 : f.id = (toSocketCAN m).id) (h2 : f.isError = false) (h3 : f.isExtended = (toSocketCAN m).isExtended)
    (h4 : f.isRtr = (toSocketCAN m).isRtr) (h5 : f.dlc = m.dlc) (h6 : ∀ i : Nat, (h : i < 8) → i < m.dlc.toNat → f.data[i] = m.data[i]) (hm : MsgMatches m' f) :
    SameMsg (said m) m' := by
  obtain ⟨g1, g2, g3, g4, g5, g6⟩ := hm
  refine ⟨?_, ?_, ?_, ?_, ?_, ?_⟩
  · apply BitVec.eq_of_toNat_eq
    rw [g1, h1]
    simp only [said, toSocketCAN, BitVec.toNat_ofNat, BitVec.toNat_setWidth]
    omega
  · rw [g2, h5]; rfl
  · rw [g4, h4]
    simp only [said, toSocketCAN, toBit, beq_iff_eq]
  · rw [g5, h3]
    simp only [said, toSocketCAN, toBit, beq_iff_eq]
  · rw [g6, h2]; rfl
  · intro i h hi
    rw [g3]
    exact (h6 i h hi).symm

private theorem wanted_head (ids : Option Ids) (f g : Frame) (h : f.toHeader = g.toHeader) : Wanted ids f ↔ Wanted ids g := by
  have hp : ∀ fl : Filter, fl.pass f = fl.pass g := by
    intro fl
    have : f.key = g.key := congrArg Header.key h
    simp only [Filter.pass, this]
  have hs : ∀ i : Item, Selects i f ↔ Selects i g := by
    intro i
    cases i with
    | int n => simp only [Selects, h]
    | str s => simp only [Selects, hp]
    | other => exact Iff.rfl
  cases ids with
  | none => exact Iff.rfl
  | some x =>
    cases x with
    | list l => simp only [Wanted, hs]
    | _ => exact Iff.rfl

private theorem head_of (m : Msg) (f g : Frame) (h1 : f.id = (toSocketCAN m).id) (h2 : f.isError = false) (h3 : f.isExtended = (toSocketCAN m).isExtended)
    (h4 : f.isRtr = (toSocketCAN m).isRtr) (hg : MsgMatches (said m) g) : f.toHeader = g.toHeader := by
  obtain ⟨g1, -, -, g4, g5, g6⟩ := hg
  obtain ⟨⟨fi, fe, fr, fx⟩, fd, fl⟩ := f
  obtain ⟨⟨gi, ge, gr, gx⟩, gd, gl⟩ := g
  simp only at h1 h2 h3 h4 g1 g4 g5 g6
  subst h1 h2 h3 h4
  have e1 : (toSocketCAN m).id = gi := by
    apply BitVec.eq_of_toNat_eq
    rw [← g1]
    simp only [said, toSocketCAN, BitVec.toNat_ofNat, BitVec.toNat_setWidth]
    omega
  have e2 : ge = false := by
    cases ge
    · rfl
    · exact absurd (show (0 : Byte) = 1 from g6) (by decide)
  have e3 : (toSocketCAN m).isRtr = gr := by
    simp only [said, toSocketCAN, toBit] at g4 ⊢
    cases gr <;> by_cases h : m.isRtr.toNat % 2 = 1 <;> simp_all
  have e4 : (toSocketCAN m).isExtended = gx := by
    simp only [said, toSocketCAN, toBit] at g5 ⊢
    cases gx <;> by_cases h : m.isExtended.toNat % 2 = 1 <;> simp_all
  rw [e1, e2, e3, e4]

/-- the message for a frame that was seen -/
private theorem found (ids : Option Ids) [DecidablePred fun f => ValidFrame f ∧ Wanted ids f] (m : Msg) (k : KFrame) (hv : ValidFrame (toSocketCAN m)) (hw : WantsMsg ids m)
    (hk : OnWire (toSocketCAN m) k) (seen : List KFrame) (fs : List Frame) (q : Nat) (hq : seen[q]? = some k) (hp : Pointwise Received seen fs) (pub : List Msg)
    (hpub : List.Forall₂ MsgMatches pub (fs.filter fun f => decide (ValidFrame f ∧ Wanted ids f))) : ∃ m' ∈ pub, SameMsg (said m) m' := by
  obtain ⟨f, f1, f2⟩ := pointwise_get hp q k hq
  obtain ⟨s1, s2, s3, s4, s5, s6⟩ := same_of m k f hv hk f2
  obtain ⟨g, g1, g2⟩ := hw
  have hwf : Wanted ids f := (wanted_head ids f g (head_of m f g s1 s2 s3 s4 g1)).2 g2
  have hvf : ValidFrame f := ⟨by rw [s5]; exact hv.1, by rw [s1, s3]; exact hv.2⟩
  obtain ⟨m', m1, m2⟩ := forall₂_mem hpub f (List.mem_filter.2 ⟨f1, by simp [hwf, hvf]⟩)
  exact ⟨m', m1, matches_same m m' f s1 s2 s3 s4 s5 s6 m2⟩

/-- a message that is sent is given to the others -/
private theorem given_of (cfg : Nat → Config) (junk : Vector Byte 8) (kjunk : KFrame) (es : List NetEv) (i j : Nat) (hij : i ≠ j) (m : Msg)
    (hc : (cfg i).toCan = true) (hv : ValidFrame (toSocketCAN m)) :
    let s := (Net.new cfg junk kjunk).run es
    (s.node i).phase = .running → (s.node i).t.isReady = true → s.isOpen j = true →
    ∃ k, OnWire (toSocketCAN m) k ∧ (s.step (.own i (.msg m 0))).given j = s.given j ++ [(some i, k)] ∧ ∀ j', (s.step (.own i (.msg m 0))).inbox j' = if s.isOpen j' ∧ j' ≠ i then s.inbox j' ++ [k] else s.inbox j' := by
  intro s hp hr ho
  have hi := netInv_run cfg junk kjunk es _ (netInv_new cfg junk kjunk)
  have hn := hi.node i
  have hp' := hp
  rw [show s.node i = _ from hn] at hp'
  have hs := C99_send (cfg i) junk kjunk (s.hist i) m 0 hc hp'
  dsimp only at hs
  rw [node_run_append, ← show s.node i = _ from hn] at hs
  rcases hs with ⟨h, -⟩ | ⟨-, -, ⟨-, -, -, -, k, hk, hw⟩ | ⟨h, -⟩⟩
  · exact absurd hv h
  · have hdrop : ((s.node i).step (.msg m 0)).t.d.wire.drop (s.node i).t.d.wire.length = [k] := by
      rw [show (s.node i).step (.msg m 0) = (s.node i).run [.msg m 0] from rfl, hk]; simp
    have hopen : ∀ j', (s.act i (.msg m 0)).isOpen j' = true ∧ (some i : Option Nat) ≠ some j' ↔ s.isOpen j' = true ∧ j' ≠ i := by
      intro j'
      by_cases hj : j' = i
      · subst hj; simp
      · have : ¬ i = j' := fun e => hj e.symm
        simp [Net.isOpen, Net.act, hj, this]
    refine ⟨k, hw, ?_, ?_⟩
    · simp only [Net.step, isArrival, Bool.false_eq_true, if_false, hdrop]
      simp only [Net.spread]
      rw [if_pos ((hopen j).2 ⟨ho, fun e => hij e.symm⟩)]
      rfl
    · intro j'
      simp only [Net.step, isArrival, Bool.false_eq_true, if_false, hdrop]
      simp only [Net.spread, hopen j']
      simp [Net.act]
  · rcases h with h | h
    · rw [hr] at h; cases h
    · exact absurd rfl h

/-- C121.  A valid message taken by program `i`, whose driver is ready and whose write succeeds, is put on the bus and queued for every other program with an open socket.  A running program
`j` that selects it publishes the same message, as far as it can be said on a bus, as soon as what was queued up to it has been worked on. -/
theorem C121_message (cfg : Nat → Config) (junk : Vector Byte 8) (kjunk : KFrame) (es gs : List NetEv) (i j : Nat) (hij : i ≠ j) (m : Msg)
    (hc : (cfg i).toCan = true) (ht : (cfg j).toTopic = true) (hv : ValidFrame (toSocketCAN m)) (hw : WantsMsg (cfg j).ids m) :
    let s := (Net.new cfg junk kjunk).run es
    let s' := (Net.new cfg junk kjunk).run (es ++ .own i (.msg m 0) :: gs)
    (s.node i).phase = .running → (s.node i).t.isReady = true → (s.node j).phase = .running → s.isOpen j = true → (s'.node j).phase ≠ .done →
    (∃ k, (s'.given j)[(s.given j).length]? = some (some i, k) ∧ OnWire (toSocketCAN m) k) ∧
    ((s.given j).length + (s'.inbox j).length + (s'.node j).t.strand.length + 1 < (s'.given j).length → ∃ m' ∈ (s'.node j).published, SameMsg (said m) m') := by
  intro s s' hp hr hpj ho hd
  classical
  obtain ⟨k, hk, hgiv, -⟩ := given_of cfg junk kjunk es i j hij m hc hv hp hr ho
  obtain ⟨rest, hrest⟩ := (grows_run gs j (s.step (.own i (.msg m 0)))).1
  have hs' : s' = (s.step (.own i (.msg m 0))).run gs := net_run_append _ _ _
  have hg' : s'.given j = s.given j ++ (some i, k) :: rest := by
    rw [hs', ← hrest]
    rw [show (s.step (.own i (.msg m 0))).given j = s.given j ++ [(some i, k)] from hgiv]
    simp
  refine ⟨⟨k, by rw [hg', List.getElem?_append_right (Nat.le_refl _), Nat.sub_self]; rfl, hk⟩, fun hlen => ?_⟩
  obtain ⟨missed, seen, waiting, fs, p1, p2, p3, p4, p5⟩ := C121_published cfg junk kjunk es (.own i (.msg m 0) :: gs) j ht hpj hd
  have hl := congrArg List.length p1
  have hat : ((s'.given j).map (·.2))[(s.given j).length]? = some k := by
    rw [hg', List.getElem?_map, List.getElem?_append_right (Nat.le_refl _), Nat.sub_self]; rfl
  rw [show (s'.given j).map (·.2) = _ from p1] at hat
  simp only [List.length_map, List.length_append] at hl
  have hseen : seen[(s.given j).length - missed.length]? = some k := by
    have p2' : missed.length + (s.inbox j).length ≤ (s.given j).length := p2
    have p3' : waiting.length ≤ (s'.inbox j).length + (s'.node j).t.strand.length + 1 := p3
    have hl' : (s'.given j).length = missed.length + seen.length + waiting.length := hl
    rw [List.append_assoc, List.getElem?_append_right (by omega), List.getElem?_append_left (by omega)] at hat
    exact hat
  exact found (cfg j).ids m k hv hw hk seen fs _ hseen p4 _ p5

private theorem valid121 : ValidFrame (toSocketCAN (msg121 0x123)) := ⟨by decide, fun _ => by decide⟩

private theorem wants121 : WantsMsg (cfg121 1).ids (msg121 0x123) :=
  ⟨toSocketCAN (msg121 0x123), ⟨by decide, by decide, by decide, by decide, by decide, by decide⟩, .int 0x123, by decide, show (_ : Int) = _ from by decide +kernel⟩

example : (0 : Nat) ≠ 1 ∧ (cfg121 0).toCan = true ∧ (cfg121 1).toTopic = true ∧ ValidFrame (toSocketCAN (msg121 0x123)) ∧ WantsMsg (cfg121 1).ids (msg121 0x123) ∧
    ((net121.run es121).node 0).phase = .running ∧ ((net121.run es121).node 0).t.isReady = true ∧ ((net121.run es121).node 1).phase = .running ∧ (net121.run es121).isOpen 1 = true ∧
    ((net121.run (es121 ++ .own 0 (.msg (msg121 0x123) 0) :: gs121)).node 1).phase ≠ .done ∧
    (let s' := net121.run (es121 ++ .own 0 (.msg (msg121 0x123) 0) :: gs121)
     ((net121.run es121).given 1).length + (s'.inbox 1).length + (s'.node 1).t.strand.length + 1 < (s'.given 1).length) :=
  ⟨by decide, by decide, by decide, valid121, wants121, by decide +kernel, by decide +kernel, by decide +kernel, by decide +kernel, by decide +kernel, by decide +kernel⟩

private theorem own_run (ws : List Ev) (hw : ∀ e ∈ ws, ownStep e = true) (j : Nat) : ∀ s : Net,
    let s' := s.run (ws.map fun e => .own j (.drv e))
    s'.node j = (s.node j).run (ws.map .drv) ∧ s'.given j = s.given j ∧ s'.inbox j = s.inbox j := by
  induction ws with
  | nil => intro s; exact ⟨rfl, rfl, rfl⟩
  | cons e ws ih =>
    intro s
    have he := hw e (by simp)
    have ha : isArrival (.drv e) = false := by cases e <;> first | rfl | cases he
    obtain ⟨h1, h2, h3⟩ := ih (fun e' h => hw e' (by simp [h])) (s.step (.own j (.drv e)))
    have hn : (s.step (.own j (.drv e))).node j = (s.node j).step (.drv e) ∧ (s.step (.own j (.drv e))).given j = s.given j ∧ (s.step (.own j (.drv e))).inbox j = s.inbox j := by
      simp only [Net.step, ha, Bool.false_eq_true, if_false]
      simp [Net.spread, Net.act]
    exact ⟨by rw [hn.1] at h1; exact h1, h2.trans hn.2.1, h3.trans hn.2.2⟩

/-- C121.  When the kernel has handed over all frames, the threads of a running program can always go on until all of them are worked on; then every valid message taken by another
program while this one was running, its socket was open and the sender's driver was ready has been published, if the program selects it. -/
theorem C121_delivered (cfg : Nat → Config) (junk : Vector Byte 8) (kjunk : KFrame) (es gs : List NetEv) (i j : Nat) (hij : i ≠ j) (m : Msg)
    (hc : (cfg i).toCan = true) (ht : (cfg j).toTopic = true) (hv : ValidFrame (toSocketCAN m)) (hw : WantsMsg (cfg j).ids m) :
    let s := (Net.new cfg junk kjunk).run es
    let s' := (Net.new cfg junk kjunk).run (es ++ .own i (.msg m 0) :: gs)
    (s.node i).phase = .running → (s.node i).t.isReady = true → (s.node j).phase = .running → s.isOpen j = true → (s'.node j).phase = .running → s'.inbox j = [] →
    ∃ ws : List Ev, (∀ e ∈ ws, ownStep e = true) ∧ ∃ m' ∈ ((s'.run (ws.map fun e => .own j (.drv e))).node j).published, SameMsg (said m) m' := by
  intro s s' hp hr hpj ho hd hempty
  classical
  obtain ⟨k, hk, hgiv, -⟩ := given_of cfg junk kjunk es i j hij m hc hv hp hr ho
  obtain ⟨rest, hrest⟩ := (grows_run gs j (s.step (.own i (.msg m 0)))).1
  have hs' : s' = (s.step (.own i (.msg m 0))).run gs := net_run_append _ _ _
  have hg' : s'.given j = s.given j ++ (some i, k) :: rest := by
    rw [hs', ← hrest]
    rw [show (s.step (.own i (.msg m 0))).given j = s.given j ++ [(some i, k)] from hgiv]
    simp
  have hi := netInv_run cfg junk kjunk es _ (netInv_new cfg junk kjunk)
  have hi' := netInv_run cfg junk kjunk (es ++ .own i (.msg m 0) :: gs) _ (netInv_new cfg junk kjunk)
  have hn : s.node j = _ := hi.node j
  have hr0 := hpj
  rw [hn] at hr0
  obtain ⟨a, b, h1, h2, h3⟩ := split_running (cfg j) junk kjunk _ hr0
  obtain ⟨c, hc'⟩ := (grows_run (.own i (.msg m 0) :: gs) j s).2
  have hh : s'.hist j = a ++ .started :: (b ++ c) := by
    have : s' = s.run (.own i (.msg m 0) :: gs) := net_run_append _ _ _
    rw [this, ← hc', show s.hist j = _ from h1]
    simp
  have hn'' : s'.node j = (Node.new (cfg j) junk kjunk).run (a ++ .started :: (b ++ c)) := by rw [← hh]; exact hi'.node j
  obtain ⟨ws, w1, missed, seen, fs, p1, p2, p3, p4, p5⟩ := C99_all_published (cfg j) junk kjunk a (b ++ c) ht h2 h3 (by rw [← hn'']; exact hd)
  rw [node_run_append, ← hn''] at p1 p2 p5
  obtain ⟨o1, -, -⟩ := own_run ws w1 j s'
  refine ⟨ws, w1, ?_⟩
  rw [o1]
  have hq : (s'.given j).map (·.2) = (s'.node j).t.arrived ++ s'.inbox j := hi'.queue j
  rw [hempty, List.append_nil, ← p1, p2] at hq
  have hat : ((s'.given j).map (·.2))[(s.given j).length]? = some k := by
    rw [hg', List.getElem?_map, List.getElem?_append_right (Nat.le_refl _), Nat.sub_self]; rfl
  rw [hq] at hat
  have hm : missed.length ≤ (s.given j).length := by
    have hl1 := p3.length_le
    have hm : ((Node.new (cfg j) junk kjunk).run a).t.arrived <+: (s.node j).t.arrived := by
      rw [hn, h1, node_run_append]
      exact arrived_run _ _
    have hl2 := hm.length_le
    have hq : ((s.given j).map (·.2)).length = ((s.node j).t.arrived ++ s.inbox j).length := congrArg List.length (hi.queue j)
    simp only [List.length_map, List.length_append] at hq
    omega
  rw [List.getElem?_append_right hm] at hat
  exact found (cfg j).ids m k hv hw hk seen fs _ hat p4 _ p5

/-- the frame has just been handed over and is published later -/
example : ((net121.run es121).node 0).phase = .running ∧ ((net121.run es121).node 0).t.isReady = true ∧ ((net121.run es121).node 1).phase = .running ∧ (net121.run es121).isOpen 1 = true ∧
    (let s' := net121.run (es121 ++ .own 0 (.msg (msg121 0x123) 0) :: [.receive 1])
     (s'.node 1).phase = .running ∧ s'.inbox 1 = [] ∧ (s'.node 1).published.length = 1) := by decide +kernel

/-- published messages with the programs they come from -/
private theorem tagged (P : Frame → Prop) [DecidablePred P] : ∀ (g : List (Option Nat × KFrame)) (fs : List Frame) (pub : List Msg), Pointwise Received (g.map (·.2)) fs →
    List.Forall₂ MsgMatches pub (fs.filter fun f => decide (P f)) →
    ∃ l : List ((Option Nat × KFrame) × Msg), l.map (·.2) = pub ∧ (l.map (·.1)).Sublist g ∧ ∀ x ∈ l, ∃ f, Received x.1.2 f ∧ MsgMatches x.2 f
  | [], [], pub, _, h => by
    cases h
    exact ⟨[], rfl, List.Sublist.slnil, by simp⟩
  | [], _ :: _, _, h, _ => h.elim
  | _ :: _, [], _, h, _ => h.elim
  | x :: g, f :: fs, pub, hp, h => by
    by_cases hf : P f
    · rw [List.filter_cons_of_pos (by simpa using hf)] at h
      cases h with
      | cons h1 h2 =>
        obtain ⟨l, a, b, c⟩ := tagged P g fs _ hp.2 h2
        refine ⟨(x, _) :: l, by rw [List.map_cons, a], b.cons_cons x, ?_⟩
        intro y hy
        rcases List.mem_cons.1 hy with rfl | hy
        · exact ⟨f, hp.1, h1⟩
        · exact c y hy
    · rw [List.filter_cons_of_neg (by simpa using hf)] at h
      obtain ⟨l, a, b, c⟩ := tagged P g fs pub hp.2 h
      exact ⟨l, a, b.cons x, c⟩

private theorem sub_forall₂ {α β : Type} {R : α → β → Prop} {as : List α} {bs : List β} (h : List.Forall₂ R as bs) : ∀ {bs' : List β}, bs'.Sublist bs → ∃ as', as'.Sublist as ∧ List.Forall₂ R as' bs' := by
  induction h with
  | nil => intro bs' hs; cases hs; exact ⟨[], List.Sublist.slnil, List.Forall₂.nil⟩
  | cons h1 _ ih =>
    intro bs' hs
    cases hs with
    | cons _ hs =>
      obtain ⟨as', a, b⟩ := ih hs
      exact ⟨as', a.cons _, b⟩
    | cons_cons _ hs =>
      obtain ⟨as', a, b⟩ := ih hs
      exact ⟨_ :: as', a.cons_cons _, List.Forall₂.cons h1 b⟩

/-- C121.  At any time in any history the messages a program has published come, in this order, from frames queued for it, and those that come from the same other program are, in the same order,
valid messages taken by that program, as far as they can be said on a bus: nothing is invented, changed, doubled or overtaken. -/
theorem C121_origin (cfg : Nat → Config) (junk : Vector Byte 8) (kjunk : KFrame) (es : List NetEv) (j : Nat) (ht : (cfg j).toTopic = true) :
    let s := (Net.new cfg junk kjunk).run es
    ∃ l : List (Option Nat × Msg), l.map (·.2) = (s.node j).published ∧ (l.map (·.1)).Sublist ((s.given j).map (·.1)) ∧
      ∀ i, ∃ ms, ms.Sublist (msgs (s.hist i)) ∧ (∀ m ∈ ms, ValidFrame (toSocketCAN m)) ∧
        List.Forall₂ (fun m m' => SameMsg (said m) m') ms ((l.filter fun x => x.1 = some i).map (·.2)) := by
  intro s
  classical
  have hi := netInv_run cfg junk kjunk es _ (netInv_new cfg junk kjunk)
  have hn : s.node j = _ := hi.node j
  have hq : (s.given j).map (·.2) = (s.node j).t.arrived ++ s.inbox j := hi.queue j
  obtain ⟨h, ⟨h', hh⟩, h2, h3⟩ := before_done (cfg j) junk kjunk (s.hist j)
  have harr : ((Node.new (cfg j) junk kjunk).run h).t.arrived <+: (s.node j).t.arrived := by
    rw [hn, show ((Net.new cfg junk kjunk).run es).hist j = s.hist j from rfl, ← hh, node_run_append]
    exact arrived_run _ _
  rw [hn, show ((Net.new cfg junk kjunk).run es).hist j = s.hist j from rfl, ← h2]
  by_cases hup : IsUp ((Node.new (cfg j) junk kjunk).run h).phase
  · obtain ⟨a, b, rfl, u1, u2⟩ := split_up (cfg j) junk kjunk h hup
    obtain ⟨missed, seen, queued, pending, fs, p1, p2, p3, p4, p5, p6⟩ := C99_published (cfg j) junk kjunk a b ht u1 u2 h3
    obtain ⟨later, hl⟩ := harr
    rw [← hl, p1] at hq
    have hsplit : ∃ g1 g2 g3, s.given j = g1 ++ g2 ++ g3 ∧ g2.map (·.2) = seen := by
      rw [List.append_assoc, List.append_assoc, List.append_assoc, List.append_assoc, List.map_eq_append_iff] at hq
      obtain ⟨g1, r, e1, -, e3⟩ := hq
      rw [List.map_eq_append_iff] at e3
      obtain ⟨g2, g3, e4, e5, -⟩ := e3
      exact ⟨g1, g2, g3, by rw [e1, e4, List.append_assoc], e5⟩
    obtain ⟨g1, g2, g3, e1, e2⟩ := hsplit
    rw [← e2] at p5
    obtain ⟨l, t1, t2, t3⟩ := tagged _ g2 fs _ p5 p6
    have hsub : (l.map (·.1)).Sublist (s.given j) := by
      rw [e1]
      exact t2.trans ((List.sublist_append_right g1 g2).trans (List.sublist_append_left _ _))
    refine ⟨l.map fun x => (x.1.1, x.2), by rw [List.map_map]; exact t1, ?_, ?_⟩
    · have := hsub.map (fun x : Option Nat × KFrame => x.1)
      rw [List.map_map] at this ⊢
      exact this
    · intro i
      obtain ⟨ms, m1, m2, m3⟩ := C99_only_messages (cfg i) junk kjunk (s.hist i)
      rw [← show s.node i = _ from hi.node i] at m3
      have hfrom : (((l.filter fun x => x.1.1 = some i).map (·.1)).map (·.2)).Sublist (s.node i).t.d.wire := by
        refine List.Sublist.trans ?_ (hi.sent i j)
        have := (hsub.filter (fun g => decide (g.1 = some i))).map (fun g : Option Nat × KFrame => g.2)
        rw [List.filter_map] at this
        exact this
      obtain ⟨ms', n1, n2⟩ := sub_forall₂ m3 hfrom
      refine ⟨ms', n1.trans m1, fun m hm => m2 m (n1.subset hm), ?_⟩
      have hkeep : ((l.map fun x => (x.1.1, x.2)).filter fun x => x.1 = some i).map (·.2) = (l.filter fun x => x.1.1 = some i).map (·.2) := by
        rw [List.filter_map, List.map_map]
        rfl
      rw [hkeep]
      have hv : ∀ m ∈ ms', ValidFrame (toSocketCAN m) := fun m hm => m2 m (n1.subset hm)
      have hall : ∀ x ∈ l.filter (fun x => x.1.1 = some i), ∃ f, Received x.1.2 f ∧ MsgMatches x.2 f := fun x hx => t3 x (List.mem_filter.1 hx).1
      clear hkeep hfrom n1 m1 m2 m3 t1 t2 t3 hsub
      generalize l.filter (fun x => decide (x.1.1 = some i)) = l' at *
      rw [List.map_map] at n2
      generalize hks : l'.map _ = ks at n2
      induction n2 generalizing l' with
      | nil =>
        rw [List.map_eq_nil_iff] at hks
        subst hks
        exact List.Forall₂.nil
      | cons r1 _ ih =>
        cases l' with
        | nil => cases hks
        | cons x l' =>
          simp only [List.map_cons, List.cons.injEq, Function.comp] at hks
          obtain ⟨hk1, hk2⟩ := hks
          refine List.Forall₂.cons ?_ (ih (fun m hm => hv m (by simp [hm])) l' (fun y hy => hall y (by simp [hy])) hk2)
          obtain ⟨f, f1, f2⟩ := hall x (by simp)
          rw [hk1] at f1
          obtain ⟨s1, s2, s3, s4, s5, s6⟩ := same_of _ _ f (hv _ (by simp)) r1 f1
          exact matches_same _ x.2 f s1 s2 s3 s4 s5 s6 f2
  · have hp : ((Node.new (cfg j) junk kjunk).run h).published = [] := by
      refine ((C99_start (cfg j) junk kjunk h).2 ⟨?_, ?_, ?_⟩).1
      · exact fun e => hup (.inl e)
      · exact fun e => hup (.inr (.inl e))
      · exact h3
    rw [hp]
    exact ⟨[], rfl, by simp, fun i => ⟨[], by simp, by simp, by simp⟩⟩

/-- two programs and another station -/
example : (cfg121 0).toTopic = true ∧
    (let s := net121.run (es121 ++ [.own 1 (.msg (msg121 0x70f) 0), .own 1 (.msg (msg121 0x800) 0), .own 1 (.msg (msg121 0x70e) 0)] ++ take121 0 ++ take121 0 ++ take121 0)
     (s.node 0).published.map (·.id) = [0x705, 0x70f, 0x70e] ∧ (s.given 0).map (·.1) = [none, some 1, some 1] ∧ msgs (s.hist 1) = [msg121 0x70f, msg121 0x800, msg121 0x70e]) := by decide +kernel

/-- C121.  A message does not always arrive as it was: one about an error (`is_error`) that is valid otherwise is sent as an ordinary frame and published as an ordinary message by the
other program; an identifier of more than 29 bits is cut. -/
theorem C121_error_false :
    let send (m : Msg) := net121.run (up121 0 ++ up121 1 ++ .own 1 (.msg m 0) :: take121 0)
    ((send { msg121 0x40 with isError := 1 }).node 0).published = [msg121 0x40] ∧
    ((send { msg121 0x20000123 with isExtended := 1 }).node 0).published = [{ msg121 0x123 with isExtended := 1 }] := by
  decide +kernel

end Verif.Props
