import Verif.Lemmas.Dummy
import Verif.Lemmas.Replay

/-!
# C10, C11, C73: virtual bus
-/

namespace Verif.Props
open Verif Verif.Dummy Verif.Spec Verif.Disp

/-- C10 and C11.  For every schedule of connecting, disconnecting, sending and receiving in which senders are connected, and for
every interface: the frames handed to its listeners followed by the frames still queued are exactly the frames it must
receive (all frames of other interfaces while connected, its own ones only with loop-back), in order, each once. -/
theorem C11_no_loss_dup_reorder (es : List Ev) (hs : SendersConnected (fun _ => none) es) :
    ∃ w, World.init.run es = .ok w ∧
      ∀ j, (w.ifs j).delivered ++ (w.ifs j).queue = mustReceive j (fun _ => none) es := by
  obtain ⟨w, hw, hj⟩ := (run_spec es _ _ init_inv).1 hs
  exact ⟨w, hw, fun j => by rw [hj j]; simp [World.init]⟩

/-- the sender without loop-back does not get its frame, the other one does -/
example : let f : Frame := default
    SendersConnected (fun _ => none) [.connect 1 false, .connect 2 false, .send 1 f, .receive 2] ∧
    mustReceive 1 (fun _ => none) [.connect 1 false, .connect 2 false, .send 1 f, .receive 2] = [] ∧
    mustReceive 2 (fun _ => none) [.connect 1 false, .connect 2 false, .send 1 f, .receive 2] = [f] := by
  refine ⟨?_, ?_, ?_⟩ <;> simp [SendersConnected, mustReceive, connStep]

/-- C10.  One send, from any reachable state: it appends the frame once to the queue of every other connected interface, to
the own queue exactly with loop-back, and touches nothing else. -/
theorem C10_send_excludes_only_sender (es : List Ev) (w : World) (hr : World.init.run es = .ok w)
    (i : Nat) (f : Frame) (hc : (conns es i).isSome) :
    ∃ w', w.send i f = .ok w' ∧ ∀ j,
      (w'.ifs j).delivered = (w.ifs j).delivered ∧
      (w'.ifs j).queue = (w.ifs j).queue ++
        (if (j ≠ i ∧ (conns es j).isSome) ∨ (j = i ∧ conns es j = some true) then [f] else []) := by
  have hinv : Inv w (conns es) := by
    have gen : ∀ (es : List Ev) (w0 : World) (c : Conns), Inv w0 c → ∀ w, w0.run es = .ok w →
        Inv w (es.foldl connStep c) := by
      intro es
      induction es with
      | nil => intro w0 c h w hw; cases hw; exact h
      | cons e es ih =>
        intro w0 c h w hw
        cases e with
        | connect i l => exact ih _ _ (connect_inv w0 c h i l) w hw
        | disconnect i => exact ih _ _ (disconnect_inv w0 c h i) w hw
        | send i f =>
          by_cases hc : (c i).isSome = true
          · obtain ⟨w1, hw1, hi, _⟩ := send_spec w0 c h i f hc
            simp only [World.run, World.step, hw1] at hw
            exact ih _ _ hi w hw
          · have hub : w0.send i f = .ub := by
              unfold World.send
              rw [if_neg (fun hm => hc ((h.2.1 i).1 hm))]
            simp [World.run, World.step, hub] at hw
        | receive i => exact ih _ _ (receive_spec w0 c h i).1 w hw
    exact gen es _ _ init_inv w hr
  obtain ⟨w', hw', _, hq⟩ := send_spec w (conns es) hinv i f hc
  refine ⟨w', hw', fun j => ⟨(hq j).1, ?_⟩⟩
  rw [(hq j).2]
  congr 1
  by_cases e : i = j
  · subst e; simp
  · have : j ≠ i := fun h => e h.symm
    simp [e, this]

example : (∃ w, World.init.run [.connect 1 true, .connect 2 false] = .ok w) ∧
    (conns [.connect 1 true, .connect 2 false] 1) = some true ∧ (conns [.connect 1 true, .connect 2 false] 2).isSome :=
  ⟨⟨_, rfl⟩, rfl, rfl⟩

/-- Sending on an interface that is not connected is undefined behaviour (null pointer), and it is the only source of it. -/
theorem C10_send_needs_connection (es : List Ev) :
    World.init.run es = .ub ↔ ¬ SendersConnected (fun _ => none) es := by
  obtain ⟨a, b⟩ := run_spec es _ _ init_inv
  refine ⟨fun h hs => ?_, b⟩
  obtain ⟨w, hw, _⟩ := a hs
  rw [h] at hw; cases hw

/-- C10, `doesLoopBack`: an interface tells the loop-back setting of its last `init`, also after it was shut down; before the first one it tells that there is none. -/
theorem C10_loop_back (es : List Ev) (w : World) (hr : World.init.run es = .ok w) (j : Nat) :
    ((w.ifs j).loopback = true ↔ ∃ a b, es = a ++ Ev.connect j true :: b ∧ ∀ l, Ev.connect j l ∉ b) ∧
    ((∃ l, Ev.connect j l ∈ es) ∨ (w.ifs j).loopback = false) := by
  have enq : ∀ (js : List Nat) (f : Frame) (w : World) (k : Nat), ((js.foldl (fun w j => w.enqueue f j) w).ifs k).loopback = (w.ifs k).loopback := by
    intro js f
    induction js with
    | nil => intro w k; rfl
    | cons x js ih =>
      intro w k
      rw [List.foldl_cons, ih]
      simp only [World.enqueue]
      split <;> rfl
  have key : ∀ (es : List Ev) (w0 w : World), w0.run es = .ok w →
      ((w.ifs j).loopback = true ↔ (∃ a b, es = a ++ Ev.connect j true :: b ∧ ∀ l, Ev.connect j l ∉ b) ∨
        ((∀ l, Ev.connect j l ∉ es) ∧ (w0.ifs j).loopback = true)) := by
    intro es
    induction es with
    | nil => intro w0 w h; cases h; simp
    | cons e es ih =>
      intro w0 w h
      simp only [World.run] at h
      cases hs : w0.step e with
      | throws x => cases x
      | ub => rw [hs] at h; cases h
      | ok w1 =>
        rw [hs] at h
        have hi := ih w1 w h
        rw [hi]
        by_cases hc : ∃ l, e = .connect j l
        · obtain ⟨l, rfl⟩ := hc
          have h1 : (w1.ifs j).loopback = l := by
            simp only [World.step, Outcome.ok.injEq] at hs
            subst hs
            simp [World.connect]
          rw [h1]
          constructor
          · rintro (⟨a, b, rfl, h2⟩ | ⟨h2, rfl⟩)
            · exact Or.inl ⟨.connect j l :: a, b, rfl, h2⟩
            · exact Or.inl ⟨[], es, rfl, h2⟩
          · rintro (⟨a, b, h2, h3⟩ | ⟨h2, -⟩)
            · cases a with
              | nil =>
                simp only [List.nil_append, List.cons.injEq, Ev.connect.injEq, true_and] at h2
                obtain ⟨rfl, rfl⟩ := h2
                exact Or.inr ⟨h3, rfl⟩
              | cons x a =>
                simp only [List.cons_append, List.cons.injEq] at h2
                exact Or.inl ⟨a, b, h2.2, h3⟩
            · exact absurd List.mem_cons_self (h2 l)
        · have h1 : (w1.ifs j).loopback = (w0.ifs j).loopback := by
            cases e with
            | connect i l =>
              simp only [World.step, Outcome.ok.injEq] at hs
              subst hs
              have : j ≠ i := fun h => hc ⟨l, by rw [h]⟩
              simp [World.connect, this]
            | disconnect i => simp only [World.step, Outcome.ok.injEq] at hs; subst hs; rfl
            | receive i =>
              simp only [World.step, Outcome.ok.injEq] at hs
              subst hs
              unfold World.receive
              split
              · rfl
              · dsimp only; split <;> rfl
            | send i f =>
              simp only [World.step, World.send] at hs
              split at hs
              · simp only [Outcome.ok.injEq] at hs
                subst hs
                rw [enq]
                split
                · simp only [World.enqueue]; split <;> rfl
                · rfl
              · cases hs
          rw [h1]
          have h2 : ∀ l, Ev.connect j l ≠ e := fun l h => hc ⟨l, h.symm⟩
          constructor
          · rintro (⟨a, b, rfl, h3⟩ | ⟨h3, h4⟩)
            · exact Or.inl ⟨e :: a, b, rfl, h3⟩
            · exact Or.inr ⟨fun l hl => by rcases List.mem_cons.mp hl with h | h; exact h2 l h; exact h3 l h, h4⟩
          · rintro (⟨a, b, h3, h4⟩ | ⟨h3, h4⟩)
            · cases a with
              | nil =>
                simp only [List.nil_append, List.cons.injEq] at h3
                exact absurd h3.1.symm (h2 true)
              | cons x a =>
                simp only [List.cons_append, List.cons.injEq] at h3
                exact Or.inl ⟨a, b, h3.2, h4⟩
            · exact Or.inr ⟨fun l hl => h3 l (List.mem_cons_of_mem _ hl), h4⟩
  have h := key es _ _ hr
  constructor
  · rw [h]
    constructor
    · rintro (h | ⟨-, h⟩)
      · exact h
      · cases h
    · exact Or.inl
  · cases hl : (w.ifs j).loopback with
    | false => exact Or.inr rfl
    | true =>
      rw [hl] at h
      rcases h.mp rfl with ⟨a, b, rfl, -⟩ | ⟨-, h⟩
      · exact Or.inl ⟨true, by simp⟩
      · cases h

/-- loop-back is told after the interface was shut down -/
example : ∃ w, World.init.run [.connect 1 false, .connect 1 true, .disconnect 1, .connect 2 false] = .ok w ∧
    (w.ifs 1).loopback = true ∧ (w.ifs 2).loopback = false ∧ (w.ifs 3).loopback = false := ⟨_, rfl, rfl, rfl, rfl⟩

/-- a schedule with three interfaces, loop-back on the first, meets the hypothesis; interface 2 gets both frames -/
example : let f : Frame := default
    SendersConnected (fun _ => none)
      [.connect 1 true, .connect 2 false, .connect 3 false, .send 1 f, .receive 2, .disconnect 3, .send 1 f] ∧
    mustReceive 2 (fun _ => none)
      [.connect 1 true, .connect 2 false, .connect 3 false, .send 1 f, .receive 2, .disconnect 3, .send 1 f] = [f, f] ∧
    mustReceive 3 (fun _ => none)
      [.connect 1 true, .connect 2 false, .connect 3 false, .send 1 f, .receive 2, .disconnect 3, .send 1 f] = [f] := by
  refine ⟨?_, ?_, ?_⟩ <;> simp [SendersConnected, mustReceive, connStep]

/-- C73.  A replay whose script was added line by line as texts (in any letter case) of the frames in `want`, and that sees any
sequence of printable frames: it sends what a participant playing `want` sends, and it reports `done` exactly when that
participant has nothing left. -/
theorem C73_replay (junk : Vector Byte 8) (want : List (Frame × List Frame)) (lines : List (Text × List Text))
    (hl : Pointwise Writes want lines) (seen : List Frame) (hs : ∀ m ∈ seen, Printable m)
    (out : List Frame) (rest : List (Text × List Frame))
    (hr : serve (lines.foldl (fun r l => addScript junk r l.1 l.2) []) seen = .ok (out, rest)) :
    ∃ sent left, Plays want seen sent left ∧ Pointwise SameFrame sent out ∧ (scriptDone rest = true ↔ left = []) := by
  rw [addAll, List.nil_append] at hr
  have hst := pointwise_map (S := Stored) _ (fun a b h => stored_of_writes junk h) hl
  obtain ⟨sent, left, p1, p2, p3⟩ := (serve_plays hst seen hs).1 out rest hr
  refine ⟨sent, left, p1, p2, ?_⟩
  cases left <;> cases rest <;> simp_all [Pointwise, scriptDone]

/-- a script of one line whose frame arrives -/
example : let f (n : BitVec 29) : Frame := { id := n, isError := false, isRtr := false, isExtended := false,
                                             data := #v[0xab,0xcd,0,0,0,0,0,0], dlc := 2 }
    Printable (f 0x70a) ∧ Plays [(f 0x70a, [f 1])] [f 0x70a] [f 1] [] := by
  intro f
  exact ⟨⟨⟨by decide, by decide⟩, by decide⟩, .expected (sent := []) ⟨rfl, rfl, rfl, rfl, rfl, fun _ _ _ => rfl⟩ (.nothing _)⟩

/-- C73, the precondition the replay relies on: it misbehaves (`front()` of an empty list) exactly if a frame arrives after the
script was played to its end. -/
theorem C73_not_after_end (junk : Vector Byte 8) (want : List (Frame × List Frame)) (lines : List (Text × List Text))
    (hl : Pointwise Writes want lines) (seen : List Frame) (hs : ∀ m ∈ seen, Printable m) :
    serve (lines.foldl (fun r l => addScript junk r l.1 l.2) []) seen = .ub ↔
      ∃ pre m post sent, seen = pre ++ m :: post ∧ Plays want pre sent [] := by
  rw [addAll, List.nil_append]
  have hst := pointwise_map (S := Stored) _ (fun a b h => stored_of_writes junk h) hl
  exact (serve_plays hst seen hs).2.2

/-- helper for the example: comparing a printed text -/
def okText (o : Outcome Empty Text) (t : Text) : Bool := match o with
  | .ok s => s == t
  | _ => false

theorem okText_eq {o : Outcome Empty Text} {t : Text} (h : okText o t = true) : o = .ok t := by
  cases o <;> simp_all [okText]

/-- a script of two lines in upper case letters, seen: a foreign frame and the two expected ones -/
example : let f (n : BitVec 29) : Frame := { id := n, isError := false, isRtr := false, isExtended := false,
                                             data := #v[0xab,0xcd,0,0,0,0,0,0], dlc := 2 }
    Pointwise Writes [(f 0x70a, [f 1]), (f 0x70b, [])] [("70A#ABCD".toList, ["1#ABCD".toList]), ("70b#abcd".toList, [])] ∧
    (∀ m ∈ [f 2, f 0x70a, f 0x70b], Printable m) ∧
    Plays [(f 0x70a, [f 1]), (f 0x70b, [])] [f 2, f 0x70a, f 0x70b] [f 1] [] := by
  intro f
  refine ⟨⟨⟨⟨⟨⟨by decide, by decide⟩, by decide⟩, false, okText_eq (by decide +kernel)⟩, ⟨⟨⟨⟨by decide, by decide⟩, by decide⟩, false, okText_eq (by decide +kernel)⟩, trivial⟩⟩,
    ⟨⟨⟨⟨⟨by decide, by decide⟩, by decide⟩, true, okText_eq (by decide +kernel)⟩, trivial⟩, trivial⟩⟩, ?_, ?_⟩
  · intro m hm
    simp only [List.mem_cons, List.not_mem_nil, or_false] at hm
    rcases hm with rfl | rfl | rfl <;> exact ⟨⟨by decide, by decide⟩, by decide⟩
  · refine .other (fun h => absurd h.1 (by decide)) (.expected (sent := []) ?_ (.expected (sent := []) ?_ (.nothing _)))
    · exact ⟨rfl, rfl, rfl, rfl, rfl, fun _ _ _ => rfl⟩
    · exact ⟨rfl, rfl, rfl, rfl, rfl, fun _ _ _ => rfl⟩

end Verif.Props
