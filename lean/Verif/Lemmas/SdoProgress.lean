import Verif.Lemmas.SdoChannel

/-!
# Lemmas for C95: an access over the bus comes to its end
-/

set_option linter.unusedSimpArgs false

namespace Verif.Chan
open Verif Verif.Sdo Verif.OD Verif.Spec.Sdo Verif.Spec.Chan

/-- where a running access stands: it ends after `n` more frames -/
structure StandN (cfg : Config) (sid : Header) (t : Talk) (c' : Client) (s' : Server) (n : Nat) : Prop where
  ndone : c'.done = true
  inbox : t.inbox = []
  few : t.pending.length ≤ 1
  lim : n ≤ 256
  ex : ∃ rest, rest.length = n ∧ Reaches cfg sid t ⟨c', s', [], [], t.read ++ rest⟩ ∧ t.client.loop rest = .ok c'

theorem StandN.stand {cfg : Config} {sid : Header} {t : Talk} {c' : Client} {s' : Server} {n : Nat} (h : StandN cfg sid t c' s' n) :
    Stand cfg sid t c' s' := by
  obtain ⟨rest, h0, h1, h2⟩ := h.ex
  have := h.lim
  exact ⟨h.ndone, h.inbox, h.few, rest, h1, h2, by omega⟩

theorem Stand.standN {cfg : Config} {sid : Header} {t : Talk} {c' : Client} {s' : Server} (h : Stand cfg sid t c' s') :
    ∃ n, n ≤ 256 ∧ StandN cfg sid t c' s' n := by
  obtain ⟨rest, h1, h2, h3⟩ := h.ex
  exact ⟨rest.length, h3, h.ndone, h.inbox, h.few, h3, rest, rfl, h1, h2⟩

theorem standN_turn {cfg : Config} {sid : Header} {t : Talk} {c' : Client} {s' : Server} {n : Nat} (h : StandN cfg sid t c' s' n) (hd : t.client.done = false) :
    ∃ f c go m, n = m + 1 ∧ (t.server.serve cfg sid t.pending).2 = [f] ∧ t.client.processFrame f = .ok (c, go) ∧ (go = false → c.done = true) ∧
      StandN cfg sid ⟨c, (t.server.serve cfg sid t.pending).1, c.sent.drop t.client.sent.length, [], t.read ++ [f]⟩ c' s' m := by
  obtain ⟨rest, hn, hr, hl⟩ := h.ex
  generalize he : (⟨c', s', [], [], t.read ++ rest⟩ : Talk) = e at hr
  cases hr with
  | refl => rw [← he] at hd; have := h.ndone; simp_all
  | @step _ t' _ h1 h2 =>
    have hlen : (t.server.serve cfg sid t.pending).2.length ≤ 1 := by
      have := h.few
      cases hp : t.pending with
      | nil => simp [Server.serve]
      | cons f fs =>
        rw [hp] at this
        have hfs : fs = [] := by cases fs with
          | nil => rfl
          | cons => simp at this
        subst hfs
        simp only [Server.serve, List.append_nil, List.length_map]
        cases (t.server.recv cfg f.data).2 <;> simp
    unfold Talk.turn at h1
    simp only [hd, h.inbox, List.nil_append] at h1
    generalize hs : t.server.serve cfg sid t.pending = r at *
    obtain ⟨sv, fs⟩ := r
    cases fs with
    | nil => simp at h1
    | cons f fs =>
      have hfs : fs = [] := by cases fs with
        | nil => rfl
        | cons => simp at hlen
      subst hfs
      dsimp only at h1
      simp only [Bool.false_eq_true, if_false] at h1
      cases hp : t.client.processFrame f with
      | throws e => cases e
      | ub => rw [hp] at h1; simp at h1
      | ok x =>
        obtain ⟨c, go⟩ := x
        rw [hp] at h1
        simp only [Option.some.injEq] at h1
        subst h1
        obtain ⟨rest', hr'⟩ := reaches_read h2
        rw [← he] at hr'
        have hre : rest = f :: rest' := by
          have : t.read ++ rest = t.read ++ ([f] ++ rest') := by rw [← List.append_assoc]; exact hr'
          simpa using List.append_cancel_left this
        subst hre
        have hg := goes_process _ _ _ _ hp
        obtain ⟨l, hl1, hl2, -⟩ := hg.sent
        refine ⟨f, c, go, rest'.length, by rw [← hn]; simp, rfl, hp, ?_, h.ndone, rfl, ?_, by have := h.lim; simp at hn; omega, rest', rfl, ?_, ?_⟩
        · intro hgo
          subst hgo
          rw [loop_cons_false hd hp] at hl
          cases hl
          exact h.ndone
        · rw [hl2]; simpa using hl1
        · rw [← he] at h2
          simpa using h2
        · cases go with
          | true => rw [loop_cons_true hd hp] at hl; exact hl
          | false =>
            rw [loop_cons_false hd hp] at hl
            cases hl
            have hdn := h.ndone
            cases rest' with
            | nil => simp [Client.loop, hdn]
            | cons => simp [Client.loop, hdn]


/-- an access is running, `n` frames are still to be read, and `a` tells whether the next one is there; `pos` results were there before -/
structure BusyN (cfg : Config) (sid : Header) (l : Link) (pos n : Nat) (a : Bool) : Prop where
  lst : l.ch.listens = some sid.key
  len : l.ch.reader.maxLen = 1
  res : l.results.length = pos
  ex : ∃ k d u t c' s', l.ch.running = some (⟨k, d, u, false⟩, l.ch.client.done) ∧
    l.ch.reader.enabled = true ∧ StandN cfg sid t c' s' n ∧ t.client = l.ch.client ∧ l.seen ≤ l.ch.client.sent.length ∧
    (if a then l.seen = l.ch.client.sent.length ∧ (l.server, l.ch.reader.buffer) = t.server.serve cfg sid t.pending
      else l.ch.client.sent.drop l.seen = t.pending ∧ l.server = t.server ∧ l.ch.reader.buffer = [])

theorem busyN_of_busy {cfg : Config} {sid : Header} {store : Obj → List Byte} {l : Link} (h1 : l.ch.listens = some sid.key) (h2 : l.ch.reader.maxLen = 1)
    (h : Busy cfg sid store l) : ∃ n a, n ≤ 256 ∧ BusyN cfg sid l l.results.length n a := by
  obtain ⟨pre, k, d, u, t, c', s', e1, e2, e3, e4, e5, e6, e7, e8, e9, e10, e11, e12⟩ := h.ex
  obtain ⟨n, hm, hn⟩ := e5.standN
  rcases e12 with e12 | e12
  · exact ⟨n, false, hm, h1, h2, rfl, k, d, u, t, c', s', e3, e4, hn, e6, e11, by simpa using e12⟩
  · exact ⟨n, true, hm, h1, h2, rfl, k, d, u, t, c', s', e3, e4, hn, e6, e11, by simpa using e12⟩

/-- nothing happens to the access -/
theorem busyN_other {cfg : Config} {sid : Header} {l : Link} {pos n : Nat} {a : Bool} (h : BusyN cfg sid l pos n a) (e : LEv)
    (he : (∃ k d u, e = .call k d u) ∨ ∃ f, e = .foreign f) : BusyN cfg sid (l.step cfg sid e) pos n a := by
  obtain ⟨h1, h2, h3, k, d, u, t, c', s', e3, e4, e5, e6, e7, e8⟩ := h
  rcases he with ⟨k', d', u', rfl⟩ | ⟨f, rfl⟩
  · have hx : (l.ch.step (.call k' d' u')).1 = l.ch := by simp [State.step, State.call, e3]
    simp only [Link.step, hx, e3, Option.isNone_some, Bool.false_eq_true, if_false]
    exact ⟨h1, h2, h3, k, d, u, t, c', s', e3, e4, e5, e6, e7, e8⟩
  · simp only [Link.step]
    split
    · exact ⟨h1, h2, h3, k, d, u, t, c', s', e3, e4, e5, e6, e7, e8⟩
    · rename_i hne
      have : (l.ch.step (.arrive f)).1 = l.ch := by
        simp only [State.step, State.arrive]
        rw [if_neg]
        rw [h1]
        intro hx
        exact hne (Option.some.inj hx).symm
      rw [this]
      exact ⟨h1, h2, h3, k, d, u, t, c', s', e3, e4, e5, e6, e7, e8⟩

theorem busyN_serve {cfg : Config} {sid : Header} {l : Link} {pos n : Nat} {a : Bool} (h : BusyN cfg sid l pos n a) :
    (l.ch.client.done = true ∧ l.step cfg sid .serve = l) ∨
    (l.ch.client.done = false ∧ BusyN cfg sid (l.step cfg sid .serve) pos n true ∧ (l.step cfg sid .serve).ch.client.done = false) := by
  obtain ⟨h1, h2, h3, k, d, u, t, c', s', e3, e4, e5, e6, e7, e8⟩ := h
  have hone : ∀ m, l.ch.client.sent.length = m → l.ch.client.sent[m]? = none := by intro m hm; simp [hm]
  have same : l.seen = l.ch.client.sent.length → l.step cfg sid .serve = l := by
    intro hs
    simp only [Link.step, hone _ hs.symm]
  cases hd : l.ch.client.done with
  | true =>
    left
    obtain ⟨q1, q2, q3⟩ := stand_done e5.stand (by rw [e6]; exact hd)
    refine ⟨rfl, same ?_⟩
    cases a with
    | true => exact (by simpa using e8 : _ ∧ _).1
    | false =>
      have := (by simpa using e8 : _ ∧ _).1
      rw [q3] at this
      have := congrArg List.length this
      simp at this
      omega
  | false =>
    right
    refine ⟨rfl, ?_⟩
    cases a with
    | true =>
      have hs := (by simpa using e8 : _ ∧ _)
      rw [same hs.1]
      exact ⟨⟨h1, h2, h3, k, d, u, t, c', s', e3, e4, e5, e6, e7, e8⟩, hd⟩
    | false =>
      obtain ⟨p1, p2, p3⟩ : l.ch.client.sent.drop l.seen = t.pending ∧ l.server = t.server ∧ l.ch.reader.buffer = [] := by simpa using e8
      obtain ⟨f, c, go, m, hm, t1, -⟩ := standN_turn e5 (by rw [e6]; exact hd)
      obtain ⟨g, hpend⟩ : ∃ g, t.pending = [g] := by
        have := e5.few
        cases hp : t.pending with
        | nil => rw [hp] at t1; simp [Server.serve] at t1
        | cons g gs =>
          rw [hp] at this
          cases gs with
          | nil => exact ⟨g, rfl⟩
          | cons => simp at this
      rw [hpend] at p1
      have hget : l.ch.client.sent[l.seen]? = some g := by
        have := congrArg (fun x => x[0]?) p1
        simpa using this
      have hend : l.seen + 1 = l.ch.client.sent.length := by
        have := congrArg List.length p1
        simp at this
        omega
      rw [hpend] at t1
      have hserve : t.server.serve cfg sid [g] =
          ((l.server.recv cfg g.data).1, (l.server.recv cfg g.data).2.toList.map fun d => (⟨sid, d, 8⟩ : Frame)) := by
        rw [← p2]
        simp [Server.serve]
      simp only [Link.step, hget]
      cases ha : (l.server.recv cfg g.data).2 with
      | none => rw [hserve, ha] at t1; simp at t1
      | some x =>
        have hx : (l.ch.step (.arrive ⟨sid, x, 8⟩)).1 = { l.ch with reader := l.ch.reader.handleFrame ⟨sid, x, 8⟩ } := by
          simp only [State.step, State.arrive]
          exact if_pos h1
        dsimp only
        rw [hx]
        refine ⟨⟨h1, (handleFrame_enabled _ _).2.trans h2, h3, k, d, u, t, c', s', e3, (handleFrame_enabled _ _).1.trans e4, e5, e6, by dsimp only; omega, ?_⟩,
          hd⟩
        simp only [if_true]
        refine ⟨hend, ?_⟩
        rw [hpend, hserve, ha, handleFrame_one _ _ e4 h2 p3]
        rfl

theorem busyN_take {cfg : Config} {sid : Header} {l : Link} {pos n : Nat} {a : Bool} (h : BusyN cfg sid l pos n a) :
    ((a = false ∨ l.ch.client.done = true) ∧ l.step cfg sid .take = l) ∨
    (a = true ∧ l.ch.client.done = false ∧ ∃ m, n = m + 1 ∧ BusyN cfg sid (l.step cfg sid .take) pos m false) := by
  obtain ⟨h1, h2, h3, k, d, u, t, c', s', e3, e4, e5, e6, e7, e8⟩ := h
  have same : l.ch.take = l.ch → l.step cfg sid .take = l := by
    intro hx; simp only [Link.step, State.step, hx]
  cases hd : l.ch.client.done with
  | true => left; exact ⟨Or.inr rfl, same (by simp [State.take, e3, hd])⟩
  | false =>
    cases a with
    | false =>
      have := (by simpa using e8 : _ ∧ _ ∧ l.ch.reader.buffer = []).2.2
      left
      exact ⟨Or.inl rfl, same (by simp [State.take, e3, Rd.Reader.readUntil, this])⟩
    | true =>
      right
      obtain ⟨p1, p2⟩ : l.seen = l.ch.client.sent.length ∧ (l.server, l.ch.reader.buffer) = t.server.serve cfg sid t.pending := by simpa using e8
      obtain ⟨f, c, go, m, hm, t1, t2, t3, t4⟩ := standN_turn e5 (by rw [e6]; exact hd)
      rw [← p2] at t1 t4
      dsimp only at t1 t4
      rw [e6] at t2 t4
      have hx : l.ch.take = { l.ch with client := c, reader := { l.ch.reader with buffer := [] }, running := some (⟨k, d, u, false⟩, c.done || !go) } := by
        simp [State.take, e3, hd, Rd.Reader.readUntil, t1, t2]
      have hfl : (c.done || !go) = c.done := by
        cases go with
        | true => simp
        | false => simp [t3 rfl]
      have hg := goes_process _ _ _ _ t2
      obtain ⟨ls, -, hls, -⟩ := hg.sent
      refine ⟨rfl, rfl, m, hm, ?_⟩
      simp only [Link.step, State.step, hx, hfl]
      refine ⟨h1, h2, h3, k, d, u, _, c', s', rfl, e4, t4, rfl, ?_, ?_⟩
      · dsimp only; rw [p1, hls]; simp
      · simp only [Bool.false_eq_true, if_false]
        exact ⟨by rw [p1], by first | rfl | trivial, by first | rfl | trivial⟩

theorem busyN_leave {cfg : Config} {sid : Header} {l : Link} {pos n : Nat} {a : Bool} (h : BusyN cfg sid l pos n a) :
    (l.ch.client.done = false ∧ l.step cfg sid .leave = l) ∨ (l.ch.client.done = true ∧ (l.step cfg sid .leave).results.length = pos + 1) := by
  obtain ⟨h1, h2, h3, k, d, u, t, c', s', e3, e4, e5, e6, e7, e8⟩ := h
  cases hd : l.ch.client.done with
  | false =>
    left
    have : l.ch.leave = (l.ch, []) := by simp [State.leave, e3, hd]
    exact ⟨rfl, by simp only [Link.step, State.step, this, List.append_nil]⟩
  | true =>
    right
    refine ⟨rfl, ?_⟩
    simp only [Link.step, State.step, State.leave, e3, hd, List.length_append, h3, List.length_singleton]

/-- results never get fewer -/
theorem results_step (cfg : Config) (sid : Header) (l : Link) (e : LEv) : l.results.length ≤ (l.step cfg sid e).results.length := by
  cases e with
  | serve => simp only [Link.step]; grind
  | call => simp [Link.step]
  | take => simp [Link.step]
  | leave => simp [Link.step]
  | foreign f => simp only [Link.step]; grind

theorem results_run (cfg : Config) (sid : Header) (es : List LEv) (l : Link) : l.results.length ≤ (l.run cfg sid es).results.length := by
  induction es generalizing l with
  | nil => exact Nat.le_refl _
  | cons e es ih => exact Nat.le_trans (results_step cfg sid l e) (ih _)

/-- any events: the access has returned, or it is not further from its end -/
theorem busyN_any {cfg : Config} {sid : Header} (es : List LEv) {l : Link} {pos n : Nat} {a : Bool} (h : BusyN cfg sid l pos n a) :
    pos < (l.run cfg sid es).results.length ∨
    ((∃ m a', BusyN cfg sid (l.run cfg sid es) pos m a' ∧ (m < n ∨ (m = n ∧ (a = true → a' = true)))) ∧
      (l.ch.client.done = true → l.run cfg sid es = l)) := by
  induction es generalizing l n a with
  | nil => exact Or.inr ⟨⟨n, a, h, Or.inr ⟨rfl, id⟩⟩, fun _ => rfl⟩
  | cons e es ih =>
    have next : ∀ m a', BusyN cfg sid (l.step cfg sid e) pos m a' → (m < n ∨ (m = n ∧ (a = true → a' = true))) →
        (l.ch.client.done = true → l.step cfg sid e = l) → pos < (l.run cfg sid (e :: es)).results.length ∨
        ((∃ m a', BusyN cfg sid (l.run cfg sid (e :: es)) pos m a' ∧ (m < n ∨ (m = n ∧ (a = true → a' = true)))) ∧
          (l.ch.client.done = true → l.run cfg sid (e :: es) = l)) := by
      intro m a' hb hm hd
      rcases ih hb with h1 | ⟨⟨m2, a2, h2, h3⟩, h4⟩
      · exact Or.inl h1
      · refine Or.inr ⟨⟨m2, a2, h2, by grind⟩, fun hx => ?_⟩
        have := hd hx
        show (l.step cfg sid e).run cfg sid es = l
        rw [h4 (by rw [this]; exact hx), this]
    have stay : l.step cfg sid e = l → pos < (l.run cfg sid (e :: es)).results.length ∨
        ((∃ m a', BusyN cfg sid (l.run cfg sid (e :: es)) pos m a' ∧ (m < n ∨ (m = n ∧ (a = true → a' = true)))) ∧
          (l.ch.client.done = true → l.run cfg sid (e :: es) = l)) :=
      fun hx => next n a (by rw [hx]; exact h) (Or.inr ⟨rfl, id⟩) (fun _ => hx)
    cases e with
    | serve =>
      rcases busyN_serve h with ⟨-, h2⟩ | ⟨h1, h2, -⟩
      · exact stay h2
      · exact next n true h2 (Or.inr ⟨rfl, fun _ => rfl⟩) (fun hx => by rw [h1] at hx; cases hx)
    | take =>
      rcases busyN_take h with ⟨-, h2⟩ | ⟨-, h1, m, hm, h2⟩
      · exact stay h2
      · exact next m false h2 (Or.inl (by omega)) (fun hx => by rw [h1] at hx; cases hx)
    | leave =>
      rcases busyN_leave h with ⟨-, h2⟩ | ⟨-, h2⟩
      · exact stay h2
      · left
        have := results_run cfg sid es (l.step cfg sid .leave)
        show pos < ((l.step cfg sid .leave).run cfg sid es).results.length
        omega
    | call k d u =>
      refine next n a (busyN_other h _ (Or.inl ⟨k, d, u, rfl⟩)) (Or.inr ⟨rfl, id⟩) (fun _ => ?_)
      obtain ⟨h1, h2, h3, k', d', u', t, c', s', e3, -⟩ := h
      have hx : (l.ch.step (.call k d u)).1 = l.ch := by simp [State.step, State.call, e3]
      simp only [Link.step, hx, e3, Option.isNone_some, Bool.false_eq_true, if_false]
    | foreign f =>
      refine next n a (busyN_other h _ (Or.inr ⟨f, rfl⟩)) (Or.inr ⟨rfl, id⟩) (fun _ => ?_)
      have h1 := h.lst
      simp only [Link.step]
      split
      · rfl
      · rename_i hne
        have : (l.ch.step (.arrive f)).1 = l.ch := by
          simp only [State.step, State.arrive]
          rw [if_neg]
          rw [h1]
          intro hx
          exact hne (Option.some.inj hx).symm
        rw [this]

theorem run_append (cfg : Config) (sid : Header) (l : Link) (a b : List LEv) : l.run cfg sid (a ++ b) = (l.run cfg sid a).run cfg sid b := by
  simp [Link.run]

/-- a round in which the server gets to work and then the call: the access has returned, or is done, or has come nearer to its end -/
theorem busyN_round {cfg : Config} {sid : Header} (r : List LEv) (hr : [LEv.serve, LEv.take].Sublist r) {l : Link} {pos n : Nat} {a : Bool}
    (h : BusyN cfg sid l pos n a) :
    pos < (l.run cfg sid r).results.length ∨ ∃ m a', BusyN cfg sid (l.run cfg sid r) pos m a' ∧ ((l.run cfg sid r).ch.client.done = true ∨ m < n) := by
  obtain ⟨x, y, rfl, hx, hy⟩ : ∃ x y, r = x ++ y ∧ LEv.serve ∈ x ∧ LEv.take ∈ y := by
    rw [show [LEv.serve, LEv.take] = [LEv.serve] ++ [LEv.take] from rfl, List.append_sublist_iff] at hr
    obtain ⟨x, y, h1, h2, h3⟩ := hr
    exact ⟨x, y, h1, by simpa using h2, by simpa using h3⟩
  obtain ⟨x1, x2, rfl⟩ := List.append_of_mem hx
  obtain ⟨y1, y2, rfl⟩ := List.append_of_mem hy
  -- before serve
  rw [show (x1 ++ LEv.serve :: x2) ++ (y1 ++ LEv.take :: y2) = x1 ++ (LEv.serve :: ((x2 ++ y1) ++ (LEv.take :: y2))) by simp]
  rw [run_append]
  rcases busyN_any x1 h with h1 | ⟨⟨m1, a1, b1, c1⟩, -⟩
  · left; exact Nat.lt_of_lt_of_le h1 (results_run _ _ _ _)
  generalize l.run cfg sid x1 = l1 at *
  rcases busyN_serve b1 with ⟨hd, -⟩ | ⟨hd, b2, hd2⟩
  · rcases busyN_any (LEv.serve :: ((x2 ++ y1) ++ (LEv.take :: y2))) b1 with h2 | ⟨⟨m2, a2, b2, c2⟩, hs⟩
    · exact Or.inl h2
    · exact Or.inr ⟨m2, a2, b2, Or.inl (by rw [hs hd]; exact hd)⟩
  show pos < ((l1.step cfg sid .serve).run cfg sid _).results.length ∨ ∃ m a', BusyN cfg sid ((l1.step cfg sid .serve).run cfg sid _) pos m a' ∧ _
  rw [show (l1.run cfg sid (LEv.serve :: ((x2 ++ y1) ++ (LEv.take :: y2)))) = (l1.step cfg sid .serve).run cfg sid ((x2 ++ y1) ++ (LEv.take :: y2)) from rfl]
  generalize l1.step cfg sid .serve = l2 at *
  rw [run_append]
  rcases busyN_any (x2 ++ y1) b2 with h3 | ⟨⟨m3, a3, b3, c3⟩, -⟩
  · left; exact Nat.lt_of_lt_of_le h3 (results_run _ _ _ _)
  generalize l2.run cfg sid (x2 ++ y1) = l3 at *
  rw [show (l3.run cfg sid (LEv.take :: y2)) = (l3.step cfg sid .take).run cfg sid y2 from rfl]
  rcases busyN_take b3 with ⟨hh, hs⟩ | ⟨-, -, m4, hm4, b4⟩
  · rw [hs]
    rcases busyN_any y2 b3 with h5 | ⟨⟨m5, a5, b5, c5⟩, hs5⟩
    · exact Or.inl h5
    · right
      refine ⟨m5, a5, b5, ?_⟩
      cases hd3 : l3.ch.client.done with
      | true => left; rw [hs5 hd3]; exact hd3
      | false => right; grind
  · rcases busyN_any y2 b4 with h5 | ⟨⟨m5, a5, b5, c5⟩, -⟩
    · exact Or.inl h5
    · exact Or.inr ⟨m5, a5, b5, Or.inr (by grind)⟩

theorem busyN_zero {cfg : Config} {sid : Header} {l : Link} {pos n : Nat} {a : Bool} (b : BusyN cfg sid l pos n a) (hz : n = 0) : l.ch.client.done = true := by
  obtain ⟨-, -, -, k, d, u, t, c', s', e3, e4, e5, e6, e7, e8⟩ := b
  cases hd : l.ch.client.done with
  | true => rfl
  | false =>
    obtain ⟨_, _, _, m', hm', -⟩ := standN_turn e5 (by rw [e6]; exact hd)
    omega

/-- enough rounds -/
theorem busyN_rounds {cfg : Config} {sid : Header} (rounds : List (List LEv)) (hr : ∀ r ∈ rounds, [LEv.serve, LEv.take].Sublist r) {l : Link} {pos n : Nat}
    {a : Bool} (h : BusyN cfg sid l pos n a) (hn : n ≤ rounds.length) (h0 : n = 0 → l.ch.client.done = true) :
    pos < (l.run cfg sid (rounds.flatten ++ [.leave])).results.length := by
  induction rounds generalizing l n a with
  | nil =>
    have := h0 (by simpa using hn)
    rcases busyN_leave h with ⟨h1, -⟩ | ⟨-, h1⟩
    · rw [h1] at this; cases this
    · show pos < (l.step cfg sid .leave).results.length
      omega
  | cons r rs ih =>
    rw [List.flatten_cons, List.append_assoc, run_append]
    rcases busyN_round r (hr r (by simp)) h with h1 | ⟨m, a', b, hm⟩
    · exact Nat.lt_of_lt_of_le h1 (results_run _ _ _ _)
    · rcases hm with hm | hm
      · rcases busyN_any (rs.flatten) b with h2 | ⟨-, h3⟩
        · rw [run_append]
          exact Nat.lt_of_lt_of_le h2 (results_run _ _ _ _)
        · rw [run_append, h3 hm]
          rcases busyN_leave b with ⟨h1, -⟩ | ⟨-, h1⟩
          · rw [h1] at hm; cases hm
          · show pos < ((l.run cfg sid r).step cfg sid .leave).results.length
            omega
      · refine ih (fun x hx => hr x (by simp [hx])) b (by simp at hn; omega) ?_
        exact busyN_zero b

end Verif.Chan
