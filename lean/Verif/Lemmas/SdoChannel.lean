import Verif.Spec.SdoChannel
import Verif.Lemmas.SdoMore
import Verif.Lemmas.SdoDown
import Verif.Lemmas.SdoUp
import Verif.Lemmas.Reader

/-! # Lemmas about the SDO channel -/

set_option linter.unusedSimpArgs false

namespace Verif.Chan
open Verif Verif.Sdo Verif.OD Verif.Spec.Sdo Verif.Spec.Chan

/-- what a step of the client leaves alone, and what it sends -/
structure Goes (c c' : Client) : Prop where
  cur : c'.current = c.current
  cid : c'.clientId = c.clientId
  sent : ∃ l : List Frame, l.length ≤ 1 ∧ c'.sent = c.sent ++ l ∧ ∀ g ∈ l, g.toHeader = c.clientId

theorem Goes.refl (c : Client) : Goes c c := ⟨rfl, rfl, [], by simp, by simp, by simp⟩

theorem goes_abort (c : Client) (rs : BitVec 32) : Goes c (c.abort rs) := by
  unfold Client.abort
  split
  · exact Goes.refl c
  · exact ⟨rfl, rfl, [_], by simp, rfl, by simp [abortRequest, frame]⟩

theorem goes_refuse (c : Client) (rs : BitVec 32) : Goes c (c.refuse rs).1 := by
  obtain ⟨h1, h2, h3⟩ := goes_abort c rs
  exact ⟨h1, h2, h3⟩

theorem header_downloadSegment {h : Header} {tg : Bool} {b : List Byte} {o : Nat} {r : Frame × Nat} (e : downloadSegment h tg b o = some r) : r.1.toHeader = h := by
  unfold downloadSegment at e
  dsimp only at e
  repeat' split at e
  all_goals first | cases e | skip
  all_goals rfl

theorem header_downloadInit {h : Header} {k : Obj} {b : List Byte} {r : Frame × Nat} (e : downloadInit h k b = some r) : r.1.toHeader = h := by
  unfold downloadInit at e
  repeat' split at e
  all_goals first | cases e | skip
  all_goals rfl

theorem goes_next (c : Client) (tg : Bool) (c' : Client) (go : Bool) (h : c.nextDownload tg = .ok (c', go)) : Goes c c' := by
  unfold Client.nextDownload at h
  repeat' split at h
  all_goals first | (cases h; done) | skip
  all_goals (simp only [Outcome.ok.injEq, Prod.mk.injEq] at h; obtain ⟨rfl, -⟩ := h)
  · rename_i hs
    exact ⟨rfl, rfl, [_], by simp, rfl, by simpa using header_downloadSegment hs⟩
  · exact ⟨rfl, rfl, [], by simp, by simp, by simp⟩

/-- identity, channel and sent frames stay -/
structure Stays (c c' : Client) : Prop where
  cur : c'.current = c.current
  cid : c'.clientId = c.clientId
  sent : c'.sent = c.sent

theorem stays_takeSize (c : Client) (d : Bytes8) : Stays c (c.takeSize d) := by
  unfold Client.takeSize
  split <;> exact ⟨rfl, rfl, rfl⟩

theorem stays_grow (c : Client) (n : Nat) : Stays c (c.grow n) := by
  unfold Client.grow
  split <;> exact ⟨rfl, rfl, rfl⟩

theorem stays_readInit (c : Client) (d : Bytes8) (c' : Client) (b : Bool) (h : c.readInit d = .ok (c', b)) : Stays c c' := by
  have hs := stays_takeSize c d
  unfold Client.readInit at h
  dsimp only at h
  generalize c.takeSize d = t at *
  repeat' split at h
  all_goals first | (cases h; done) | skip
  all_goals (simp only [Outcome.ok.injEq, Prod.mk.injEq] at h; obtain ⟨rfl, -⟩ := h; exact ⟨hs.1, hs.2, hs.3⟩)

theorem stays_readSegment (c : Client) (d : Bytes8) (c' : Client) (b : Bool) (h : c.readSegment d = .ok (c', b)) : Stays c c' := by
  have hs := stays_grow c (segSize d)
  unfold Client.readSegment at h
  dsimp only at h
  generalize c.grow (segSize d) = t at *
  repeat' split at h
  all_goals first | (cases h; done) | skip
  all_goals (simp only [Outcome.ok.injEq, Prod.mk.injEq] at h; obtain ⟨rfl, -⟩ := h; exact ⟨hs.1, hs.2, hs.3⟩)

theorem Goes.after {c c1 c2 : Client} (h : Stays c c1) (g : Goes c1 c2) : Goes c c2 := by
  obtain ⟨l, h1, h2, h3⟩ := g.sent
  exact ⟨g.cur.trans h.cur, g.cid.trans h.cid, l, h1, by rw [h2, h.sent], fun f hf => (h3 f hf).trans h.cid⟩

theorem goes_process (c : Client) (f : Frame) (c' : Client) (go : Bool) (h : c.processFrame f = .ok (c', go)) : Goes c c' := by
  have done : ∀ c : Client, Goes c { c with done := true } := fun c => ⟨rfl, rfl, [], by simp, by simp, by simp⟩
  have seg : ∀ (c : Client) (tg : Bool), Goes c (c.post (uploadSegment c.clientId tg)) := fun c tg => ⟨rfl, rfl, [_], by simp, rfl, by simp [uploadSegment, frame]⟩
  have ref : ∀ (c c' : Client) (go : Bool) (rs : BitVec 32), c.refuse rs = (c', go) → Goes c c' := fun c c' go rs h => by
    have := goes_refuse c rs; rw [h] at this; exact this
  unfold Client.processFrame at h
  split at h
  · cases h; exact Goes.refl c
  split at h
  · split at h
    · exact ref _ _ _ _ (Outcome.ok.inj h)
    · exact goes_next c _ c' go h
  split at h
  · split at h
    · exact ref _ _ _ _ (Outcome.ok.inj h)
    · exact goes_next c _ c' go h
  split at h
  · split at h
    · exact ref _ _ _ _ (Outcome.ok.inj h)
    · cases hr : c.readInit f.data with
      | ub => rw [hr] at h; cases h
      | throws e => cases e
      | ok r =>
        obtain ⟨c1, b⟩ := r
        rw [hr] at h
        have hs := stays_readInit c _ c1 b hr
        cases b <;> (cases h; first | exact Goes.after hs (done _) | exact Goes.after hs (seg _ _))
  split at h
  · split at h
    · exact ref _ _ _ _ (Outcome.ok.inj h)
    · cases hr : c.readSegment f.data with
      | ub => rw [hr] at h; cases h
      | throws e => cases e
      | ok r =>
        obtain ⟨c1, b⟩ := r
        rw [hr] at h
        have hs := stays_readSegment c _ c1 b hr
        cases b
        · exact Goes.after hs (ref _ _ _ _ (Outcome.ok.inj h))
        · unfold afterSegment at h
          dsimp only at h
          split at h <;> (cases h; first | exact Goes.after hs (done _) | exact Goes.after hs (seg _ _))
  split at h
  · cases h; exact ⟨rfl, rfl, [], by simp, by simp, by simp⟩
  · cases h; exact Goes.refl c

theorem begin_goes (c : Client) (k : Obj) (d : List Byte) (u : Bool) (c' : Client) (h : c.begin k d u = .ok c') :
    c'.current = some k ∧ c'.clientId = c.clientId ∧ c'.done = false ∧ c'.sent = c.sent ++ [c'.lastMsg] ∧ c'.lastMsg.toHeader = c.clientId := by
  unfold Client.begin at h
  dsimp only at h
  split at h
  · cases h; exact ⟨rfl, rfl, rfl, rfl, rfl⟩
  · split at h
    · cases h
    · rename_i hd
      cases h
      exact ⟨rfl, rfl, rfl, rfl, header_downloadInit hd⟩

theorem begin_ok (c : Client) (k : Obj) (d : List Byte) (u : Bool) : ∃ c', c.begin k d u = .ok c' := by
  cases u with
  | true => exact ⟨_, rfl⟩
  | false =>
    obtain ⟨c1, b1, -⟩ := begin_download c k d
    exact ⟨c1, b1⟩

theorem Fed.snoc {c c' c'' : Client} {fs : List Frame} {f : Frame} (h : Fed c fs c') (hd : c'.done = false) (hp : c'.processFrame f = .ok (c'', true)) :
    Fed c (fs ++ [f]) c'' := by
  induction h with
  | nil => exact .cons hd hp .nil
  | cons h1 h2 _ ih => exact .cons h1 h2 (ih hd hp)

theorem trimLoop_suffix {α : Type} (n : Nat) (l : List α) : Rd.trimLoop n l <:+ l := by
  induction l with
  | nil => exact List.suffix_refl _
  | cons x xs ih =>
    unfold Rd.trimLoop
    split
    · exact ih.trans (List.suffix_cons _ _)
    · exact List.suffix_refl _

theorem handleFrame_suffix {α : Type} (r : Rd.Reader α) (f : α) : (r.handleFrame f).buffer <:+ r.buffer ++ [f] ∨ (r.handleFrame f).buffer = r.buffer := by
  unfold Rd.Reader.handleFrame Rd.Reader.trim
  split
  · left
    dsimp only
    split
    · exact trimLoop_suffix _ _
    · exact List.suffix_refl _
  · exact Or.inr rfl

theorem handleFrame_enabled {α : Type} (r : Rd.Reader α) (f : α) : (r.handleFrame f).enabled = r.enabled ∧ (r.handleFrame f).maxLen = r.maxLen := by
  unfold Rd.Reader.handleFrame Rd.Reader.trim
  repeat' split
  all_goals exact ⟨rfl, rfl⟩

/-- a call of client `c0` is running and has used some of the frames in `pool` -/
structure During (c0 : Client) (k : Call) (pool : List Frame) (s : State) : Prop where
  cur : s.client.current = some k.key
  ex : ∃ used c1, c0.begin k.key k.data k.upload = .ok c1 ∧ (used ++ s.reader.buffer).Sublist pool ∧
    ((s.running = some (k, false) ∧ Fed c1 used s.client ∧ s.client.done = false) ∨ (s.running = some (k, true) ∧ c1.loop used = .ok s.client))

theorem during_step (c0 : Client) (k : Call) (pool : List Frame) (s : State) (e : Ev) (h : During c0 k pool s) (hi : Inner e) :
    During c0 k (pool ++ arrivals s.listens [e]) (s.step e).1 ∧ (s.step e).1.listens = s.listens ∧
      ((s.step e).2 = [] ∨ ∃ k' u', e = .busy k' u') := by
  obtain ⟨hc, used, c1, hb, hs, hr⟩ := h
  have hrun : s.running ≠ none := by rcases hr with h | h <;> rw [h.1] <;> simp
  cases e with
  | init d n => cases hi
  | leave => cases hi
  | arrive f =>
    simp only [State.step, State.arrive, arrivals]
    split
    · refine ⟨⟨hc, used, c1, hb, ?_, hr⟩, by simp, by simp⟩
      rcases handleFrame_suffix s.reader f with h1 | h1
      · have : (used ++ (s.reader.handleFrame f).buffer).Sublist (used ++ (s.reader.buffer ++ [f])) := List.Sublist.append (List.Sublist.refl _) h1.sublist
        refine this.trans ?_
        rw [← List.append_assoc]
        exact List.Sublist.append hs (List.Sublist.refl _)
      · rw [h1]
        exact hs.trans (List.sublist_append_left _ _)
    · exact ⟨⟨hc, used, c1, hb, by simpa using hs, hr⟩, rfl, by simp⟩
  | call k' d u =>
    simp only [State.step, State.call, arrivals, List.append_nil]
    cases hx : s.running with
    | none => exact absurd hx hrun
    | some x => exact ⟨⟨hc, used, c1, hb, hs, hr⟩, rfl, by simp⟩
  | busy k' u => exact ⟨⟨hc, used, c1, hb, hs.trans (List.sublist_append_left _ _), hr⟩, rfl, Or.inr ⟨_, _, rfl⟩⟩
  | take =>
    simp only [State.step, State.take, arrivals, List.append_nil]
    rcases hr with ⟨hr, hf, hd⟩ | ⟨hr, hl⟩
    · rw [hr]
      cases hbuf : s.reader.buffer with
      | nil =>
        simp only [Rd.Reader.readUntil, hbuf]
        exact ⟨⟨hc, used, c1, hb, hs, Or.inl ⟨hr, hf, hd⟩⟩, by simp, by simp⟩
      | cons f fs =>
        simp only [Rd.Reader.readUntil, hbuf, if_true]
        have hs' : (used ++ [f] ++ fs).Sublist pool := by rw [hbuf] at hs; simpa using hs
        cases hp : s.client.processFrame f with
        | throws e => cases e
        | ub => exact ⟨⟨hc, used, c1, hb, hs, Or.inl ⟨hr, hf, hd⟩⟩, rfl, by simp⟩
        | ok r =>
          obtain ⟨c', go⟩ := r
          have hg := goes_process s.client f c' go hp
          refine ⟨⟨hg.cur.trans hc, used ++ [f], c1, hb, hs', ?_⟩, rfl, by simp⟩
          cases go with
          | false =>
            right
            refine ⟨by simp, ?_⟩
            rw [hf.loop_append [f]]
            simp [Client.loop, hd, hp]
          | true =>
            have hf' := Fed.snoc hf hd hp
            cases hd' : c'.done with
            | false => left; dsimp only; rw [hd']; exact ⟨rfl, hf', rfl⟩
            | true =>
              right
              refine ⟨by simp [hd'], ?_⟩
              have := hf'.loop_append []
              rw [List.append_nil] at this
              rw [this]
              simp [Client.loop, hd']
    · rw [hr]
      exact ⟨⟨hc, used, c1, hb, hs, Or.inr ⟨hr, hl⟩⟩, rfl, by simp⟩
  | expire =>
    simp only [State.step, State.expire, arrivals, List.append_nil]
    rcases hr with ⟨hr, hf, hd⟩ | ⟨hr, hl⟩
    · rw [hr]
      cases hbuf : s.reader.buffer with
      | nil =>
        refine ⟨⟨(goes_abort _ _).cur.trans hc, used, c1, hb, by simpa [hbuf] using hs, Or.inr ⟨rfl, ?_⟩⟩, rfl, by simp⟩
        have := hf.loop_append []
        rw [List.append_nil] at this
        rw [this]
        simp [Client.loop, hd]
      | cons f fs => exact ⟨⟨hc, used, c1, hb, hs, Or.inl ⟨hr, hf, hd⟩⟩, rfl, by simp⟩
    · rw [hr]
      exact ⟨⟨hc, used, c1, hb, hs, Or.inr ⟨hr, hl⟩⟩, rfl, by simp⟩

theorem arrivals_cons (key : Option (BitVec 32)) (e : Ev) (es : List Ev) : arrivals key (e :: es) = arrivals key [e] ++ arrivals key es := by
  cases e <;> simp only [arrivals, List.nil_append]
  split <;> simp

theorem during_run (c0 : Client) (k : Call) (es : List Ev) (pool : List Frame) (s : State) (h : During c0 k pool s) (hi : ∀ e ∈ es, Inner e) :
    During c0 k (pool ++ arrivals s.listens es) (s.run es).1 ∧ (s.run es).1.listens = s.listens ∧ ∀ r ∈ (s.run es).2, r.out = .throws .timeout := by
  induction es generalizing pool s with
  | nil => exact ⟨by simpa [arrivals, State.run] using h, rfl, by simp [State.run]⟩
  | cons e es ih =>
    obtain ⟨h1, h2, h3⟩ := during_step c0 k pool s e h (hi e (by simp))
    obtain ⟨h4, h5, h6⟩ := ih _ _ h1 (fun x hx => hi x (by simp [hx]))
    refine ⟨?_, h5.trans h2, ?_⟩
    · rw [arrivals_cons, ← List.append_assoc, ← h2]
      rw [h2] at h4 ⊢
      exact h4
    · intro r hr
      simp only [State.run, List.mem_append] at hr
      rcases hr with hr | hr
      · rcases h3 with h3 | ⟨k', u', rfl⟩
        · rw [h3] at hr; cases hr
        · simp only [State.step, List.mem_singleton] at hr
          rw [hr]
      · exact h6 r hr

theorem during_call (s : State) (hr : s.running = none) (k : Obj) (d : List Byte) (u : Bool) :
    During s.client ⟨k, d, u, s.reader.enabled⟩ s.reader.buffer (s.call k d u) ∧ (s.call k d u).listens = s.listens := by
  obtain ⟨c1, hb⟩ := begin_ok s.client k d u
  obtain ⟨g1, g2, g3, g4, g5⟩ := begin_goes _ _ _ _ _ hb
  simp only [State.call, hr, hb]
  exact ⟨⟨g1, [], c1, hb, List.Sublist.refl _, Or.inl ⟨rfl, .nil, g3⟩⟩, trivial⟩

/-! ## a link with a conforming server -/

theorem reaches_read {cfg : Config} {sid : Header} {t e : Talk} (h : Reaches cfg sid t e) : ∃ rest, e.read = t.read ++ rest := by
  induction h with
  | refl t => exact ⟨[], by simp⟩
  | @step t t' t'' h1 _ ih =>
    obtain ⟨rest, ih⟩ := ih
    unfold Talk.turn at h1
    dsimp only at h1
    repeat' split at h1
    all_goals first | (cases h1; done) | skip
    cases h1
    exact ⟨_, by rw [ih, List.append_assoc]⟩

/-- where a running access stands: it ends in `c'` and `s'` -/
structure Stand (cfg : Config) (sid : Header) (t : Talk) (c' : Client) (s' : Server) : Prop where
  ndone : c'.done = true
  inbox : t.inbox = []
  few : t.pending.length ≤ 1
  ex : ∃ rest, Reaches cfg sid t ⟨c', s', [], [], t.read ++ rest⟩ ∧ t.client.loop rest = .ok c' ∧ rest.length ≤ 256

theorem stand_done {cfg : Config} {sid : Header} {t : Talk} {c' : Client} {s' : Server} (h : Stand cfg sid t c' s') (hd : t.client.done = true) :
    t.client = c' ∧ t.server = s' ∧ t.pending = [] := by
  obtain ⟨rest, hr, -, -⟩ := h.ex
  generalize he : (⟨c', s', [], [], t.read ++ rest⟩ : Talk) = e at hr
  cases hr with
  | refl => rw [← he]; exact ⟨rfl, rfl, rfl⟩
  | step h1 _ => simp [Talk.turn, hd] at h1

theorem stand_turn {cfg : Config} {sid : Header} {t : Talk} {c' : Client} {s' : Server} (h : Stand cfg sid t c' s') (hd : t.client.done = false) :
    ∃ f c go, (t.server.serve cfg sid t.pending).2 = [f] ∧ t.client.processFrame f = .ok (c, go) ∧ (go = false → c.done = true) ∧
      Stand cfg sid ⟨c, (t.server.serve cfg sid t.pending).1, c.sent.drop t.client.sent.length, [], t.read ++ [f]⟩ c' s' := by
  obtain ⟨rest, hr, hl, hlim⟩ := h.ex
  generalize he : (⟨c', s', [], [], t.read ++ rest⟩ : Talk) = e at hr
  cases hr with
  | refl => rw [← he] at hd; have := h.ndone; simp_all
  | @step _ t' _ h1 h2 =>
    have hlen : (t.server.serve cfg sid t.pending).2.length ≤ 1 := by
      have := h.few
      cases hp : t.pending with
      | nil => simp [Server.serve]
      | cons f fs =>
        rw [hp] at this
        have hfs : fs = [] := by cases fs with
          | nil => rfl
          | cons => simp at this
        subst hfs
        simp only [Server.serve, List.append_nil, List.length_map]
        cases (t.server.recv cfg f.data).2 <;> simp
    unfold Talk.turn at h1
    simp only [hd, h.inbox, List.nil_append] at h1
    generalize hs : t.server.serve cfg sid t.pending = r at *
    obtain ⟨sv, fs⟩ := r
    cases fs with
    | nil => simp at h1
    | cons f fs =>
      have hfs : fs = [] := by cases fs with
        | nil => rfl
        | cons => simp at hlen
      subst hfs
      dsimp only at h1
      simp only [Bool.false_eq_true, if_false] at h1
      cases hp : t.client.processFrame f with
      | throws e => cases e
      | ub => rw [hp] at h1; simp at h1
      | ok x =>
        obtain ⟨c, go⟩ := x
        rw [hp] at h1
        simp only [Option.some.injEq] at h1
        subst h1
        obtain ⟨rest', hr'⟩ := reaches_read h2
        rw [← he] at hr'
        have hre : rest = f :: rest' := by
          have : t.read ++ rest = t.read ++ ([f] ++ rest') := by rw [← List.append_assoc]; exact hr'
          simpa using List.append_cancel_left this
        subst hre
        have hg := goes_process _ _ _ _ hp
        obtain ⟨l, hl1, hl2, -⟩ := hg.sent
        refine ⟨f, c, go, rfl, hp, ?_, h.ndone, rfl, ?_, rest', ?_, ?_, by rw [List.length_cons] at hlim; omega⟩
        · intro hgo
          subst hgo
          rw [loop_cons_false hd hp] at hl
          cases hl
          exact h.ndone
        · rw [hl2]; simpa using hl1
        · rw [← he] at h2
          simpa using h2
        · cases go with
          | true => rw [loop_cons_true hd hp] at hl; exact hl
          | false =>
            rw [loop_cons_false hd hp] at hl
            cases hl
            have hdn := h.ndone
            cases rest' with
            | nil => simp [Client.loop, hdn]
            | cons => simp [Client.loop, hdn]

theorem stand_begin (cfg : Config) (hcfg : cfg.Legal) (sid : Header) (c0 : Client) (s : Server) (a : Obj × List Byte × Bool)
    (hp : Proper cfg s.store [a]) :
    ∃ c1 c' s', c0.begin a.1 a.2.1 a.2.2 = .ok c1 ∧ Stand cfg sid (opening c1 s) c' s' ∧ s'.store = after s.store a ∧ c'.offset = c'.total ∧
      c'.total ≠ 0 ∧ (a.2.2 = true → c'.buffer = s.store a.1) := by
  obtain ⟨o, d, u⟩ := a
  cases u with
  | false =>
    have h1 : 1 ≤ d.length ∧ d.length < 256 := by simpa [Proper] using hp
    have hne : d ≠ [] := by intro h; rw [h] at h1; simp at h1
    obtain ⟨c1, c', first, frames, b1, b2, b3, b4, b5, b6, -, -, -, -, b7, b8⟩ := download_talk cfg sid c0 s o d hne (fun _ => h1.2)
    exact ⟨c1, c', s.put o d, b1, ⟨b3, rfl, by simp [opening], frames, by simpa [opening] using b2, by simpa [opening] using b7, by omega⟩,
      by simp [after, Server.put], by omega, by omega, by simp⟩
  | true =>
    have h1 : 1 ≤ (s.store o).length ∧ (s.store o).length < 256 ∧ (d = [] ∧ cfg.indicate = true ∨ d.length = (s.store o).length) := by
      simpa [Proper] using hp
    obtain ⟨h1, h2, h3⟩ := h1
    have hv : s.store o ≠ [] := by intro h; rw [h] at h1; simp at h1
    have hz : d = [] → cfg.indicate = true := by
      intro h
      rcases h3 with h3 | h3
      · exact h3.2
      · rw [h] at h3; simp at h3; omega
    by_cases he : cfg.expedite = true ∧ 1 ≤ (s.store o).length ∧ (s.store o).length ≤ 4
    · have hlen : d.length ≤ (s.store o).length := by
        rcases h3 with h3 | h3
        · rw [h3.1]; simp
        · omega
      obtain ⟨c1, c', frames, u1, u2, u3, u4, u5, u6, u7, u8⟩ := upload_expedited cfg sid c0 s o d he.1 h1 he.2.2 hlen hz
      refine ⟨c1, c', { s with phase := .idle }, u1, ⟨u3, rfl, by simp [opening], frames, by simpa [opening] using u2, by simpa [opening] using u7, by omega⟩,
        by simp [after], u4, u5, fun _ => ?_⟩
      rw [u6]
      rcases h3 with h3 | h3
      · simp [h3.1]
      · rw [h3, List.take_length]; simp
    · have hr : d = [] ∨ d.length = (s.store o).length := by
        rcases h3 with h3 | h3
        · exact Or.inl h3.1
        · exact Or.inr h3
      obtain ⟨c1, c', frames, u1, u2, u3, u4, u5, u6, u7, u8⟩ := upload_segmented cfg hcfg sid c0 s o d hv he hr hz (fun _ => h2)
      exact ⟨c1, c', { s with phase := .idle }, u1, ⟨u3, rfl, by simp [opening], frames, by simpa [opening] using u2, by simpa [opening] using u7, by omega⟩,
        by simp [after], u4, u5, fun _ => u6⟩

/-- the objects after some accesses -/
def afterAll (store : Obj → List Byte) (as : List (Obj × List Byte × Bool)) : Obj → List Byte := as.foldl after store

theorem replay_append (store : Obj → List Byte) (as bs : List (Obj × List Byte × Bool)) :
    replay store (as ++ bs) = replay store as ++ replay (afterAll store as) bs := by
  induction as generalizing store with
  | nil => rfl
  | cons a as ih => simp only [List.cons_append, replay, ih]; rfl

theorem replay_length (store : Obj → List Byte) (as : List (Obj × List Byte × Bool)) : (replay store as).length = as.length := by
  induction as generalizing store with
  | nil => rfl
  | cons a as ih => simp [replay, ih]

theorem proper_append (cfg : Config) (store : Obj → List Byte) (as bs : List (Obj × List Byte × Bool)) :
    Proper cfg store (as ++ bs) ↔ Proper cfg store as ∧ Proper cfg (afterAll store as) bs := by
  induction as generalizing store with
  | nil => simp [Proper, afterAll]
  | cons a as ih =>
    obtain ⟨o, d, u⟩ := a
    simp only [List.cons_append, Proper, ih, and_assoc]
    rfl

/-- the link between two accesses -/
structure Rest (store : Obj → List Byte) (l : Link) : Prop where
  run : l.ch.running = none
  buf : l.ch.reader.buffer = []
  off : l.ch.reader.enabled = false
  seen : l.seen = l.ch.client.sent.length
  res : l.results = replay store l.calls
  store : l.server.store = afterAll store l.calls

/-- the link during an access -/
structure Busy (cfg : Config) (sid : Header) (store : Obj → List Byte) (l : Link) : Prop where
  ex : ∃ pre k d u t c' s', l.calls = pre ++ [(k, d, u)] ∧ l.results = replay store pre ∧ l.ch.running = some (⟨k, d, u, false⟩, l.ch.client.done) ∧
    l.ch.reader.enabled = true ∧ Stand cfg sid t c' s' ∧ t.client = l.ch.client ∧ s'.store = after (afterAll store pre) (k, d, u) ∧
    c'.offset = c'.total ∧ c'.total ≠ 0 ∧ (u = true → c'.buffer = afterAll store pre k) ∧ l.seen ≤ l.ch.client.sent.length ∧
    ((l.ch.client.sent.drop l.seen = t.pending ∧ l.server = t.server ∧ l.ch.reader.buffer = []) ∨
      (l.seen = l.ch.client.sent.length ∧ (l.server, l.ch.reader.buffer) = t.server.serve cfg sid t.pending))

structure LInv (cfg : Config) (sid : Header) (store : Obj → List Byte) (l : Link) : Prop where
  lst : l.ch.listens = some sid.key
  len : l.ch.reader.maxLen = 1
  now : Proper cfg store l.calls → Rest store l ∨ Busy cfg sid store l

theorem handleFrame_one {α : Type} (r : Rd.Reader α) (f : α) (h1 : r.enabled = true) (h2 : r.maxLen = 1) (h3 : r.buffer = []) :
    (r.handleFrame f).buffer = [f] := by
  simp [Rd.Reader.handleFrame, h1, Rd.Reader.trim, h2, h3, Rd.trimLoop]

theorem linv_serve (cfg : Config) (sid : Header) (store : Obj → List Byte) (l : Link) (h : LInv cfg sid store l) : LInv cfg sid store (l.step cfg sid .serve) := by
  have hone : ∀ n, l.ch.client.sent.length = n → l.ch.client.sent[n]? = none := by intro n hn; simp [hn]
  simp only [Link.step]
  cases hf : l.ch.client.sent[l.seen]? with
  | none => exact h
  | some f =>
    have key : Proper cfg store l.calls → Busy cfg sid store
        (match (l.server.recv cfg f.data).2 with
        | none => { l with server := (l.server.recv cfg f.data).1, seen := l.seen + 1 }
        | some d => { l with server := (l.server.recv cfg f.data).1, seen := l.seen + 1, ch := (l.ch.step (.arrive ⟨sid, d, 8⟩)).1 }) := by
      intro hp
      rcases h.now hp with hr | hb
      · rw [hone _ hr.seen.symm] at hf; cases hf
      obtain ⟨pre, k, d, u, t, c', s', e1, e2, e3, e4, e5, e6, e7, e8, e9, e10, e11, e12⟩ := hb.ex
      rcases e12 with ⟨p1, p2, p3⟩ | ⟨p1, -⟩
      · have hlt : l.seen < l.ch.client.sent.length := by
          rcases Nat.lt_or_ge l.seen l.ch.client.sent.length with h | h
          · exact h
          · rw [List.getElem?_eq_none h] at hf; cases hf
        have hdrop : l.ch.client.sent.drop l.seen = f :: l.ch.client.sent.drop (l.seen + 1) := by
          rw [List.drop_eq_getElem_cons hlt]
          rw [List.getElem?_eq_getElem hlt] at hf
          cases hf; rfl
        have hfew := e5.few
        rw [← p1, hdrop, List.length_cons] at hfew
        have hz : l.ch.client.sent.drop (l.seen + 1) = [] := List.length_eq_zero_iff.1 (by omega)
        have hend : l.seen + 1 = l.ch.client.sent.length := by
          have := congrArg List.length hz
          simp at this
          omega
        have hpend : t.pending = [f] := by rw [← p1, hdrop, hz]
        have hserve : t.server.serve cfg sid t.pending =
            ((l.server.recv cfg f.data).1, (l.server.recv cfg f.data).2.toList.map fun d => (⟨sid, d, 8⟩ : Frame)) := by
          rw [hpend, ← p2]
          simp [Server.serve]
        cases ha : (l.server.recv cfg f.data).2 with
        | none =>
          refine ⟨pre, k, d, u, t, c', s', e1, e2, e3, e4, e5, e6, e7, e8, e9, e10, by dsimp only; omega, Or.inr ⟨hend, ?_⟩⟩
          rw [hserve, ha, p3]; rfl
        | some x =>
          have hx : (l.ch.step (.arrive ⟨sid, x, 8⟩)).1 = { l.ch with reader := l.ch.reader.handleFrame ⟨sid, x, 8⟩ } := by
            simp only [State.step, State.arrive]
            exact if_pos h.lst
          dsimp only
          rw [hx]
          refine ⟨pre, k, d, u, t, c', s', e1, e2, e3, (handleFrame_enabled _ _).1.trans e4, e5, e6, e7, e8, e9, e10, by dsimp only; omega,
            Or.inr ⟨hend, ?_⟩⟩
          dsimp only
          rw [hserve, ha, handleFrame_one _ _ e4 h.len p3]
          rfl
      · rw [hone _ p1.symm] at hf; cases hf
    dsimp only
    revert key
    cases ha : (l.server.recv cfg f.data).2 with
    | none => exact fun key => ⟨h.lst, h.len, fun hp => Or.inr (key hp)⟩
    | some x =>
      have hx : (l.ch.step (.arrive ⟨sid, x, 8⟩)).1 = { l.ch with reader := l.ch.reader.handleFrame ⟨sid, x, 8⟩ } := by
        simp only [State.step, State.arrive]
        exact if_pos h.lst
      dsimp only
      rw [hx]
      exact fun key => ⟨h.lst, (handleFrame_enabled _ _).2.trans h.len, fun hp => Or.inr (key hp)⟩

theorem linv_call (cfg : Config) (hcfg : cfg.Legal) (sid : Header) (store : Obj → List Byte) (l : Link) (k : Obj) (d : List Byte) (u : Bool)
    (h : LInv cfg sid store l) : LInv cfg sid store (l.step cfg sid (.call k d u)) := by
  simp only [Link.step, State.step]
  cases hr : l.ch.running with
  | some x =>
    have : l.ch.call k d u = l.ch := by simp [State.call, hr]
    rw [this]
    simpa using h
  | none =>
    obtain ⟨c1, hb⟩ := begin_ok l.ch.client k d u
    have hc : l.ch.call k d u =
        { l.ch with client := c1, reader := (l.ch.reader.setEnabled true).1, running := some (⟨k, d, u, l.ch.reader.enabled⟩, false) } := by
      simp [State.call, hr, hb]
    rw [hc]
    refine ⟨h.lst, h.len, fun hp => Or.inr ?_⟩
    simp only [Option.isNone_none, if_true] at hp
    rw [proper_append] at hp
    rcases h.now hp.1 with hi | hbz
    · obtain ⟨g1, g2, g3, g4, g5⟩ := begin_goes _ _ _ _ _ hb
      rw [← hi.store] at hp
      obtain ⟨c1', c', s', b1, b2, b3, b4, b5, b6⟩ := stand_begin cfg hcfg sid l.ch.client l.server (k, d, u) hp.2
      rw [hb] at b1
      cases b1
      refine ⟨l.calls, k, d, u, opening c1 l.server, c', s', by simp, hi.res, ?_, rfl, b2, rfl, ?_, b4, b5, ?_, ?_, Or.inl ⟨?_, rfl, hi.buf⟩⟩
      · dsimp only; rw [hi.off, g3]
      · rw [b3, hi.store]
      · rw [← hi.store]; exact b6
      · dsimp only; rw [hi.seen, g4]; simp
      · dsimp only [opening]; rw [hi.seen, g4]; simp
    · obtain ⟨pre, k, d, u, t, c', s', e1, e2, e3, -⟩ := hbz.ex
      rw [hr] at e3; cases e3

theorem linv_take (cfg : Config) (sid : Header) (store : Obj → List Byte) (l : Link) (h : LInv cfg sid store l) :
    LInv cfg sid store (l.step cfg sid .take) := by
  have hl : l.ch.take.listens = l.ch.listens ∧ l.ch.take.reader.maxLen = l.ch.reader.maxLen := by
    unfold State.take Rd.Reader.readUntil
    cases hb : l.ch.reader.buffer with
    | nil => simp
    | cons f fs =>
      simp only [if_true]
      repeat' split
      all_goals first | exact ⟨rfl, rfl⟩ | skip
      rename_i hq _ _ _ _
      simp only [Prod.mk.injEq] at hq
      obtain ⟨rfl, -⟩ := hq
      exact ⟨rfl, rfl⟩
  refine ⟨hl.1.trans h.lst, hl.2.trans h.len, fun hp => ?_⟩
  rcases h.now hp with hr | hb
  · left
    have : l.ch.take = l.ch := by simp [State.take, hr.run]
    have : l.step cfg sid .take = l := by simp only [Link.step, State.step, this]
    rw [this]; exact hr
  right
  obtain ⟨pre, k, d, u, t, c', s', e1, e2, e3, e4, e5, e6, e7, e8, e9, e10, e11, e12⟩ := hb.ex
  have same : l.ch.take = l.ch → Busy cfg sid store (l.step cfg sid .take) := by
    intro hx
    have : l.step cfg sid .take = l := by simp only [Link.step, State.step, hx]
    rw [this]; exact hb
  rcases e12 with ⟨p1, p2, p3⟩ | ⟨p1, p2⟩
  · apply same
    simp [State.take, e3, Rd.Reader.readUntil, p3]
  · cases hd : l.ch.client.done with
    | true => apply same; simp [State.take, e3, hd]
    | false =>
      obtain ⟨f, c, go, t1, t2, t3, t4⟩ := stand_turn e5 (by rw [e6]; exact hd)
      rw [← p2] at t1 t4
      dsimp only at t1 t4
      rw [e6] at t2 t4
      have hx : l.ch.take = { l.ch with client := c, reader := { l.ch.reader with buffer := [] }, running := some (⟨k, d, u, false⟩, c.done || !go) } := by
        simp [State.take, e3, hd, Rd.Reader.readUntil, t1, t2]
      have hfl : (c.done || !go) = c.done := by
        cases go with
        | true => simp
        | false => simp [t3 rfl]
      have hg := goes_process _ _ _ _ t2
      obtain ⟨ls, -, hls, -⟩ := hg.sent
      simp only [Link.step, State.step, hx, hfl]
      refine ⟨pre, k, d, u, _, c', s', e1, e2, rfl, e4, t4, rfl, e7, e8, e9, e10, ?_, Or.inl ⟨?_, rfl, rfl⟩⟩
      · dsimp only; rw [p1, hls]; simp
      · dsimp only; rw [p1]

theorem linv_leave (cfg : Config) (sid : Header) (store : Obj → List Byte) (l : Link) (h : LInv cfg sid store l) :
    LInv cfg sid store (l.step cfg sid .leave) := by
  have hl : l.ch.leave.1.listens = l.ch.listens ∧ l.ch.leave.1.reader.maxLen = l.ch.reader.maxLen := by
    unfold State.leave
    split <;> exact ⟨rfl, rfl⟩
  refine ⟨hl.1.trans h.lst, hl.2.trans h.len, fun hp => ?_⟩
  have same : l.ch.leave = (l.ch, []) → l.step cfg sid .leave = l := by
    intro hx
    simp only [Link.step, State.step, hx, List.append_nil]
  rcases h.now hp with hr | hb
  · left
    rw [same (by simp [State.leave, hr.run])]; exact hr
  obtain ⟨pre, k, d, u, t, c', s', e1, e2, e3, e4, e5, e6, e7, e8, e9, e10, e11, e12⟩ := hb.ex
  cases hd : l.ch.client.done with
  | false => right; rw [same (by simp [State.leave, e3, hd])]; exact hb
  | true =>
    left
    obtain ⟨q1, q2, q3⟩ := stand_done e5 (by rw [e6]; exact hd)
    rw [q3] at e12
    have hcc : l.ch.client = c' := by rw [← e6, q1]
    have hfin : l.ch.client.finish.2 = .ok c'.buffer := by
      rw [hcc]
      unfold Client.finish
      rw [if_neg (by simp [e8, e9])]
    have hs : l.seen = l.ch.client.sent.length ∧ l.server = s' ∧ l.ch.reader.buffer = [] := by
      rcases e12 with ⟨p1, p2, p3⟩ | ⟨p1, p2⟩
      · refine ⟨?_, p2.trans q2, p3⟩
        have := congrArg List.length p1
        simp at this
        omega
      · simp only [Server.serve, Prod.mk.injEq] at p2
        exact ⟨p1, p2.1.trans q2, p2.2⟩
    have hx : l.ch.leave = ({ l.ch with reader := (l.ch.reader.setEnabled false).1, running := none },
        [⟨k, u, .ok (if u then c'.buffer else [])⟩]) := by
      simp only [State.leave, e3, hd, hfin]
    simp only [Link.step, State.step, hx]
    refine ⟨rfl, hs.2.2, rfl, hs.1, ?_, ?_⟩
    · dsimp only
      rw [e1, replay_append, e2]
      simp only [replay, answer]
      cases u with
      | false => rfl
      | true => simp only [if_true, e10 rfl]
    · dsimp only
      rw [hs.2.1, e7, e1]
      simp [afterAll, List.foldl_append]

theorem linv_step (cfg : Config) (hcfg : cfg.Legal) (sid : Header) (store : Obj → List Byte) (l : Link) (e : LEv) (h : LInv cfg sid store l) :
    LInv cfg sid store (l.step cfg sid e) := by
  cases e with
  | serve => exact linv_serve cfg sid store l h
  | call k d u => exact linv_call cfg hcfg sid store l k d u h
  | take => exact linv_take cfg sid store l h
  | leave => exact linv_leave cfg sid store l h
  | foreign f =>
    simp only [Link.step]
    split
    · exact h
    · rename_i hne
      have : (l.ch.step (.arrive f)).1 = l.ch := by
        simp only [State.step, State.arrive]
        rw [if_neg]
        rw [h.lst]
        intro hx
        exact hne (Option.some.inj hx).symm
      rw [this]; exact h

theorem linv_run (cfg : Config) (hcfg : cfg.Legal) (sid : Header) (store : Obj → List Byte) (es : List LEv) (l : Link) (h : LInv cfg sid store l) :
    LInv cfg sid store (l.run cfg sid es) := by
  induction es generalizing l with
  | nil => exact h
  | cons e es ih => exact ih _ (linv_step cfg hcfg sid store l e h)

end Verif.Chan
