import Verif.Lemmas.SdoLog
import Verif.Props.Sdo

/-!
# The log of SDO transfers: C105
-/

namespace Verif.Props
open Verif Verif.Sdo Verif.Spec.Sdo

/-- C105, an abort of the server: the log tells the object and the reason the server gave, and that the transfer failed. -/
theorem C105_abort (c : Client) (up : Bool) (o : Obj) (data : List Byte) (pre rest sent : List Frame) (req f : Frame)
    (hw : WaitsOn c up o data pre sent req) (h8 : f.dlc = 8) (h : cs f.data = 4#8) :
    ∃ line, c.accessLog true up o data (pre ++ f :: rest) = [line, failedLine] ∧ TellsAbort line (mux f.data) (word f.data) := by
  obtain ⟨c1, c', f1, f2, f3, f4, f5, -⟩ := waitsOn_fed hw
  have hp : c'.processFrame f = .ok ({ c' with offset := 0 }, false) := by
    cases f3 with
    | upInit h' => rw [process_wait_init h'.last, if_neg (by simp [h8]), if_pos h]
    | upSeg h' => rw [process_wait_segment h'.last, if_neg (by simp [h8]), if_pos h]
    | downInit h' =>
      obtain ⟨b, p, hb, hl⟩ := h'.last
      rw [process_wait_downInit hb hl, if_neg (by simp [h8]), if_pos h]
    | downSeg h' => rw [h'.process, if_neg (by simp [h8]), if_pos h]
  refine ⟨abortLine f.data, ?_, Txt.ostreamHex true (mux f.data).index.toNat,
    ⟨Txt.ostreamHex_ne_nil _ _, Txt.ostreamHex_isHex _ _, Txt.ostreamHex_value _ _⟩, ?_⟩
  · unfold Client.accessLog
    rw [if_pos rfl, f1]
    dsimp only
    rw [f2.loopLog_append, loopLog_false f3.facts.2.1 hp]
    have : c'.frameLog f = [abortLine f.data] := by
      unfold Client.frameLog
      rw [if_neg (by simp [h8]), command_eq, h]
      rfl
    rw [this]; rfl
  · unfold abortLine logLine
    rw [abortText_eq, reason_eq]
    have e : ("canopen_master: abort".toList) = "canopen_master: ".toList ++ "abort".toList := rfl
    rw [e]
    simp only [List.append_assoc]
    rfl

/-- an abort for object 0x6040 sub-index 1 -/
example : WaitsOn exampleClient true exampleObj [] [] [] ⟨exampleClient.clientId, initFrame 0x40#8 exampleObj [], 8⟩ ∧
    (exampleFrame (abortFrame exampleObj 0x06020000#32)).dlc = 8 ∧ cs (abortFrame exampleObj 0x06020000#32) = 4#8 ∧
    mux (abortFrame exampleObj 0x06020000#32) = exampleObj ∧ word (abortFrame exampleObj 0x06020000#32) = 0x06020000#32 := by
  unfold WaitsOn; decide +kernel

example : TellsAbort "canopen_master: abort6040#1, reason: Object does not exist in the object dictionary.".toList exampleObj 0x06020000#32 :=
  ⟨"6040".toList, ⟨by decide, by decide, by decide +kernel⟩, by decide +kernel⟩

private theorem split_at {α : Type} {x : α} : ∀ {a a' b b' : List α}, x ∉ a → x ∉ a' → a ++ x :: b = a' ++ x :: b' → a = a' ∧ b = b'
  | [], [], _, _, _, _, h => ⟨rfl, (List.cons.inj h).2⟩
  | [], y :: a', _, _, _, h', h => absurd (List.cons.inj h).1 (by intro e; exact h' (by simp [e]))
  | y :: a, [], _, _, h', _, h => absurd (List.cons.inj h).1 (by intro e; exact h' (by simp [e]))
  | y :: a, y' :: a', _, _, h1, h2, h => by
    obtain ⟨e1, e2⟩ := List.cons.inj h
    obtain ⟨e3, e4⟩ := split_at (fun hm => h1 (List.mem_cons_of_mem _ hm)) (fun hm => h2 (List.mem_cons_of_mem _ hm)) e2
    exact ⟨by rw [e1, e3], e4⟩

private theorem digits_only (n : Nat) : ∀ x ∈ (toString n).toList, x.isDigit = true := by
  intro x hx
  rw [Nat.toString_eq_repr, Nat.toList_repr] at hx
  exact Nat.isDigit_of_mem_toDigits (b := 10) (by decide) (by decide) hx

private theorem table_texts : (abortTable.map (·.2)).Nodup ∧ "Abort code is reserved" ∉ abortTable.map (·.2) ∧ (abortTable.map (·.1)).Nodup := by decide +kernel

private theorem lookup_mem {k : BitVec 32} {v : String} : ∀ {t : List (BitVec 32 × String)}, t.lookup k = some v → (k, v) ∈ t
  | (k', v') :: t, h => by
    rw [List.lookup] at h
    by_cases hk : k = k'
    · subst hk; simp at h; simp [h]
    · have : (k == k') = false := by simp [hk]
      rw [this] at h
      exact List.mem_cons_of_mem _ (lookup_mem h)

private theorem lookup_some {k : BitVec 32} : ∀ {t : List (BitVec 32 × String)}, k ∈ t.map (·.1) → ∃ v, t.lookup k = some v
  | (k', v') :: t, h => by
    rw [List.lookup]
    by_cases hk : k = k'
    · subst hk; simp
    · have e : (k == k') = false := by simp [hk]
      rw [e]
      rcases List.mem_cons.mp h with h | h
      · exact absurd h hk
      · exact lookup_some h

private theorem key_of_text {k k' : BitVec 32} {v : String} : ∀ {t : List (BitVec 32 × String)}, (t.map (·.2)).Nodup → (k, v) ∈ t → (k', v) ∈ t → k = k'
  | (a, b) :: t, hn, h, h' => by
    obtain ⟨hn1, hn2⟩ := List.nodup_cons.mp hn
    rcases List.mem_cons.mp h with e | h <;> rcases List.mem_cons.mp h' with e' | h'
    · rw [(Prod.mk.inj e).1, (Prod.mk.inj e').1]
    · exact absurd (List.mem_map.mpr ⟨_, h', (Prod.mk.inj e).2⟩) hn1
    · exact absurd (List.mem_map.mpr ⟨_, h, (Prod.mk.inj e').2⟩) hn1
    · exact key_of_text hn2 h h'

/-- C105, the line of an abort is unambiguous: it determines the object and, if the code is one of the table, the code. -/
theorem C105_abort_line (line : Text) (o o' : Obj) (code code' : BitVec 32) (h : TellsAbort line o code) (h' : TellsAbort line o' code') :
    o = o' ∧ (code ∈ abortTable.map (·.1) → code = code') := by
  obtain ⟨x, ⟨hx1, hx2, hx3⟩, hx⟩ := h
  obtain ⟨y, ⟨hy1, hy2, hy3⟩, hy⟩ := h'
  rw [hx] at hy
  simp only [List.append_assoc, List.cons_append] at hy
  have e := List.append_cancel_left hy
  have nohash : ¬ Spec.IsHex '#' := by decide
  obtain ⟨e1, e2⟩ := split_at (fun hm => nohash (hx2 _ hm)) (fun hm => nohash (hy2 _ hm)) e
  have e2' : (toString o.sub.toNat).toList ++ ',' :: (" reason: ".toList ++ meaning code) =
      (toString o'.sub.toNat).toList ++ ',' :: (" reason: ".toList ++ meaning code') := e2
  have nocomma : ∀ n, ',' ∉ (toString n).toList := fun n hm => absurd (digits_only n _ hm) (by decide)
  obtain ⟨e3, e4⟩ := split_at (nocomma _) (nocomma _) e2'
  have e5 := List.append_cancel_left e4
  constructor
  · obtain ⟨i, s⟩ := o
    obtain ⟨i', s'⟩ := o'
    have hi : i = i' := by
      apply BitVec.eq_of_toNat_eq
      have hx3' : Spec.hexValue x = i.toNat := hx3
      have hy3' : Spec.hexValue y = i'.toNat := hy3
      rw [← hx3', ← hy3', e1]
    have hs : s = s' := by
      apply BitVec.eq_of_toNat_eq
      have e3' : (toString s.toNat).toList = (toString s'.toNat).toList := e3
      rw [Nat.toString_eq_repr, Nat.toString_eq_repr, Nat.toList_repr, Nat.toList_repr] at e3'
      have := congrArg (fun l => Nat.ofDigitChars 10 l 0) e3'
      simpa only [Nat.ofDigitChars_toDigits (b := 10) (by decide) (by decide)] using this
    rw [hi, hs]
  · intro hm
    obtain ⟨v, hv⟩ := lookup_some hm
    have hv' := lookup_mem hv
    unfold meaning at e5
    rw [hv] at e5
    have e6 : v = (abortTable.lookup code').getD "Abort code is reserved" := String.toList_inj.mp e5
    cases hc : abortTable.lookup code' with
    | none =>
      rw [hc] at e6
      exact absurd (List.mem_map.mpr ⟨_, hv', e6⟩) table_texts.2.1
    | some w =>
      rw [hc] at e6
      have e7 : v = w := e6
      subst e7
      exact key_of_text table_texts.1 hv' (lookup_mem hc)

/-- two objects and two codes of the table give different lines -/
example : TellsAbort "canopen_master: abort1A00#12, reason: Unsupported access to an object.".toList ⟨0x1A00#16, 12#8⟩ 0x06010000#32 ∧
    0x06010000#32 ∈ abortTable.map (·.1) ∧ 0x06020000#32 ∈ abortTable.map (·.1) :=
  ⟨⟨"1A00".toList, ⟨by decide, by decide, by decide +kernel⟩, by decide +kernel⟩, by decide +kernel, by decide +kernel⟩

/-- C105, what can be in the log: nothing; that nothing was heard; that a frame could not be processed, possibly after a line about an abort of the server or
about a segment that does not fit. -/
theorem C105_lines (c : Client) (locked up : Bool) (o : Obj) (data : List Byte) (frames : List Frame) :
    let log := c.accessLog locked up o data frames
    log = [] ∨ log = [silenceLine] ∨ log = [failedLine] ∨ ∃ f line, f ∈ frames ∧ log = [line, failedLine] ∧
      ((cs f.data = 4#8 ∧ TellsAbort line (mux f.data) (word f.data)) ∨
       (cs f.data = 0#8 ∧ ∃ rest, line = "canopen_master: abort, size mismatch".toList ++ rest)) := by
  dsimp only
  cases locked with
  | false => exact Or.inl rfl
  | true =>
    obtain ⟨c1, hb, hw, -⟩ := begin_waiting c up o data
    have hlog : c.accessLog true up o data frames = c1.loopLog frames := by unfold Client.accessLog; rw [if_pos rfl, hb]
    rw [hlog]
    obtain ⟨c2, -, h⟩ := loopLog_waiting frames hw
    rcases h with ⟨-, h⟩ | ⟨-, ⟨h, -⟩ | ⟨used, f, rest, w, e, -, -, h⟩⟩
    · exact Or.inl h
    · exact Or.inr (Or.inl h)
    · have hf : f ∈ frames := by rw [e]; simp
      rcases frameLog_cases w f with g | ⟨g1, g2, g3⟩ | ⟨g1, g2, size, n, g3⟩
      · rw [g] at h; exact Or.inr (Or.inr (Or.inl h))
      · rw [g3] at h
        refine Or.inr (Or.inr (Or.inr ⟨f, _, hf, h, Or.inl ⟨g2, Txt.ostreamHex true (mux f.data).index.toNat,
          ⟨Txt.ostreamHex_ne_nil _ _, Txt.ostreamHex_isHex _ _, Txt.ostreamHex_value _ _⟩, ?_⟩⟩))
        unfold abortLine logLine
        rw [abortText_eq, reason_eq]
        have e : ("canopen_master: abort".toList) = "canopen_master: ".toList ++ "abort".toList := rfl
        rw [e]
        simp only [List.append_assoc]
        rfl
      · rw [g3] at h
        refine Or.inr (Or.inr (Or.inr ⟨f, _, hf, h, Or.inr ⟨g2, (toString size).toList ++ " ".toList ++ (toString n).toList, ?_⟩⟩))
        unfold mismatchLine logLine
        have e : ("canopen_master: abort, size mismatch".toList) = "canopen_master: ".toList ++ "abort, size mismatch".toList := rfl
        rw [e]
        simp only [List.append_assoc]

/-- each case: a complete read, silence, a frame of the wrong length, a segment of seven bytes although only five are left -/
example :
    exampleClient.accessLog true true exampleObj [] [exampleFrame (initFrame 0x43#8 exampleObj [1, 2, 3, 4])] = [] ∧
    exampleClient.accessLog true true exampleObj [] [] = [silenceLine] ∧
    exampleClient.accessLog true true exampleObj [] [{ exampleFrame (initFrame 0x43#8 exampleObj [1, 2, 3, 4]) with dlc := 7 }] = [failedLine] ∧
    exampleClient.accessLog true true exampleObj [] [exampleFrame (initFrame 0x41#8 exampleObj [5, 0, 0, 0]), exampleFrame #v[0x00, 1, 2, 3, 4, 5, 6, 7]] =
      ["canopen_master: abort, size mismatch5 7".toList, failedLine] := by
  decide +kernel

/-- C105, a read that returns logs nothing. -/
theorem C105_read_quiet (c : Client) (locked : Bool) (o : Obj) (data : List Byte) (frames : List Frame)
    (h : (c.read locked o data frames).2.1 = .ok ()) : c.accessLog locked true o data frames = [] := by
  cases locked with
  | false => rfl
  | true =>
    obtain ⟨c1, b1, b2, -⟩ := begin_upload_wait c o data
    obtain ⟨c2, h2, hl⟩ := loopLog_waiting frames (.upInit b2)
    have hlog : c.accessLog true true o data frames = c1.loopLog frames := by unfold Client.accessLog; rw [if_pos rfl, b1]
    rw [hlog]
    rcases hl with ⟨-, hl⟩ | ⟨hd, -⟩
    · exact hl
    · exfalso
      have := (up_end frames (Or.inl b2) h2).1 hd
      rw [read_of_loop b1 h2, if_pos this] at h
      cases h

example : (exampleClient.read true exampleObj [] [exampleFrame (initFrame 0x41#8 exampleObj [8, 0, 0, 0]),
    exampleFrame #v[0x00, 1, 2, 3, 4, 5, 6, 7], exampleFrame #v[0x1d, 8, 0, 0, 0, 0, 0, 0]]).2 = (.ok (), [1, 2, 3, 4, 5, 6, 7, 8]) := by decide +kernel

/-- C105, a write that returns and logs nothing was confirmed completely by the server; if it returns and logs something (one line), only the last confirmation
is missing (the defect of C36). -/
theorem C105_write (c : Client) (locked : Bool) (o : Obj) (data : List Byte) (frames : List Frame) (h : (c.write locked o data frames).2 = .ok ()) :
    (c.accessLog locked false o data frames = [] ∧
      ∃ used unread, frames = used ++ unread ∧ Confirms o (answers used) ∧ (answers used).length = confirmsNeeded data) ∨
    ((∃ line, c.accessLog locked false o data frames = [line] ∧ (line = silenceLine ∨ line = failedLine)) ∧
      ∃ used unread, frames = used ++ unread ∧ Confirms o (answers used) ∧ (answers used).length + 1 = confirmsNeeded data ∧ GaveUp unread) := by
  cases locked with
  | false => simp [Client.write] at h
  | true =>
    obtain ⟨c1, b1, b2, -⟩ := begin_download c o data
    obtain ⟨c2, h2, h3⟩ := downInit_loop c.clientId o data frames c1 b2
    have hlog : c.accessLog true false o data frames = c1.loopLog frames := by unfold Client.accessLog; rw [if_pos rfl, b1]
    rw [hlog]
    rw [write_of_loop b1 h2] at h
    by_cases hx : c2.offset = 0 ∨ c2.offset ≠ c2.total
    · simp [if_pos hx] at h
    · obtain ⟨used, unread, u1, u2, u3⟩ := h3 (by omega) (by omega)
      obtain ⟨c3, k2, k3⟩ := loopLog_waiting frames (.downInit b2)
      rw [h2] at k2
      cases k2
      rcases u3 with ⟨d1, u3⟩ | ⟨d1, u3, u4⟩
      · rcases k3 with ⟨-, k3⟩ | ⟨d2, -⟩
        · exact Or.inl ⟨k3, used, unread, u1, u2, u3⟩
        · rw [d1] at d2; cases d2
      · rcases k3 with ⟨d2, -⟩ | ⟨-, ⟨k3, -⟩ | ⟨used', f, rest, w, e, fed, k4, k3⟩⟩
        · rw [d1] at d2; cases d2
        · exact Or.inr ⟨⟨_, k3, Or.inl rfl⟩, used, unread, u1, u2, u3, u4⟩
        · refine Or.inr ⟨?_, used, unread, u1, u2, u3, u4⟩
          have h8 : f.dlc ≠ 8 := fun h8 => hx (Or.inl (process_false_offset h8 k4))
          have : w.frameLog f = [] := by unfold Client.frameLog; rw [if_pos (bne_iff_ne.mpr h8)]
          rw [this] at k3
          exact ⟨_, k3, Or.inr rfl⟩

/-- silence after the only request of a short write, a complete write of five bytes -/
example : (exampleClient.write true exampleObj [1] []).2 = .ok () ∧ exampleClient.accessLog true false exampleObj [1] [] = [silenceLine] ∧
    (exampleClient.write true exampleObj [1, 2, 3, 4, 5] [exampleFrame (initFrame 0x60#8 exampleObj []), exampleFrame (shortFrame 0x20#8)]).2 = .ok () ∧
    exampleClient.accessLog true false exampleObj [1, 2, 3, 4, 5] [exampleFrame (initFrame 0x60#8 exampleObj []), exampleFrame (shortFrame 0x20#8)] = [] := by
  decide +kernel

/-- C105, failures: an access that throws has logged something, except if the server ended the transfer as far as it is concerned: the confirmation of an empty
write, an expedited answer, a segment with the last flag or without any byte.  Not so without the mutex (see `C105_silent_false`); hence partial. -/
theorem C105_throws_partial (c : Client) (up : Bool) (o : Obj) (data : List Byte) (frames : List Frame) (h : (access c up o data frames).2 = .throws .timeout)
    (hq : c.accessLog true up o data frames = []) :
    ∃ used f rest, frames = used ++ f :: rest ∧ f.dlc = 8 ∧
      ((up = false ∧ data = [] ∧ cs f.data = 3#8 ∧ mux f.data = o) ∨
       (up = true ∧ cs f.data = 2#8 ∧ mux f.data = o ∧ flag f.data 1 = true) ∨
       (up = true ∧ cs f.data = 0#8 ∧ (flag f.data 0 = true ∨ segmentBytes f.data = []))) := by
  obtain ⟨c1, hb, hw, hu⟩ := begin_waiting c up o data
  obtain ⟨c2, h2, h3⟩ := loopLog_waiting frames hw
  have hlog : c.accessLog true up o data frames = c1.loopLog frames := by unfold Client.accessLog; rw [if_pos rfl, hb]
  rw [hlog] at hq
  rw [(access_of_loop hb h2).2] at h
  have hx : c2.offset = 0 ∨ c2.offset ≠ c2.total := by
    by_cases hx : c2.offset = 0 ∨ c2.offset ≠ c2.total
    · exact hx
    · rw [if_neg hx] at h; cases h
  have hd : c2.done = true := by
    rcases h3 with ⟨h3, -⟩ | ⟨-, ⟨h3, -⟩ | ⟨_, _, _, _, _, _, _, h3⟩⟩
    · exact h3
    · rw [hq] at h3; cases h3
    · rw [hq] at h3; exact absurd h3.symm (by simp)
  cases up with
  | true =>
    obtain ⟨used, f, rest, e, h8, hf⟩ := (up_end frames (Or.inl (hu rfl)) h2).2 hd
    refine ⟨used, f, rest, e, h8, ?_⟩
    rcases hf with hf | ⟨hc, hf⟩
    · exact Or.inr (Or.inl ⟨rfl, hf⟩)
    · refine Or.inr (Or.inr ⟨rfl, hc, ?_⟩)
      rcases hf with hf | ⟨ht, hz⟩
      · exact Or.inl hf
      · exact Or.inr (hz (by omega))
  | false =>
    obtain ⟨c1', b1, b2, -⟩ := begin_download c o data
    rw [hb] at b1
    cases b1
    obtain ⟨e1, e2⟩ := down_end frames (Or.inl b2) h2 hd
    obtain ⟨e3, used, f, rest, e4, e5, e6⟩ := e2 (by omega)
    exact ⟨used, f, rest, e4, e5, Or.inl ⟨rfl, e3, e6⟩⟩

/-- the write of an empty value, confirmed by the server -/
example : (access exampleClient false exampleObj [] [exampleFrame (initFrame 0x60#8 exampleObj [])]).2 = .throws .timeout ∧
    exampleClient.accessLog true false exampleObj [] [exampleFrame (initFrame 0x60#8 exampleObj [])] = [] := by
  decide +kernel

/-- C105 fails: the server announces five bytes and ends after three; the read throws and there is no line in the log.  The same for a size that was neither
requested nor announced, for the write of an empty value, and for a mutex that cannot be had in time. -/
theorem C105_silent_false :
    (let frames := [exampleFrame (initFrame 0x41#8 exampleObj [5, 0, 0, 0]), exampleFrame #v[0x09, 1, 2, 3, 0, 0, 0, 0]]
     (exampleClient.read true exampleObj [] frames).2.1 = .throws .timeout ∧ exampleClient.accessLog true true exampleObj [] frames = []) ∧
    (let frames := [exampleFrame (initFrame 0x40#8 exampleObj []), exampleFrame #v[0x09, 1, 2, 3, 0, 0, 0, 0]]
     (exampleClient.read true exampleObj [] frames).2.1 = .throws .timeout ∧ exampleClient.accessLog true true exampleObj [] frames = []) ∧
    (let frames := [exampleFrame (initFrame 0x60#8 exampleObj [])]
     (exampleClient.write true exampleObj [] frames).2 = .throws .timeout ∧ exampleClient.accessLog true false exampleObj [] frames = []) ∧
    (∀ data frames, (exampleClient.write false exampleObj data frames).2 = .throws .timeout ∧ exampleClient.accessLog false false exampleObj data frames = []) := by
  refine ⟨by decide +kernel, by decide +kernel, by decide +kernel, fun _ _ => ⟨rfl, rfl⟩⟩

end Verif.Props
