import Verif.Lemmas.SdoMore

/-!
# C32 – C37: the SDO client

`Spec.Sdo` has the frames and a server of CiA 301.  `Reaches cfg sid (opening c1 s) t`: client and server, taking turns, arrive at `t`;
`t.read` are the frames the client has read.
-/

namespace Verif.Props
open Verif Verif.Sdo Verif.Spec.Sdo

theorem read_of_loop {c0 c1 c2 : Client} {o : Obj} {data : List Byte} {frames : List Frame} (hb : c0.begin o data true = .ok c1)
    (hl : c1.loop frames = .ok c2) :
    c0.read true o data frames =
      (c2, if c2.offset = 0 ∨ c2.offset ≠ c2.total then (.throws .timeout, data) else (.ok (), c2.buffer)) := by
  unfold Client.read Client.transmit Client.finish
  rw [hb]
  simp only [hl, if_true]
  by_cases h : c2.offset = 0 ∨ c2.offset ≠ c2.total
  · simp only [if_pos h]
    rw [if_pos (by simpa using h)]
  · simp only [if_neg h]
    rw [if_neg (by simpa using h)]

theorem write_of_loop {c0 c1 c2 : Client} {o : Obj} {data : List Byte} {frames : List Frame} (hb : c0.begin o data false = .ok c1)
    (hl : c1.loop frames = .ok c2) :
    c0.write true o data frames = (c2, if c2.offset = 0 ∨ c2.offset ≠ c2.total then .throws .timeout else .ok ()) := by
  obtain ⟨a1, a2⟩ := access_of_loop hb hl
  rw [← a2, ← a1]
  rfl

/-- a client, a server and object for the examples -/
def exampleClient : Client :=
  { clientId := { id := 0x601#29, isError := false, isRtr := false, isExtended := false }, buffer := [], offset := 0, total := 0, done := true,
    lastMsg := { id := 0x601#29, isError := false, isRtr := false, isExtended := false, data := Vector.replicate 8 0, dlc := 8 }, current := none,
    sent := [] }
def exampleSid : Header := { id := 0x581#29, isError := false, isRtr := false, isExtended := false }
def exampleObj : Obj := ⟨0x6040#16, 1#8⟩
def exampleFrame (d : Bytes8) : Frame := { toHeader := exampleSid, data := d, dlc := 8 }
def cut7 (v : List Byte) : List (List Byte) :=
  if _h : v.length ≤ 7 then [v] else v.take 7 :: cut7 (v.drop 7)
termination_by v.length
decreasing_by simp; omega
def exampleCfg : Config := ⟨true, true, cut7, false⟩

theorem cut7_legal : ∀ (n : Nat) (v : List Byte), v.length = n → v ≠ [] →
    (cut7 v).flatten = v ∧ ∀ p ∈ cut7 v, 1 ≤ p.length ∧ p.length ≤ 7 := by
  intro n
  induction n using Nat.strongRecOn with
  | _ n ih =>
  intro v hn hv
  have h1 : 1 ≤ v.length := by cases v with
    | nil => exact absurd rfl hv
    | cons a l => simp
  rw [cut7]
  by_cases h : v.length ≤ 7
  · simp [h]; omega
  · rw [dif_neg h]
    have hne : v.drop 7 ≠ [] := by
      intro e
      have := congrArg List.length e
      simp at this
      omega
    obtain ⟨i1, i2⟩ := ih (v.drop 7).length (by simp; omega) (v.drop 7) rfl hne
    refine ⟨by rw [List.flatten_cons, i1]; simp, ?_⟩
    intro p hp
    rcases List.mem_cons.mp hp with rfl | hp
    · simp; omega
    · exact i2 p hp

/-! ## C32 -/

/-- C32.  Writing any non-empty value to a conforming server: the conversation runs to its end, `write` returns normally on the frames of
that conversation, the server holds exactly those bytes in that object and all other objects are as before.  The client sent an initiate
request naming the object and, above four bytes, the segments of `segments` (`C32_segments`) in order.  A server that insists on the
announced size is covered below 256 bytes only; `C32_long_download_refused` shows what happens above. -/
theorem C32_download_partial (cfg : Config) (sid : Header) (c0 : Client) (s : Server) (o : Obj) (data : List Byte) (hne : data ≠ [])
    (hs : cfg.strict = true → data.length < 256) :
    ∃ (c1 c' : Client) (s' : Server) (first : Bytes8) (frames : List Frame),
      c0.begin o data false = .ok c1 ∧ Reaches cfg sid (opening c1 s) ⟨c', s', [], [], frames⟩ ∧
      c0.write true o data frames = (c', .ok ()) ∧
      s'.store o = data ∧ (∀ o', o' ≠ o → s'.store o' = s.store o') ∧
      cs first = 1#8 ∧ mux first = o ∧ (4 < data.length → data.length < 256 → (word first).toNat = data.length) ∧
      c'.sent = c0.sent ++ (first :: (if data.length ≤ 4 then [] else segments false data)).map (fun d => ⟨c0.clientId, d, 8⟩) := by
  obtain ⟨c1, c', first, frames, d1, d2, d3, d4, d5, d6, hcs, d7, d8, d9, d10, -⟩ := download_talk cfg sid c0 s o data hne hs
  refine ⟨c1, c', s.put o data, first, frames, d1, d2, ?_, ?_, ?_, hcs, d7, fun h h' => d8 h' h, d9⟩
  · rw [write_of_loop d1 d10, if_neg]
    rw [d4, d5]
    have : data.length ≠ 0 := by simpa using hne
    omega
  · simp [Server.put]
  · intro o' h; simp [Server.put, h]

/-- the seven bytes of example data used below -/
example : ∃ (c1 c' : Client) (s' : Server) (first : Bytes8) (frames : List Frame),
    exampleClient.begin exampleObj [1, 2, 3, 4, 5, 6, 7, 8] false = .ok c1 ∧
    Reaches exampleCfg exampleSid (opening c1 ⟨fun _ => [], .idle⟩) ⟨c', s', [], [], frames⟩ ∧
    exampleClient.write true exampleObj [1, 2, 3, 4, 5, 6, 7, 8] frames = (c', .ok ()) ∧ s'.store exampleObj = [1, 2, 3, 4, 5, 6, 7, 8] ∧
    (∀ o', o' ≠ exampleObj → s'.store o' = []) ∧ cs first = 1#8 ∧ mux first = exampleObj ∧
    (4 < 8 → 8 < 256 → (word first).toNat = 8) ∧ c'.sent.length = 3 := by
  obtain ⟨c1, c', s', first, frames, h1, h2, h3, h4, h5, h6, h7, h8, h9⟩ :=
    C32_download_partial exampleCfg exampleSid exampleClient ⟨fun _ => [], .idle⟩ exampleObj [1, 2, 3, 4, 5, 6, 7, 8] (by simp) (by simp)
  refine ⟨c1, c', s', first, frames, h1, h2, h3, h4, h5, h6, h7, h8, ?_⟩
  rw [h9]
  simp [exampleClient, segments]

/-- C32.  What the segments of a download are: together the value, at most seven bytes each, toggle bits alternating from 0, the
last-segment flag on the last one only. -/
theorem C32_segments (t : Bool) (data : List Byte) :
    ((segments t data).map segmentBytes).flatten = data ∧
    (∀ d ∈ segments t data, cs d = 0#8 ∧ (segmentBytes d).length ≤ 7) ∧
    (∀ (i : Nat) (h : i < (segments t data).length), flag (segments t data)[i] 4 = (t ^^ decide (i % 2 = 1))) ∧
    (∀ (i : Nat) (h : i < (segments t data).length), flag (segments t data)[i] 0 = decide (i + 1 = (segments t data).length)) := by
  suffices ∀ (n : Nat) (t : Bool) (data : List Byte), data.length = n →
      ((segments t data).map segmentBytes).flatten = data ∧
      (∀ d ∈ segments t data, cs d = 0#8 ∧ (segmentBytes d).length ≤ 7) ∧
      (∀ (i : Nat) (h : i < (segments t data).length), flag (segments t data)[i] 4 = (t ^^ decide (i % 2 = 1))) ∧
      (∀ (i : Nat) (h : i < (segments t data).length), flag (segments t data)[i] 0 = decide (i + 1 = (segments t data).length)) from
    this data.length t data rfl
  intro n
  induction n using Nat.strongRecOn with
  | _ n ih =>
  intro t data hn
  rw [segments]
  by_cases h : data.length ≤ 7
  · rw [dif_pos h]
    obtain ⟨p1, p2, p3, p4⟩ := segFrame_parse t true data h
    refine ⟨by simp [p4], ?_, ?_, ?_⟩
    · intro d hd
      rw [List.mem_singleton.mp hd, p1, p4]
      exact ⟨rfl, h⟩
    · intro i hi
      have : i = 0 := by simpa using hi
      subst this
      simp [p2]
    · intro i hi
      have : i = 0 := by simpa using hi
      subst this
      simp [p3]
  · rw [dif_neg h]
    have hl : (data.take 7).length ≤ 7 := by simp; omega
    obtain ⟨p1, p2, p3, p4⟩ := segFrame_parse t false (data.take 7) hl
    obtain ⟨i1, i2, i3, i4⟩ := ih (data.drop 7).length (by simp; omega) (!t) (data.drop 7) rfl
    refine ⟨by simp [p4, i1], ?_, ?_, ?_⟩
    · intro d hd
      rcases List.mem_cons.mp hd with rfl | hd
      · rw [p1, p4]; exact ⟨rfl, hl⟩
      · exact i2 d hd
    · intro i hi
      cases i with
      | zero => simp [p2]
      | succ i =>
        rw [List.getElem_cons_succ, i3 i (by simpa using hi)]
        have : decide ((i + 1) % 2 = 1) = !decide (i % 2 = 1) := by
          rcases Nat.mod_two_eq_zero_or_one i with h | h <;> simp [h] <;> omega
        rw [this]
        cases t <;> cases decide (i % 2 = 1) <;> rfl
    · intro i hi
      have hne : 0 < (segments (!t) (data.drop 7)).length := by rw [segments]; split <;> simp
      cases i with
      | zero =>
        rw [List.getElem_cons_zero, p3, List.length_cons]
        symm
        rw [decide_eq_false_iff_not]
        omega
      | succ i =>
        rw [List.getElem_cons_succ, i4 i (by simpa using hi), List.length_cons]
        congr 1
        rw [Nat.add_right_cancel_iff]

example : segments false [1, 2, 3, 4, 5, 6, 7, 8] = [#v[0x00, 1, 2, 3, 4, 5, 6, 7], #v[0x1d, 8, 0, 0, 0, 0, 0, 0]] := by
  simp [segments]; decide

/-- C32 fails for long values and a server that insists on the announced size: the client announces another size (it puts the second byte of
the length into the fourth byte of the field), so the server aborts at the last segment, the write throws and the server keeps its value. -/
theorem C32_long_download_refused (cfg : Config) (sid : Header) (c0 : Client) (s : Server) (o : Obj) (data : List Byte)
    (hstr : cfg.strict = true) (hlong : 256 ≤ data.length) :
    ∃ (c1 c' : Client) (s' : Server) (frames : List Frame),
      c0.begin o data false = .ok c1 ∧ Reaches cfg sid (opening c1 s) ⟨c', s', [], [], frames⟩ ∧
      c0.write true o data frames = (c', .throws .timeout) ∧ s'.store = s.store := by
  obtain ⟨c1, c', frames, d1, d2, d3, d4⟩ := download_refused cfg sid c0 s o data hstr hlong
  refine ⟨c1, c', _, frames, d1, d2, ?_, rfl⟩
  rw [write_of_loop d1 d4, if_pos (Or.inl d3)]

example : 256 ≤ (List.replicate 256 (7#8 : Byte)).length := by rw [List.length_replicate]; exact Nat.le_refl _

/-- C32.  Writing an empty value: the client sends an expedited request that means four zero bytes, which a conforming server stores, and
then throws. -/
theorem C32_empty_write (cfg : Config) (sid : Header) (c0 : Client) (s : Server) (o : Obj) :
    ∃ (c1 c' : Client) (s' : Server) (frames : List Frame),
      c0.begin o [] false = .ok c1 ∧ Reaches cfg sid (opening c1 s) ⟨c', s', [], [], frames⟩ ∧
      c0.write true o [] frames = (c', .throws .timeout) ∧ s'.store o = [0, 0, 0, 0] := by
  obtain ⟨c1, b1, b2, b3⟩ := begin_download c0 o []
  have hl : c1.lastMsg = frame c0.clientId (initFrame 0x23#8 o []) := by
    unfold Client.begin at b1
    simp only [Bool.false_eq_true, if_false] at b1
    rw [downloadInit_empty] at b1
    simp only [Outcome.ok.injEq] at b1
    rw [← b1]; rfl
  have hrecv : s.recv cfg c1.lastMsg.data = (s.put o [0, 0, 0, 0], some (initFrame 0x60#8 o [])) := by
    rw [hl]
    show s.recv cfg (initFrame 0x23#8 o []) = _
    unfold Server.recv
    have he : expeditedBytes (initFrame 0x23#8 o []) = [0, 0, 0, 0] := by
      unfold expeditedBytes
      rw [toList8, flag_initFrame]
      simp [initFrame, pad]
    rw [cs_initFrame, flag_initFrame, mux_initFrame, he]
    rfl
  have hproc : c1.processFrame (reply sid (initFrame 0x60#8 o [])) = c1.nextDownload false := process_initConfirm (by decide) hl
  rw [nextDownload_done (by rw [b2.off, b2.tot]; simp)] at hproc
  have hloop : c1.loop [reply sid (initFrame 0x60#8 o [])] = .ok { c1 with done := true } := by
    rw [loop_cons_true b2.ndone hproc]; rfl
  refine ⟨c1, { c1 with done := true }, s.put o [0, 0, 0, 0], [reply sid (initFrame 0x60#8 o [])], b1, ?_, ?_, by simp [Server.put]⟩
  · refine Reaches.step (turn_one b2.ndone hrecv hproc) ?_
    simp
    exact Reaches.refl _
  · rw [write_of_loop b1 hloop, if_pos (Or.inl (by show c1.offset = 0; rw [b2.off]; rfl))]

example : (exampleClient.write true exampleObj [] [exampleFrame (initFrame 0x60#8 exampleObj [])]).2 = .throws .timeout ∧
    (exampleClient.write true exampleObj [] [exampleFrame (initFrame 0x60#8 exampleObj [])]).1.sent.map (·.data) =
      [initFrame 0x23#8 exampleObj []] := by decide +kernel

/-! ## C33 -/

/-- C33.  Reading an object of a conforming server: with expedited transfer the value, or its leading bytes when fewer are requested; with
segmented transfer the value when its size is requested, or when nothing is requested and the server indicates the size.  Values of 256 and
more bytes are covered only without size indication; see `C33_long_upload_truncated`. -/
theorem C33_upload_partial (cfg : Config) (hcfg : cfg.Legal) (sid : Header) (c0 : Client) (s : Server) (o : Obj) (data : List Byte)
    (hv : s.store o ≠ []) (hz : data = [] → cfg.indicate = true) (h256 : cfg.indicate = true → (s.store o).length < 256)
    (hr : data = [] ∨ data.length = (s.store o).length ∨
      (cfg.expedite = true ∧ (s.store o).length ≤ 4 ∧ data.length ≤ (s.store o).length)) :
    ∃ (c1 c' : Client) (s' : Server) (frames : List Frame),
      c0.begin o data true = .ok c1 ∧ Reaches cfg sid (opening c1 s) ⟨c', s', [], [], frames⟩ ∧ s'.store = s.store ∧
      c0.read true o data frames = (c', .ok (), if data = [] then s.store o else (s.store o).take data.length) := by
  have h1 : 1 ≤ (s.store o).length := by
    cases h : s.store o with
    | nil => exact absurd h hv
    | cons a l => simp
  by_cases he : cfg.expedite = true ∧ 1 ≤ (s.store o).length ∧ (s.store o).length ≤ 4
  · have hlen : data.length ≤ (s.store o).length := by
      rcases hr with h | h | h
      · rw [h]; simp
      · omega
      · exact h.2.2
    obtain ⟨c1, c', frames, u1, u2, u3, u4, u5, u6, u7, -⟩ := upload_expedited cfg sid c0 s o data he.1 h1 he.2.2 hlen hz
    refine ⟨c1, c', _, frames, u1, u2, rfl, ?_⟩
    rw [read_of_loop u1 u7, if_neg (by omega), u6]
  · have hr' : data = [] ∨ data.length = (s.store o).length := by
      rcases hr with h | h | h
      · exact Or.inl h
      · exact Or.inr h
      · exact absurd ⟨h.1, h1, h.2.1⟩ he
    obtain ⟨c1, c', frames, u1, u2, u3, u4, u5, u6, u7, -⟩ := upload_segmented cfg hcfg sid c0 s o data hv he hr' hz h256
    refine ⟨c1, c', _, frames, u1, u2, rfl, ?_⟩
    rw [read_of_loop u1 u7, if_neg (by omega), u6]
    rcases hr' with h | h
    · simp [h]
    · rw [h, List.take_length]; simp

example : exampleCfg.Legal ∧ exampleCfg.indicate = true := ⟨fun v hv => cut7_legal _ v rfl hv, rfl⟩

example : ∃ (c1 c' : Client) (s' : Server) (frames : List Frame),
    exampleClient.begin exampleObj [] true = .ok c1 ∧
    Reaches exampleCfg exampleSid (opening c1 ⟨fun _ => [1, 2, 3, 4, 5, 6, 7, 8], .idle⟩) ⟨c', s', [], [], frames⟩ ∧
    s'.store = (fun _ => [1, 2, 3, 4, 5, 6, 7, 8]) ∧
    exampleClient.read true exampleObj [] frames = (c', .ok (), [1, 2, 3, 4, 5, 6, 7, 8]) :=
  C33_upload_partial exampleCfg (fun v hv => cut7_legal _ v rfl hv) exampleSid exampleClient ⟨fun _ => [1, 2, 3, 4, 5, 6, 7, 8], .idle⟩
    exampleObj [] (by simp) (fun _ => rfl) (fun _ => by simp) (Or.inl rfl)

/-- C33 and C35 fail for long values: a conforming server announces `n ≥ 256` bytes and sends the first segment.  If that segment holds
`n % 256` bytes the client takes the transfer for complete and `read` returns normally with these few bytes. -/
theorem C33_long_upload_truncated (cfg : Config) (sid : Header) (c0 : Client) (s : Server) (o : Obj) (p : List Byte) (rest : List (List Byte))
    (hind : cfg.indicate = true) (hlong : 256 ≤ (s.store o).length) (hmax : (s.store o).length < 2 ^ 24)
    (hsplit : cfg.split (s.store o) = p :: rest) (hp1 : 1 ≤ p.length) (hp7 : p.length ≤ 7) (hpn : p.length = (s.store o).length % 256)
    (hrest : rest ≠ []) :
    ∃ (c1 c' : Client) (s' : Server) (frames : List Frame),
      c0.begin o [] true = .ok c1 ∧ Reaches cfg sid (opening c1 s) ⟨c', s', [], [], frames⟩ ∧
      c0.read true o [] frames = (c', .ok (), p) ∧ p ≠ s.store o := by
  obtain ⟨c1, c', frames, u1, u2, u3, u4, u5, u6, u7⟩ := upload_truncated cfg sid c0 s o p rest hind hlong hmax hsplit hp1 hp7 hpn hrest
  refine ⟨c1, c', _, frames, u1, u2, ?_, ?_⟩
  · rw [read_of_loop u1 u7, if_neg (by omega), u6]
  · intro e
    rw [e] at hp7
    omega

example : ∃ (v p : List Byte) (rest : List (List Byte)), v.length = 263 ∧ exampleCfg.split v = p :: rest ∧ p.length = 263 % 256 ∧ rest ≠ [] := by
  generalize hv : List.replicate 263 (9#8 : Byte) = v
  have hl : v.length = 263 := by rw [← hv, List.length_replicate]
  refine ⟨v, v.take 7, cut7 (v.drop 7), hl, ?_, by rw [List.length_take, hl]; rfl, ?_⟩
  · show cut7 _ = _
    rw [cut7, dif_neg (by omega)]
  · rw [cut7]; split <;> simp

/-! ## C34 -/

/-- C34.  Whatever frames arrive, reads and writes of any size by a client in any state stay inside the payload and the value buffer: they
return or throw `TimeoutException`. -/
theorem C34_memory_safe (c : Client) (locked : Bool) (o : Obj) (data : List Byte) (frames : List Frame) :
    ((c.read locked o data frames).2.1 = .ok () ∨ (c.read locked o data frames).2.1 = .throws .timeout) ∧
    ((c.write locked o data frames).2 = .ok () ∨ (c.write locked o data frames).2 = .throws .timeout) := by
  cases locked with
  | false => exact ⟨Or.inr rfl, Or.inr rfl⟩
  | true =>
    constructor
    · obtain ⟨c1, b1, b2, -⟩ := begin_upload_wait c o data
      obtain ⟨c2, h2⟩ := loop_ok (.upInit b2) frames
      rw [read_of_loop b1 h2]
      split
      · exact Or.inr rfl
      · exact Or.inl rfl
    · obtain ⟨c1, b1, b2, -⟩ := begin_download c o data
      obtain ⟨c2, h2⟩ := loop_ok (.downInit b2) frames
      rw [write_of_loop b1 h2]
      split
      · exact Or.inr rfl
      · exact Or.inl rfl

/-- a hostile server: announces three bytes, then sends seven -/
example : (exampleClient.read true exampleObj [] [exampleFrame (initFrame 0x41#8 exampleObj [3, 0, 0, 0]),
    exampleFrame #v[0x01, 1, 2, 3, 4, 5, 6, 7]]).2.1 = .throws .timeout := by decide +kernel

/-! ## C35 -/

/-- C35.  A read that returns normally has heard a complete upload of that object that delivers the returned value: `CompleteUpload` says that
the answers are an initiate answer for the object and, if it is not expedited, upload segments with alternating toggle bits whose bytes in
order are the value; the value is not empty, and its size is the requested one, or the announced one when none was requested.  Otherwise the
read throws and the caller's value is untouched.  The announced size is the standard's when that is below 256 (`C35_announced_size`);
`C33_long_upload_truncated` shows the failure above. -/
theorem C35_read_complete_partial (c : Client) (locked : Bool) (o : Obj) (data : List Byte) (frames : List Frame) :
    ((c.read locked o data frames).2.1 = .ok () →
      ∃ used unread, frames = used ++ unread ∧ CompleteUpload o data.length used (c.read locked o data frames).2.2) ∧
    ((c.read locked o data frames).2.1 ≠ .ok () →
      (c.read locked o data frames).2.1 = .throws .timeout ∧ (c.read locked o data frames).2.2 = data) := by
  cases locked with
  | false => exact ⟨fun h => by simp [Client.read] at h, fun _ => ⟨rfl, rfl⟩⟩
  | true =>
    obtain ⟨c1, b1, b2, -⟩ := begin_upload_wait c o data
    obtain ⟨c2, h2, h3⟩ := upInit_loop c.clientId o data frames c1 b2
    rw [read_of_loop b1 h2]
    by_cases h : c2.offset = 0 ∨ c2.offset ≠ c2.total
    · rw [if_pos h]
      exact ⟨fun h => by simp at h, fun _ => ⟨rfl, rfl⟩⟩
    · rw [if_neg h]
      refine ⟨fun _ => h3 (by omega) (by omega), fun h => absurd rfl h⟩

/-- C35.  The announced size the client works with is the standard's size field when that is below 256. -/
theorem C35_announced_size (d : Bytes8) (h : (word d).toNat < 256) : heard d = (word d).toNat := heard_eq d h

example : (exampleClient.read true exampleObj [] [exampleFrame (initFrame 0x41#8 exampleObj [8, 0, 0, 0]),
    exampleFrame #v[0x00, 1, 2, 3, 4, 5, 6, 7], exampleFrame #v[0x1d, 8, 0, 0, 0, 0, 0, 0]]).2 = (.ok (), [1, 2, 3, 4, 5, 6, 7, 8]) ∧
    (exampleClient.read true exampleObj [5] [exampleFrame (initFrame 0x41#8 exampleObj [8, 0, 0, 0]),
    exampleFrame #v[0x00, 1, 2, 3, 4, 5, 6, 7]]).2 = (.throws .timeout, [5]) ∧
    (word (initFrame 0x41#8 exampleObj [8, 0, 0, 0])).toNat < 256 := by decide +kernel

/-! ## C36 -/

/-- C36.  A write that returns normally has heard, in order, the confirmations of the initiate request and of the segments, each with the right
object or toggle bit: either all of them, or all but the last one, after which the client heard nothing more (or a frame that is not 8 bytes
long).  The second case is the defect shown by `C36_unconfirmed_write_succeeds`; without it the statement would be the whole of C36. -/
theorem C36_write_confirmed_partial (c : Client) (locked : Bool) (o : Obj) (data : List Byte) (frames : List Frame)
    (h : (c.write locked o data frames).2 = .ok ()) :
    ∃ used unread, frames = used ++ unread ∧ Confirms o (answers used) ∧
      ((answers used).length = confirmsNeeded data ∨ ((answers used).length + 1 = confirmsNeeded data ∧ GaveUp unread)) := by
  cases locked with
  | false => simp [Client.write] at h
  | true =>
    obtain ⟨c1, b1, b2, -⟩ := begin_download c o data
    obtain ⟨c2, h2, h3⟩ := downInit_loop c.clientId o data frames c1 b2
    rw [write_of_loop b1 h2] at h
    by_cases hx : c2.offset = 0 ∨ c2.offset ≠ c2.total
    · simp [if_pos hx] at h
    · obtain ⟨used, unread, u1, u2, u3⟩ := h3 (by omega) (by omega)
      refine ⟨used, unread, u1, u2, ?_⟩
      rcases u3 with ⟨-, u3⟩ | ⟨-, u3, u4⟩
      · exact Or.inl u3
      · exact Or.inr ⟨u3, u4⟩

example : (exampleClient.write true exampleObj [1, 2, 3, 4, 5] [exampleFrame (initFrame 0x60#8 exampleObj []),
    exampleFrame (shortFrame 0x20#8)]).2 = .ok () ∧ confirmsNeeded [1, 2, 3, 4, 5] = 2 := by decide +kernel

/-- C36 fails: a write of one to four bytes that hears nothing at all gives up with a time-out abort and still returns normally. -/
theorem C36_unconfirmed_write_succeeds (c : Client) (o : Obj) (data : List Byte) (h1 : 1 ≤ data.length) (h4 : data.length ≤ 4) :
    (c.write true o data []).2 = .ok () ∧
    (c.write true o data []).1.sent.getLast? = some (abortOf c.clientId o 0x05040000#32) := by
  obtain ⟨c1, b1, b2, -⟩ := begin_download c o data
  have hl := loop_nil b2.ndone
  obtain ⟨e1, e2, -, -⟩ := abort_fields c1 0x05040000#32
  rw [write_of_loop b1 hl]
  constructor
  · show (if _ then _ else _) = _
    rw [if_neg]
    rw [e1, e2, b2.off, b2.tot, if_pos h4]
    omega
  · show (c1.abort 0x05040000#32).sent.getLast? = _
    rw [abort_eq b2.cur, b2.hcid]
    simp [Client.post]

/-- the same for the last segment: eight bytes, initiate and first segment confirmed, then silence -/
example : (exampleClient.write true exampleObj [1, 2, 3, 4, 5, 6, 7, 8] [exampleFrame (initFrame 0x60#8 exampleObj []),
    exampleFrame (shortFrame 0x20#8)]).2 = .ok () ∧ confirmsNeeded [1, 2, 3, 4, 5, 6, 7, 8] = 3 := by decide +kernel

/-! ## C37 -/

/-- C37.  An abort of the server: the access throws, nothing is sent. -/
theorem C37_server_abort (c : Client) (up : Bool) (o : Obj) (data : List Byte) (pre rest sent : List Frame) (req f : Frame)
    (hw : WaitsOn c up o data pre sent req) (h8 : f.dlc = 8) (h : cs f.data = 4#8) :
    (access c up o data (pre ++ f :: rest)).2 = .throws .timeout ∧ (access c up o data (pre ++ f :: rest)).1.sent = sent ++ [req] := by
  obtain ⟨c1, c', f1, f2, f3, f4, f5, -⟩ := waitsOn_fed hw
  have hp : c'.processFrame f = .ok ({ c' with offset := 0 }, false) := by
    cases f3 with
    | upInit h' => rw [process_wait_init h'.last, if_neg (by simp [h8]), if_pos h]
    | upSeg h' => rw [process_wait_segment h'.last, if_neg (by simp [h8]), if_pos h]
    | downInit h' =>
      obtain ⟨b, p, hb, hl⟩ := h'.last
      rw [process_wait_downInit hb hl, if_neg (by simp [h8]), if_pos h]
    | downSeg h' => rw [h'.process, if_neg (by simp [h8]), if_pos h]
  obtain ⟨a1, a2⟩ := access_of_loop f1 (f2.loop_append (f :: rest) ▸ loop_cons_false f3.facts.2.1 hp)
  rw [a1, a2]
  exact ⟨by rw [if_pos (Or.inl rfl)], f4⟩

example : (access exampleClient true exampleObj [] [exampleFrame (abortFrame exampleObj 0x06020000#32)]).2 = .throws .timeout :=
  (C37_server_abort exampleClient true exampleObj [] [] [] [] ⟨exampleClient.clientId, initFrame 0x40#8 exampleObj [], 8⟩ _
    (by unfold WaitsOn; decide +kernel) rfl (by decide +kernel)).1

/-- C37.  An answer of the wrong kind (command specifiers 0 to 3; 5 to 7 do not exist in the standard's table and are passed over,
`C37_unknown_specifier_ignored`): the client sends one abort frame for the object with the general error code, and throws. -/
theorem C37_wrong_kind_partial (c : Client) (up : Bool) (o : Obj) (data : List Byte) (pre rest sent : List Frame) (req f : Frame)
    (hw : WaitsOn c up o data pre sent req) (h8 : f.dlc = 8) (h3 : (cs f.data).toNat ≤ 3) (h : cs f.data ≠ answerTo req.data) :
    (access c up o data (pre ++ f :: rest)).2 = .throws .timeout ∧
    (access c up o data (pre ++ f :: rest)).1.sent = sent ++ [req, abortOf c.clientId o 0x08000000#32] := by
  obtain ⟨c1, c', f1, f2, f3, f4, f5, -⟩ := waitsOn_fed hw
  have h4 : cs f.data ≠ 4#8 := by intro e; rw [e] at h3; exact absurd h3 (by decide)
  have h5 : ¬ 5 ≤ (cs f.data).toNat := by omega
  have hp : c'.processFrame f = .ok (c'.refuse 0x08000000#32) := by
    unfold answerTo at h
    rw [← f5] at h
    cases f3 with
    | upInit h' =>
      have e0 : cs c'.lastMsg.data = 2#8 := by rw [h'.last]; show cs (initFrame _ _ _) = _; rw [cs_initFrame]; decide
      rw [e0] at h
      have hk : cs f.data ≠ 2#8 := h
      rw [process_wait_init h'.last, if_neg (by simp [h8]), if_neg h4, if_neg h5, if_pos (Or.inl hk)]
    | upSeg h' =>
      have e0 : cs c'.lastMsg.data = 3#8 := by rw [h'.last]; exact cs_short _
      rw [e0] at h
      have hk : cs f.data ≠ 0#8 := h
      rw [process_wait_segment h'.last, if_neg (by simp [h8]), if_neg h4, if_neg h5, if_pos hk]
    | downInit h' =>
      obtain ⟨b, p, hb, hl⟩ := h'.last
      have e0 : cs c'.lastMsg.data = 1#8 := by rw [hl]; show cs (initFrame _ _ _) = _; rw [cs_initFrame]; exact hb
      rw [e0] at h
      have hk : cs f.data ≠ 3#8 := h
      rw [process_wait_downInit hb hl, if_neg (by simp [h8]), if_neg h4, if_neg h5, if_pos (Or.inl hk)]
    | downSeg h' =>
      obtain ⟨l, hl⟩ := h'.last
      have e0 : cs c'.lastMsg.data = 0#8 := by rw [hl]; exact (segFrame_parse _ _ _ (by rw [seg_take_len]; omega)).1
      rw [e0] at h
      have hk : cs f.data ≠ 1#8 := h
      rw [h'.process, if_neg (by simp [h8]), if_neg h4, if_neg h5, if_pos hk]
  exact access_refused f1 f2 f3 f4 hp

example : (access exampleClient true exampleObj [] [exampleFrame (shortFrame 0x20#8)]).2 = .throws .timeout :=
  (C37_wrong_kind_partial exampleClient true exampleObj [] [] [] [] ⟨exampleClient.clientId, initFrame 0x40#8 exampleObj [], 8⟩ _
    (by unfold WaitsOn; decide +kernel) rfl (by decide +kernel) (by decide +kernel)).1

/-- C37.  An initiate answer for another object: abort with the general error code. -/
theorem C37_other_object (c : Client) (up : Bool) (o : Obj) (data : List Byte) (pre rest sent : List Frame) (req f : Frame)
    (hw : WaitsOn c up o data pre sent req) (h8 : f.dlc = 8) (hreq : cs req.data = 1#8 ∨ cs req.data = 2#8)
    (h : cs f.data = answerTo req.data) (hm : mux f.data ≠ o) :
    (access c up o data (pre ++ f :: rest)).2 = .throws .timeout ∧
    (access c up o data (pre ++ f :: rest)).1.sent = sent ++ [req, abortOf c.clientId o 0x08000000#32] := by
  obtain ⟨c1, c', f1, f2, f3, f4, f5, -⟩ := waitsOn_fed hw
  have h3 : (cs f.data).toNat ≤ 3 := by
    rw [h]; unfold answerTo; rcases hreq with e | e <;> rw [e] <;> decide
  have h4 : cs f.data ≠ 4#8 := by intro e; rw [e] at h3; exact absurd h3 (by decide)
  have h5 : ¬ 5 ≤ (cs f.data).toNat := by omega
  have hp : c'.processFrame f = .ok (c'.refuse 0x08000000#32) := by
    rw [← f5] at hreq
    cases f3 with
    | upInit h' => rw [process_wait_init h'.last, if_neg (by simp [h8]), if_neg h4, if_neg h5, if_pos (Or.inr hm)]
    | upSeg h' =>
      exfalso
      have e : cs c'.lastMsg.data = 3#8 := by rw [h'.last]; exact cs_short _
      rw [e] at hreq
      revert hreq; decide
    | downInit h' =>
      obtain ⟨b, p, hb, hl⟩ := h'.last
      rw [process_wait_downInit hb hl, if_neg (by simp [h8]), if_neg h4, if_neg h5, if_pos (Or.inr hm)]
    | downSeg h' =>
      exfalso
      obtain ⟨l, hl⟩ := h'.last
      have e : cs c'.lastMsg.data = 0#8 := by rw [hl]; exact (segFrame_parse _ _ _ (by rw [seg_take_len]; omega)).1
      rw [e] at hreq
      revert hreq; decide
  exact access_refused f1 f2 f3 f4 hp

example : (access exampleClient true exampleObj [] [exampleFrame (initFrame 0x41#8 ⟨0x6041#16, 1#8⟩ [])]).2 = .throws .timeout :=
  (C37_other_object exampleClient true exampleObj [] [] [] [] ⟨exampleClient.clientId, initFrame 0x40#8 exampleObj [], 8⟩ _
    (by unfold WaitsOn; decide +kernel) rfl (.inr (by decide +kernel)) (by decide +kernel) (by decide +kernel)).1

/-- C37.  A segment answer with the wrong toggle bit: abort with the toggle bit code. -/
theorem C37_wrong_toggle (c : Client) (up : Bool) (o : Obj) (data : List Byte) (pre rest sent : List Frame) (req f : Frame)
    (hw : WaitsOn c up o data pre sent req) (h8 : f.dlc = 8) (hreq : cs req.data = 0#8 ∨ cs req.data = 3#8)
    (h : cs f.data = answerTo req.data) (ht : flag f.data 4 ≠ flag req.data 4) :
    (access c up o data (pre ++ f :: rest)).2 = .throws .timeout ∧
    (access c up o data (pre ++ f :: rest)).1.sent = sent ++ [req, abortOf c.clientId o 0x05030000#32] := by
  obtain ⟨c1, c', f1, f2, f3, f4, f5, -⟩ := waitsOn_fed hw
  have h3 : (cs f.data).toNat ≤ 3 := by
    rw [h]; unfold answerTo; rcases hreq with e | e <;> rw [e] <;> decide
  have h4 : cs f.data ≠ 4#8 := by intro e; rw [e] at h3; exact absurd h3 (by decide)
  have h5 : ¬ 5 ≤ (cs f.data).toNat := by omega
  have hp : c'.processFrame f = .ok (c'.refuse 0x05030000#32) := by
    unfold answerTo at h
    rw [← f5] at hreq h ht
    cases f3 with
    | upInit h' =>
      exfalso
      rw [h'.last] at hreq
      have e : cs (frame c.clientId (initFrame 0x40#8 o [])).data = 2#8 := by show cs (initFrame _ _ _) = _; rw [cs_initFrame]; decide
      rw [e] at hreq
      revert hreq; decide
    | upSeg h' =>
      rename_i tg got
      rw [h'.last] at h ht
      have e : cs (frame c.clientId (shortFrame (0x60#8 ||| bitAt tg 4))).data = 3#8 := cs_short _
      have e' : flag (frame c.clientId (shortFrame (0x60#8 ||| bitAt tg 4))).data 4 = tg := flag_short _
      rw [e] at h
      rw [e'] at ht
      have h0 : cs f.data = 0#8 := h
      rw [process_wait_segment h'.last, if_neg (by simp [h8]), if_neg h4, if_neg h5, if_neg (by simp [h0]), if_pos ht]
    | downInit h' =>
      exfalso
      obtain ⟨b, p, hb, hl⟩ := h'.last
      rw [hl] at hreq
      have e : cs (frame c.clientId (initFrame b o p)).data = 1#8 := by show cs (initFrame _ _ _) = _; rw [cs_initFrame]; exact hb
      rw [e] at hreq
      revert hreq; decide
    | downSeg h' =>
      rename_i tg off0
      obtain ⟨l, hl⟩ := h'.last
      rw [hl] at h ht
      obtain ⟨e, e', -, -⟩ := segFrame_parse tg l ((data.drop off0).take 7) (by rw [seg_take_len]; omega)
      have e2 : cs (frame c.clientId (segFrame 0#8 tg ((data.drop off0).take 7) l)).data = 0#8 := e
      have e3 : flag (frame c.clientId (segFrame 0#8 tg ((data.drop off0).take 7) l)).data 4 = tg := e'
      rw [e2] at h
      rw [e3] at ht
      have h0 : cs f.data = 1#8 := h
      rw [h'.process, if_neg (by simp [h8]), if_neg h4, if_neg h5, if_neg (by simp [h0]), if_pos ht]
  exact access_refused f1 f2 f3 f4 hp

example : (access exampleClient true exampleObj [] [exampleFrame (initFrame 0x41#8 exampleObj [3, 0, 0, 0]), exampleFrame #v[0x10, 1, 2, 3, 4, 5, 6, 7]]).2 = .throws .timeout :=
  (C37_wrong_toggle exampleClient true exampleObj [] [exampleFrame (initFrame 0x41#8 exampleObj [3, 0, 0, 0])] []
    [⟨exampleClient.clientId, initFrame 0x40#8 exampleObj [], 8⟩] ⟨exampleClient.clientId, shortFrame 0x60#8, 8⟩ _
    (by unfold WaitsOn; decide +kernel) rfl (.inr (by decide +kernel)) (by decide +kernel) (by decide +kernel)).1

/-- C37.  Too many bytes: an upload segment, otherwise right, that brings the number of received bytes above the requested size (or the
announced one when none was requested): abort with the length code.  `init` is the initiate answer and `segs` the segments heard before. -/
theorem C37_too_many_bytes (c : Client) (o : Obj) (data : List Byte) (pre rest sent segs : List Frame) (req f init : Frame)
    (hw : WaitsOn c true o data pre sent req) (h8 : f.dlc = 8) (hreq : cs req.data = 3#8) (h : cs f.data = 0#8)
    (ht : flag f.data 4 = flag req.data 4) (hpre : answers pre = init :: segs) (hinit : (word init.data).toNat < 256)
    (hsize : (if data = [] then announces init.data else data.length) ≠ 0)
    (hmany : (carried segs).length + (segmentBytes f.data).length > if data = [] then announces init.data else data.length) :
    (access c true o data (pre ++ f :: rest)).2 = .throws .timeout ∧
    (access c true o data (pre ++ f :: rest)).1.sent = sent ++ [req, abortOf c.clientId o 0x06070010#32] := by
  obtain ⟨c1, c', f1, f2, f3, f4, f5, f6⟩ := waitsOn_fed hw
  have h4 : cs f.data ≠ 4#8 := by rw [h]; decide
  have h5 : ¬ 5 ≤ (cs f.data).toNat := by rw [h]; decide
  have hp : c'.processFrame f = .ok (c'.refuse 0x06070010#32) := by
    rcases fed_upload (f6 rfl) f2 f3.facts.2.1 with w | ⟨g, segs', tg, e1, w, e2, -⟩
    · exfalso
      rw [← f5, w.last] at hreq
      have e : cs (frame c.clientId (initFrame 0x40#8 o [])).data = 2#8 := by show cs (initFrame _ _ _) = _; rw [cs_initFrame]; decide
      rw [e] at hreq
      revert hreq; decide
    · rw [hpre] at e1
      obtain ⟨rfl, rfl⟩ := List.cons.inj e1
      rw [← f5, w.last] at ht
      have e' : flag (frame c.clientId (shortFrame (0x60#8 ||| bitAt tg 4))).data 4 = tg := flag_short _
      rw [e'] at ht
      have hsz : c'.total = if data = [] then announces init.data else data.length := by
        rw [e2]
        unfold sizeAfter
        rw [announced_eq _ hinit]
        simp
      rw [← hsz] at hsize hmany
      rw [process_wait_segment w.last, if_neg (by simp [h8]), if_neg h4, if_neg h5, if_neg (by simp [h]), if_neg (by simp [ht]),
        readSegment_over c' f.data (carried segs) w.inv ⟨hsize, by rw [segSize_eq, w.inv.off]; omega⟩]
      rfl
  exact access_refused f1 f2 f3 f4 hp

example : (access exampleClient true exampleObj [] [exampleFrame (initFrame 0x41#8 exampleObj [3, 0, 0, 0]), exampleFrame #v[0x00, 1, 2, 3, 4, 5, 6, 7]]).2 = .throws .timeout :=
  (C37_too_many_bytes exampleClient exampleObj [] [exampleFrame (initFrame 0x41#8 exampleObj [3, 0, 0, 0])] []
    [⟨exampleClient.clientId, initFrame 0x40#8 exampleObj [], 8⟩] [] ⟨exampleClient.clientId, shortFrame 0x60#8, 8⟩ _
    (exampleFrame (initFrame 0x41#8 exampleObj [3, 0, 0, 0]))
    (by unfold WaitsOn; decide +kernel) rfl (by decide +kernel) (by decide +kernel) (by decide +kernel) (by decide +kernel) (by decide +kernel)
    (by decide +kernel) (by decide +kernel)).1

/-- C37.  An initiate answer that announces fewer bytes than requested: abort with the length code. -/
theorem C37_too_few_announced (c : Client) (o : Obj) (data : List Byte) (pre rest sent : List Frame) (req f : Frame)
    (hw : WaitsOn c true o data pre sent req) (h8 : f.dlc = 8) (hreq : cs req.data = 2#8) (h : cs f.data = 2#8)
    (hm : mux f.data = o) (hsmall : (word f.data).toNat < 256) (h0 : announces f.data ≠ 0) (hfew : announces f.data < data.length) :
    (access c true o data (pre ++ f :: rest)).2 = .throws .timeout ∧
    (access c true o data (pre ++ f :: rest)).1.sent = sent ++ [req, abortOf c.clientId o 0x06070010#32] := by
  obtain ⟨c1, c', f1, f2, f3, f4, f5, f6⟩ := waitsOn_fed hw
  have h4 : cs f.data ≠ 4#8 := by rw [h]; decide
  have h5 : ¬ 5 ≤ (cs f.data).toNat := by rw [h]; decide
  have hp : c'.processFrame f = .ok (c'.refuse 0x06070010#32) := by
    rcases fed_upload (f6 rfl) f2 f3.facts.2.1 with w | ⟨g, segs', tg, e1, w, e2, -⟩
    · rw [process_wait_init w.last, if_neg (by simp [h8]), if_neg h4, if_neg h5, if_neg (by simp [h, hm]), announced_eq _ hsmall, w.tot,
        if_pos ⟨h0, by omega, hfew⟩]
    · exfalso
      rw [← f5, w.last] at hreq
      have e : cs (frame c.clientId (shortFrame (0x60#8 ||| bitAt tg 4))).data = 3#8 := cs_short _
      rw [e] at hreq
      revert hreq; decide
  exact access_refused f1 f2 f3 f4 hp

example : (access exampleClient true exampleObj [0, 0, 0, 0, 0, 0] [exampleFrame (initFrame 0x41#8 exampleObj [5, 0, 0, 0])]).2 = .throws .timeout :=
  (C37_too_few_announced exampleClient exampleObj [0, 0, 0, 0, 0, 0] [] [] [] ⟨exampleClient.clientId, initFrame 0x40#8 exampleObj [], 8⟩ _
    (by unfold WaitsOn; decide +kernel) rfl (by decide +kernel) (by decide +kernel) (by decide +kernel) (by decide +kernel) (by decide +kernel)
    (by decide +kernel)).1

/-- C37, the part that fails: an answer with command specifier 5, 6 or 7 is not aborted; the client goes on as if it had not been sent. -/
theorem C37_unknown_specifier_ignored (c : Client) (up : Bool) (o : Obj) (data : List Byte) (pre rest sent : List Frame) (req f : Frame)
    (hw : WaitsOn c up o data pre sent req) (h8 : f.dlc = 8) (h : 5 ≤ (cs f.data).toNat) :
    access c up o data (pre ++ f :: rest) = access c up o data (pre ++ rest) := by
  obtain ⟨c1, c', f1, f2, f3, f4, f5, f6⟩ := waitsOn_fed hw
  have h4 : cs f.data ≠ 4#8 := by intro e; rw [e] at h; exact absurd h (by decide)
  have hp : c'.processFrame f = .ok (c', true) := by
    cases f3 with
    | upInit h' => rw [process_wait_init h'.last, if_neg (by simp [h8]), if_neg h4, if_pos h]
    | upSeg h' => rw [process_wait_segment h'.last, if_neg (by simp [h8]), if_neg h4, if_pos h]
    | downInit h' =>
      obtain ⟨b, p, hb, hl⟩ := h'.last
      rw [process_wait_downInit hb hl, if_neg (by simp [h8]), if_neg h4, if_pos h]
    | downSeg h' => rw [h'.process, if_neg (by simp [h8]), if_neg h4, if_pos h]
  obtain ⟨c2, hl⟩ := loop_ok f3 rest
  obtain ⟨a1, a2⟩ := access_of_loop f1 (f2.loop_append rest ▸ hl)
  have hl' : c'.loop (f :: rest) = .ok c2 := by rw [loop_cons_true f3.facts.2.1 hp]; exact hl
  obtain ⟨a3, a4⟩ := access_of_loop f1 (f2.loop_append (f :: rest) ▸ hl')
  exact Prod.ext (by rw [a1, a3]) (by rw [a2, a4])

/-- waiting for the first answer, for a download segment's and for an upload segment's; wrong answers in each state -/
example :
    WaitsOn exampleClient true exampleObj [] [] [] ⟨exampleClient.clientId, initFrame 0x40#8 exampleObj [], 8⟩ ∧
    WaitsOn exampleClient false exampleObj [1, 2, 3, 4, 5] [exampleFrame (initFrame 0x60#8 exampleObj [])]
      [⟨exampleClient.clientId, initFrame 0x21#8 exampleObj [5, 0, 0, 0], 8⟩]
      ⟨exampleClient.clientId, #v[0x05, 1, 2, 3, 4, 5, 0, 0], 8⟩ ∧
    WaitsOn exampleClient true exampleObj [] [exampleFrame (initFrame 0x41#8 exampleObj [3, 0, 0, 0])]
      [⟨exampleClient.clientId, initFrame 0x40#8 exampleObj [], 8⟩] ⟨exampleClient.clientId, shortFrame 0x60#8, 8⟩ ∧
    cs (abortFrame exampleObj 0x06020000#32) = 4#8 ∧ answerTo (shortFrame 0x60#8) = 0#8 ∧ cs (shortFrame 0x20#8) = 1#8 ∧
    mux (initFrame 0x41#8 ⟨0x6041#16, 1#8⟩ []) ≠ exampleObj ∧ flag #v[0x10, 1, 2, 3, 4, 5, 6, 7] 4 ≠ flag (shortFrame 0x60#8) 4 ∧
    announces (initFrame 0x41#8 exampleObj [3, 0, 0, 0]) = 3 ∧ (segmentBytes #v[0x00, 1, 2, 3, 4, 5, 6, 7]).length > 3 ∧
    5 ≤ (cs (shortFrame 0xa0#8)).toNat := by
  refine ⟨?_, ?_, ?_, ?_⟩ <;> (try unfold WaitsOn) <;> decide +kernel

end Verif.Props
