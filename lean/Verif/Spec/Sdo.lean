import Verif.Model.Sdo

/-!
# A conforming SDO server (CiA 301, 7.2.4.3) and the shape of complete transfers

Written from the standard's frame tables with its own field extraction; of the model only the types `Obj`, `Bytes8` and, for `talk`, the
client's entry points are used.
-/

namespace Verif.Spec.Sdo
open Verif Verif.Sdo

/-! ## frames of the standard -/

/-- command specifier: bits 7..5 of the first byte -/
def cs (d : Bytes8) : Byte := d[0] >>> 5
/-- multiplexer: object index (little endian) and sub-index -/
def mux (d : Bytes8) : Obj := ⟨d[2] ++ d[1], d[3]⟩
/-- bytes 4..7 as a 32 bit little endian number -/
def word (d : Bytes8) : BitVec 32 := d[7] ++ d[6] ++ d[5] ++ d[4]
/-- bit `i` of the first byte -/
def flag (d : Bytes8) (i : Nat) : Bool := d[0].getLsbD i
/-- bytes in an expedited initiate frame: with `s` set `4 - n`, otherwise all four -/
def expeditedBytes (d : Bytes8) : List Byte :=
  (d.toList.drop 4).take (if flag d 0 then 4 - ((d[0] >>> 2) &&& 3#8).toNat else 4)
/-- bytes in a segment: `7 - n` -/
def segmentBytes (d : Bytes8) : List Byte := (d.toList.drop 1).take (7 - ((d[0] >>> 1) &&& 7#8).toNat)

/-- one byte of a field filled up with zeros -/
def pad (l : List Byte) (i : Nat) : Byte := l.getD i 0
/-- a bit at position `i` of the first byte -/
def bitAt (b : Bool) (i : Nat) : Byte := if b then 1#8 <<< i else 0#8

/-- frame with a command byte, an object and up to four data bytes -/
def initFrame (b : Byte) (o : Obj) (p : List Byte) : Bytes8 :=
  #v[b, o.index.extractLsb' 0 8, o.index.extractLsb' 8 8, o.sub, pad p 0, pad p 1, pad p 2, pad p 3]
/-- 32 bit number, little endian -/
def le32 (w : BitVec 32) : List Byte := [w.extractLsb' 0 8, w.extractLsb' 8 8, w.extractLsb' 16 8, w.extractLsb' 24 8]
/-- segment frame: toggle bit, `7 - n` bytes, last flag -/
def segFrame (csBits : Byte) (t : Bool) (p : List Byte) (last : Bool) : Bytes8 :=
  #v[csBits ||| bitAt t 4 ||| (BitVec.ofNat 8 (7 - p.length) <<< 1) ||| bitAt last 0, pad p 0, pad p 1, pad p 2, pad p 3, pad p 4, pad p 5, pad p 6]
/-- frame with only a command byte -/
def shortFrame (b : Byte) : Bytes8 := #v[b, 0, 0, 0, 0, 0, 0, 0]
/-- abort frame: object and code -/
def abortFrame (o : Obj) (code : BitVec 32) : Bytes8 := initFrame 0x80#8 o (le32 code)

/-! ## the server -/

/-- How the server behaves where the standard leaves a choice: expedited upload for up to four bytes, size indication, how it cuts a
value into segments, and whether it insists on the announced download size. -/
structure Config where
  expedite : Bool
  indicate : Bool
  split : List Byte → List (List Byte)
  strict : Bool

/-- a legal cut: non-empty pieces of at most seven bytes -/
def Config.Legal (cfg : Config) : Prop :=
  ∀ v, v ≠ [] → (cfg.split v).flatten = v ∧ ∀ p ∈ cfg.split v, 1 ≤ p.length ∧ p.length ≤ 7

inductive Phase where
  | idle
  | down (o : Obj) (announced : Option Nat) (got : List Byte) (t : Bool)
  | up (o : Obj) (rest : List (List Byte)) (t : Bool)

structure Server where
  store : Obj → List Byte
  phase : Phase

def Server.put (s : Server) (o : Obj) (v : List Byte) : Server :=
  { store := fun o' => if o' = o then v else s.store o', phase := .idle }

/-- reaction to one request: new state and answer -/
def Server.recv (cfg : Config) (s : Server) (d : Bytes8) : Server × Option Bytes8 :=
  if cs d = 1#8 then
    if flag d 1 then (s.put (mux d) (expeditedBytes d), some (initFrame 0x60#8 (mux d) []))
    else
      ({ s with phase := .down (mux d) (if flag d 0 then some (word d).toNat else none) [] false }, some (initFrame 0x60#8 (mux d) []))
  else if cs d = 0#8 then
    match s.phase with
    | .down o announced got t =>
      if flag d 4 = t then
        if flag d 0 then
          if cfg.strict ∧ announced.isSome ∧ announced ≠ some (got ++ segmentBytes d).length then
            ({ s with phase := .idle }, some (abortFrame o 0x06070010#32))
          else (s.put o (got ++ segmentBytes d), some (shortFrame (0x20#8 ||| bitAt t 4)))
        else ({ s with phase := .down o announced (got ++ segmentBytes d) (!t) }, some (shortFrame (0x20#8 ||| bitAt t 4)))
      else ({ s with phase := .idle }, some (abortFrame o 0x05030000#32))
    | _ => (s, some (abortFrame ⟨0, 0⟩ 0x05040001#32))
  else if cs d = 2#8 then
    if cfg.expedite ∧ 1 ≤ (s.store (mux d)).length ∧ (s.store (mux d)).length ≤ 4 then
      ({ s with phase := .idle }, some (initFrame (if cfg.indicate then 0x43#8 ||| (BitVec.ofNat 8 (4 - (s.store (mux d)).length) <<< 2)
        else 0x42#8) (mux d) (s.store (mux d))))
    else
      ({ s with phase := .up (mux d) (cfg.split (s.store (mux d))) false },
        some (initFrame (if cfg.indicate then 0x41#8 else 0x40#8) (mux d)
          (if cfg.indicate then le32 (BitVec.ofNat 32 (s.store (mux d)).length) else [])))
  else if cs d = 3#8 then
    match s.phase with
    | .up o (p :: rest) t =>
      if flag d 4 = t then
        (if rest.isEmpty then { s with phase := .idle } else { s with phase := .up o rest (!t) }, some (segFrame 0#8 t p rest.isEmpty))
      else ({ s with phase := .idle }, some (abortFrame o 0x05030000#32))
    | _ => (s, some (abortFrame ⟨0, 0⟩ 0x05040001#32))
  else if cs d = 4#8 then ({ s with phase := .idle }, none)
  else (s, some (abortFrame ⟨0, 0⟩ 0x05040001#32))

/-- reaction to a list of requests: new state and the answers as frames with the server's header -/
def Server.serve (cfg : Config) (sid : Header) (s : Server) : List Frame → Server × List Frame
  | [] => (s, [])
  | f :: fs =>
    let r := s.recv cfg f.data
    let t := r.1.serve cfg sid fs
    (t.1, (r.2.toList.map fun d => ({ toHeader := sid, data := d, dlc := 8 } : Frame)) ++ t.2)

/-! ## client and server take turns -/

/-- Where a conversation stands: the client, the server, frames sent by the client that the server has not seen yet, answers the client has
not read yet, and the frames it has read. -/
structure Talk where
  client : Client
  server : Server
  pending : List Frame
  inbox : List Frame
  read : List Frame

/-- One turn: the server works through what was sent, then the client reads one frame.  `none`: the conversation is over (the transfer is
done, or nothing is there to read). -/
def Talk.turn (cfg : Config) (sid : Header) (t : Talk) : Option Talk :=
  let r := t.server.serve cfg sid t.pending
  if t.client.done then none
  else
    match t.inbox ++ r.2 with
    | [] => none
    | f :: rest =>
      match t.client.processFrame f with
      | .ok (c, _) => some ⟨c, r.1, c.sent.drop t.client.sent.length, rest, t.read ++ [f]⟩
      | _ => none

/-- `Reaches cfg sid t t'`: some number of turns lead from `t` to `t'` -/
inductive Reaches (cfg : Config) (sid : Header) : Talk → Talk → Prop
  | refl (t : Talk) : Reaches cfg sid t t
  | step {t t' t'' : Talk} : t.turn cfg sid = some t' → Reaches cfg sid t' t'' → Reaches cfg sid t t''

/-- the opening of a conversation: the client has sent its first frame -/
def opening (c : Client) (s : Server) : Talk := ⟨c, s, [c.lastMsg], [], []⟩

/-! ## what goes over the wire in a download -/

/-- the segments of a download: seven bytes each but the last, toggle bit alternating, last flag on the last only -/
def segments (t : Bool) (l : List Byte) : List Bytes8 :=
  if _h : l.length ≤ 7 then [segFrame 0#8 t l true] else segFrame 0#8 t (l.take 7) false :: segments (!t) (l.drop 7)
termination_by l.length
decreasing_by simp; omega

/-! ## what a complete transfer looks like from the client's side -/

/-- answers: everything but frames with the command specifiers 5, 6, 7, which the client passes over -/
def answers (fs : List Frame) : List Frame := fs.filter fun f => decide (f.dlc ≠ 8 ∨ (cs f.data).toNat ≤ 4)

/-- upload segments with alternating toggle bits, starting with `t` -/
def UploadSegments : Bool → List Frame → Prop
  | _, [] => True
  | t, f :: fs => f.dlc = 8 ∧ cs f.data = 0#8 ∧ flag f.data 4 = t ∧ UploadSegments (!t) fs

/-- all bytes carried by some segments -/
def carried (fs : List Frame) : List Byte := (fs.map fun f => segmentBytes f.data).flatten

/-- the size the client takes from a segmented initiate answer: bytes 4 and 7 of the frame.  The standard's size field is `word`; the two
agree for sizes below 256 (`heard_eq`). -/
def heard (d : Bytes8) : Nat := d[4].toNat + 256 * d[7].toNat

/-- `fs` is a complete upload of `o` that delivers `v`, when `req` bytes were asked for (0: any number) -/
def CompleteUpload (o : Obj) (req : Nat) (fs : List Frame) (v : List Byte) : Prop :=
  match answers fs with
  | [] => False
  | f :: segs => f.dlc = 8 ∧ cs f.data = 2#8 ∧ mux f.data = o ∧ v ≠ [] ∧
    if flag f.data 1 then
      segs = [] ∧ v = (f.data.toList.drop 4).take v.length ∧
        (if req = 0 then flag f.data 0 = true ∧ v = expeditedBytes f.data else v.length = req)
    else
      UploadSegments false segs ∧ v = carried segs ∧
        (if req = 0 then flag f.data 0 = true ∧ v.length = heard f.data else v.length = req)

/-- confirmations of download segments with alternating toggle bits, starting with `t` -/
def SegmentConfirms : Bool → List Frame → Prop
  | _, [] => True
  | t, f :: fs => f.dlc = 8 ∧ cs f.data = 1#8 ∧ flag f.data 4 = t ∧ SegmentConfirms (!t) fs

/-- the first confirmations of a download of `o`: the initiate answer, then segment answers -/
def Confirms (o : Obj) : List Frame → Prop
  | [] => True
  | f :: fs => f.dlc = 8 ∧ cs f.data = 3#8 ∧ mux f.data = o ∧ SegmentConfirms false fs

/-- number of confirmations a whole download needs -/
def confirmsNeeded (data : List Byte) : Nat := 1 + (if data.length ≤ 4 then 0 else (data.length + 6) / 7)

/-- nothing more to read: silence, or a frame that is not 8 bytes long -/
def GaveUp (unread : List Frame) : Prop := unread = [] ∨ ∃ f rest, unread = f :: rest ∧ f.dlc ≠ 8

/-! ## accesses -/

/-- an abort frame on the client's channel -/
def abortOf (cid : Header) (o : Obj) (code : BitVec 32) : Frame := { toHeader := cid, data := abortFrame o code, dlc := 8 }

/-- one access to the object, a read (`up`) or a write, with the frames the client hears: the client afterwards and the outcome -/
def access (c : Client) (up : Bool) (o : Obj) (data : List Byte) (frames : List Frame) : Client × Outcome Exc Unit :=
  if up then ((c.read true o data frames).1, (c.read true o data frames).2.1) else c.write true o data frames

/-- After hearing `pre` the client waits for the answer to `req`: if it heard nothing more, it would give up on `req` and abort with the
time-out code. -/
def WaitsOn (c : Client) (up : Bool) (o : Obj) (data : List Byte) (pre sent : List Frame) (req : Frame) : Prop :=
  (access c up o data pre).1.sent = sent ++ [req, abortOf c.clientId o 0x05040000#32]

/-- the command specifier that answers a request (CiA 301: download initiate 1 → 3, download segment 0 → 1, upload initiate 2 → 2, upload
segment 3 → 0) -/
def answerTo (d : Bytes8) : Byte := if cs d = 1#8 then 3#8 else if cs d = 0#8 then 1#8 else if cs d = 2#8 then 2#8 else 0#8

/-- the size announced by an initiate answer, 0 when it announces none; for sizes below 256 -/
def announces (d : Bytes8) : Nat := if flag d 0 then (if flag d 1 then (expeditedBytes d).length else (word d).toNat) else 0

end Verif.Spec.Sdo
