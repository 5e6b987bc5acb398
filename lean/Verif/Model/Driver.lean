import Verif.Model.Frame

/-!
# SocketCAN driver
socketcan_interface/include/socketcan_interface/{asio_base,socketcan,settings}.h

The operating system is a parameter: results of system calls and completions of asynchronous reads are arguments of the
corresponding steps.
-/

namespace Verif.Drv
open Verif

/-- kernel `struct can_frame` as used in socketcan_interface/include/socketcan_interface/socketcan.h:134,216-222 -/
structure KFrame where
  canId : BitVec 32
  dlc : Byte
  data : Vector Byte 8
  deriving DecidableEq, Repr, Inhabited

/-- `CAN_EFF_FLAG` of linux/can.h, used in socketcan_interface/include/socketcan_interface/socketcan.h:217,253 -/
def CAN_EFF_FLAG : BitVec 32 := 0x80000000#32
/-- `CAN_RTR_FLAG` of linux/can.h, used in socketcan_interface/include/socketcan_interface/socketcan.h:217,256 -/
def CAN_RTR_FLAG : BitVec 32 := 0x40000000#32
/-- `CAN_ERR_FLAG` of linux/can.h, used in socketcan_interface/include/socketcan_interface/socketcan.h:243 -/
def CAN_ERR_FLAG : BitVec 32 := 0x20000000#32
/-- `CAN_SFF_MASK` of linux/can.h, used in socketcan_interface/include/socketcan_interface/socketcan.h:254 -/
def CAN_SFF_MASK : BitVec 32 := 0x000007FF#32
/-- `CAN_EFF_MASK` of linux/can.h, used in socketcan_interface/include/socketcan_interface/socketcan.h:244,254 -/
def CAN_EFF_MASK : BitVec 32 := 0x1FFFFFFF#32

/-- the error classes of linux/can/error.h used in socketcan_interface/include/socketcan_interface/socketcan.h:32-40 -/
inductive ErrClass where
  | lostarb | crtl | prot | trx | ack | txTimeout | busoff | buserror | restarted
  deriving DecidableEq, Repr

/-- bit of a class (linux/can/error.h), used in socketcan_interface/include/socketcan_interface/socketcan.h:31-40 -/
def ErrClass.bit : ErrClass → BitVec 32
  | .txTimeout => 0x001#32
  | .lostarb   => 0x002#32
  | .crtl      => 0x004#32
  | .prot      => 0x008#32
  | .trx       => 0x010#32
  | .ack       => 0x020#32
  | .busoff    => 0x040#32
  | .buserror  => 0x080#32
  | .restarted => 0x100#32

/-- the stringised macro argument `#e` (socketcan_interface/include/socketcan_interface/socketcan.h:31-40) -/
def ErrClass.name : ErrClass → Text
  | .txTimeout => "CAN_ERR_TX_TIMEOUT".toList
  | .lostarb   => "CAN_ERR_LOSTARB".toList
  | .crtl      => "CAN_ERR_CRTL".toList
  | .prot      => "CAN_ERR_PROT".toList
  | .trx       => "CAN_ERR_TRX".toList
  | .ack       => "CAN_ERR_ACK".toList
  | .busoff    => "CAN_ERR_BUSOFF".toList
  | .buserror  => "CAN_ERR_BUSERROR".toList
  | .restarted => "CAN_ERR_RESTARTED".toList

/-- order of the `add_bit` lines (socketcan_interface/include/socketcan_interface/socketcan.h:32-40) -/
def errOrder : List ErrClass :=
  [.lostarb, .crtl, .prot, .trx, .ack, .txTimeout, .busoff, .buserror, .restarted]

/-- `Settings::getRepr` (socketcan_interface/include/socketcan_interface/settings.h:29,38,43-48): any partial map -/
abbrev Settings := Text → Option Text

/-- the sign skipped by `boost::lexical_cast<bool>` (socketcan_interface/include/socketcan_interface/settings.h:19): `-` only if
the last character was a zero (`out = false`) -/
def skipSign (out : Bool) : Text → Text
  | '+' :: r => r
  | '-' :: r => if out then '-' :: r else r
  | r => r

/-- `boost::lexical_cast<bool>` as called by `get_optional<bool>`
(socketcan_interface/include/socketcan_interface/settings.h:19): optional sign (`-` only before a zero), zeros, then `0` or
`1`; `none` is `bad_lexical_cast`.  Library behaviour, part of the trusted base. -/
def lexicalBool (s : Text) : Option Bool :=
  match s.getLast? with
  | none => none
  | some last =>
    let out := last == '1'
    if !out && last != '0' then none
    else if (skipSign out s.dropLast).all (· == '0') then some out else none

/-- exceptions leaving `init` (socketcan_interface/include/socketcan_interface/settings.h:19) -/
inductive Exc where
  | badLexicalCast
  deriving DecidableEq, Repr

/-- one `add_bit(e)` (socketcan_interface/include/socketcan_interface/socketcan.h:31): is the class selected -/
def classSelected (st : Settings) (entry : Text) (defaults : BitVec 32) (e : ErrClass) : Outcome Exc Bool :=
  match st (entry ++ '/' :: e.name) with
  | none => .ok (defaults &&& e.bit != 0#32)
  | some repr => match lexicalBool repr with
    | some b => .ok b
    | none => .throws .badLexicalCast

/-- the sequence of `add_bit` lines for the classes `es` (socketcan_interface/include/socketcan_interface/socketcan.h:29-43) -/
def addBits (st : Settings) (entry : Text) (defaults : BitVec 32) : List ErrClass → BitVec 32 → Outcome Exc (BitVec 32)
  | [], mask => .ok mask
  | e :: es, mask => match classSelected st entry defaults e with
    | .ok b => addBits st entry defaults es (mask ||| (if b then e.bit else 0#32))
    | .throws x => .throws x
    | .ub => .ub

/-- socketcan_interface/include/socketcan_interface/socketcan.h:28-44 `parse_error_mask` -/
def parseErrorMask (st : Settings) (entry : Text) (defaults : BitVec 32) : Outcome Exc (BitVec 32) :=
  addBits st entry defaults errOrder 0#32

/-- socketcan_interface/include/socketcan_interface/socketcan.h:69-73 `fatal_errors` -/
def fatalDefaults : BitVec 32 :=
  ErrClass.txTimeout.bit ||| ErrClass.busoff.bit ||| ErrClass.buserror.bit ||| ErrClass.restarted.bit
/-- socketcan_interface/include/socketcan_interface/socketcan.h:74-79 `report_errors` -/
def reportDefaults : BitVec 32 :=
  ErrClass.lostarb.bit ||| ErrClass.crtl.bit ||| ErrClass.prot.bit ||| ErrClass.trx.bit ||| ErrClass.ack.bit

/-- the two masks computed by `init(device, loopback, settings)`, as (error mask, fatal mask)
(socketcan_interface/include/socketcan_interface/socketcan.h:80-81) -/
def masks (st : Settings) : Outcome Exc (BitVec 32 × BitVec 32) :=
  match parseErrorMask st "fatal_error_mask".toList fatalDefaults with
  | .ok m =>
    let fatal := m ||| ErrClass.busoff.bit
    match parseErrorMask st "error_mask".toList (reportDefaults ||| fatal) with
    | .ok m' => .ok (m' ||| fatal, fatal)
    | .throws x => .throws x
    | .ub => .ub
  | .throws x => .throws x
  | .ub => .ub

/-- `State::DriverState` (socketcan_interface/include/socketcan_interface/interface.h:87-90) -/
inductive DriverState where
  | closed | opened | ready
  deriving DecidableEq, Repr

/-- `struct State` (socketcan_interface/include/socketcan_interface/interface.h:86-97); the error code is its integer value,
0 is "no error" (simplification: one error category). -/
structure State where
  driver : DriverState
  errorCode : Int
  internalError : BitVec 32
  deriving DecidableEq, Repr

/-- socketcan_interface/include/socketcan_interface/interface.h:94 -/
def State.initial : State := { driver := .closed, errorCode := 0, internalError := 0 }

/-- The driver object (socketcan_interface/include/socketcan_interface/asio_base.h:17-40, socketcan.h:24-26,133-134) together
with what it did to the outside: calls of the state listeners (`notified`, oldest first), frames handed to the frame
dispatcher (`dispatched`) and frames written to the socket (`wire`). -/
structure Driver where
  state : State
  socketOpen : Bool
  errorMask : BitVec 32
  fatalMask : BitVec 32
  loopback : Bool
  input : Frame
  notified : List State
  dispatched : List Frame
  wire : List KFrame

/-- constructors (socketcan_interface/include/socketcan_interface/socketcan.h:46-48, asio_base.h:84-86); `junk` is the
uninitialised payload of `input_` -/
def Driver.initial (junk : Vector Byte 8) : Driver :=
  { state := .initial, socketOpen := false, errorMask := 0, fatalMask := 0, loopback := false,
    input := Frame.ofHeader junk Header.default' 0, notified := [], dispatched := [], wire := [] }

/-- socketcan_interface/include/socketcan_interface/asio_base.h:48-54 `setErrorCode` -/
def Driver.setErrorCode (d : Driver) (e : Int) : Driver :=
  if d.state.errorCode ≠ e then
    let s := { d.state with errorCode := e }
    { d with state := s, notified := d.notified ++ [s] }
  else d

/-- socketcan_interface/include/socketcan_interface/asio_base.h:55-61 `setInternalError` -/
def Driver.setInternalError (d : Driver) (e : BitVec 32) : Driver :=
  if d.state.internalError ≠ e then
    let s := { d.state with internalError := e }
    { d with state := s, notified := d.notified ++ [s] }
  else d

/-- socketcan_interface/include/socketcan_interface/asio_base.h:63-69 `setDriverState` -/
def Driver.setDriverState (d : Driver) (x : DriverState) : Driver :=
  if d.state.driver ≠ x then
    let s := { d.state with driver := x }
    { d with state := s, notified := d.notified ++ [s] }
  else d

/-- socketcan_interface/include/socketcan_interface/asio_base.h:70-72 `setNotReady` -/
def Driver.setNotReady (d : Driver) : Driver :=
  d.setDriverState (if d.socketOpen then .opened else .closed)

/-- the conversion loop of `enqueue` (socketcan_interface/include/socketcan_interface/socketcan.h:216-222); the loop indexes the
payload up to `dlc`, so `dlc > 8` is undefined behaviour. -/
def toKernel {ε : Type} (f : Frame) : Outcome ε KFrame :=
  if f.dlc.toNat ≤ 8 then
    .ok { canId := f.id.setWidth 32 ||| (if f.isExtended then CAN_EFF_FLAG else 0#32)
                    ||| (if f.isRtr then CAN_RTR_FLAG else 0#32),
          dlc := f.dlc,
          data := Vector.ofFn fun i => if i.val < f.dlc.toNat then f.data[i] else 0#8 }
  else .ub

/-- the conversion in `readFrame` (socketcan_interface/include/socketcan_interface/socketcan.h:238-257): the new value of
`input_`, given its old value -/
def fromKernel (old : Frame) (k : KFrame) : Frame :=
  let data := Vector.ofFn fun i : Fin 8 => if i.val < k.dlc.toNat then k.data[i] else old.data[i]
  if k.canId &&& CAN_ERR_FLAG ≠ 0#32 then
    { old with dlc := k.dlc, data := data, id := (k.canId &&& CAN_EFF_MASK).setWidth 29, isError := true }
  else
    let ext := k.canId &&& CAN_EFF_FLAG != 0#32
    { id := (k.canId &&& (if ext then CAN_EFF_MASK else CAN_SFF_MASK)).setWidth 29,
      isError := false, isRtr := k.canId &&& CAN_RTR_FLAG != 0#32, isExtended := ext,
      data := data, dlc := k.dlc }

/-- socketcan_interface/include/socketcan_interface/socketcan.h:236-261 `readFrame` without error, then
asio_base.h:76-77 `frameReceived` -/
def Driver.readOk (d : Driver) (k : KFrame) : Driver :=
  let inp := fromKernel d.input k
  let d := { d with input := inp }
  let d := if k.canId &&& CAN_ERR_FLAG ≠ 0#32 ∧ k.canId &&& d.fatalMask ≠ 0#32 then
      (d.setInternalError (inp.id.setWidth 32)).setNotReady
    else d
  { d with dispatched := d.dispatched ++ [inp] }

/-- socketcan_interface/include/socketcan_interface/asio_base.h:78-81: the read completed with error `e` -/
def Driver.readError (d : Driver) (e : Int) : Driver := (d.setErrorCode e).setNotReady

/-- socketcan_interface/include/socketcan_interface/asio_base.h:115-117 `send` with socketcan.h:213-234 `enqueue`;
`ec` is the error code of the write (0 = success).  Result: return value and new driver. -/
def Driver.send (d : Driver) (f : Frame) (ec : Int) : Outcome Empty (Bool × Driver) :=
  if d.state.driver = .ready then
    match toKernel (ε := Empty) f with
    | .ok k =>
      if ec ≠ 0 then .ok (false, (d.setErrorCode ec).setNotReady)
      else .ok (true, { d with wire := d.wire ++ [k] })
    | .throws x => .throws x
    | .ub => .ub
  else .ok (false, d)

/-- Outcome of the system calls in `init` (socketcan_interface/include/socketcan_interface/socketcan.h:145-199): the first
failing one reports a code, or all succeed. -/
inductive SysInit where
  | fail (code : Int)
  | ok

/-- socketcan_interface/include/socketcan_interface/socketcan.h:136-206 `init(device, loopback, error_mask, fatal_mask)`.
`strcpy` into the 16 byte `ifr_name` (line 152) is undefined behaviour for longer device names (simplified: also if there was no socket before, where
the code returns earlier). -/
def Driver.init (d : Driver) (device : Text) (loopback : Bool) (em fm : BitVec 32) (sys : SysInit) :
    Outcome Empty (Bool × Driver) :=
  if d.state.driver = .closed then
    if device.length ≥ 16 then .ub
    else
      let d := { d with loopback := loopback, errorMask := em, fatalMask := fm }
      match sys with
      | .fail c => .ok (false, d.setErrorCode c)
      | .ok =>
        let d := ({ d with socketOpen := true }).setErrorCode 0
        .ok (true, (d.setInternalError 0).setDriverState .opened)
  else .ok (d.state.driver = .ready, d)

/-- first half of `run` (socketcan_interface/include/socketcan_interface/asio_base.h:96-105) up to the event loop; the result
says whether the loop was entered -/
def Driver.runBegin (d : Driver) : Bool × Driver :=
  let d := d.setNotReady
  if d.state.driver = .opened then (true, d.setDriverState .ready)
  else (false, { d with notified := d.notified ++ [d.state] })

/-- second half of `run` (socketcan_interface/include/socketcan_interface/asio_base.h:107-113): the event loop returned `ec` -/
def Driver.runEnd (d : Driver) (ec : Int) : Driver :=
  let d := (d.setErrorCode ec).setNotReady
  { d with notified := d.notified ++ [d.state] }

/-- socketcan_interface/include/socketcan_interface/asio_base.h:24-30,119-121 `shutdown` -/
def Driver.shutdown (d : Driver) : Driver := { d with socketOpen := false }

/-- Atomic steps of one driver; any interleaving of user threads and the event loop is a list of these
(socketcan_interface/include/socketcan_interface/asio_base.h:48-121). -/
inductive Op where
  | init (device : Text) (loopback : Bool) (em fm : BitVec 32) (sys : SysInit)
  | runBegin
  | runEnd (ec : Int)
  | readOk (k : KFrame)
  | readError (e : Int)
  | send (f : Frame) (ec : Int)
  | shutdown

/-- one step (socketcan_interface/include/socketcan_interface/asio_base.h:48-121) -/
def Driver.step (d : Driver) : Op → Outcome Empty Driver
  | .init dev l em fm sys => match d.init dev l em fm sys with
    | .ok (_, d') => .ok d'
    | .throws x => .throws x
    | .ub => .ub
  | .runBegin => .ok d.runBegin.2
  | .runEnd ec => .ok (d.runEnd ec)
  | .readOk k => .ok (d.readOk k)
  | .readError e => .ok (d.readError e)
  | .send f ec => match d.send f ec with
    | .ok (_, d') => .ok d'
    | .throws x => .throws x
    | .ub => .ub
  | .shutdown => .ok d.shutdown

/-- a history (socketcan_interface/include/socketcan_interface/asio_base.h:48-121) -/
def Driver.run (d : Driver) : List Op → Outcome Empty Driver
  | [] => .ok d
  | o :: os => match d.step o with
    | .ok d' => d'.run os
    | .throws x => .throws x
    | .ub => .ub

/-- the `if(internal_error & …) str += …` lines of `translateError`, in order
(socketcan_interface/include/socketcan_interface/socketcan.h:99-126) -/
def translateTable : List (ErrClass × String) :=
  [(.txTimeout, "TX timeout (by netdevice driver);"), (.lostarb, "lost arbitration;"), (.crtl, "controller problems;"),
   (.prot, "protocol violations;"), (.trx, "transceiver status;"), (.busoff, "bus off;"), (.restarted, "controller restarted;")]

/-- socketcan_interface/include/socketcan_interface/socketcan.h:92-128 `translateError`: return value and the new string
(`str` is overwritten only for "no error", otherwise appended to) -/
def translateError (e : BitVec 32) (str : Text) : Bool × Text :=
  let r0 : Bool × Text := if e = 0#32 then (true, "OK".toList) else (false, str)
  translateTable.foldl (fun r c => if e &&& c.1.bit ≠ 0#32 then (true, r.2 ++ c.2.toList) else r) r0

end Verif.Drv
