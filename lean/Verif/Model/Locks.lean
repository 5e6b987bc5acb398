
/-!
# The mutexes of the library and who takes them when

Every function that takes a mutex is modelled by the order in which it takes and releases mutexes, with the functions it calls.  What decides between its branches is
left open: a function may take either branch and repeat a loop any number of times.  A wait on a condition variable releases the mutex and takes it again; all these waits
end (they have a time limit), so do the transfers on sockets.  The two timed mutexes (canopen_master/include/canopen_master/canopen.h:56, 219) are taken without a limit,
as if nobody ever gave up.  The shared mutexes of the groups of layers (canopen_master/include/canopen_master/layer.h:180) are taken shared by every call except `add` and
`destroy`, which are used while setting up; they never block a call and are left out.  Exceptions release the mutexes like the end of the function does; a function that
throws is one that skips the rest.  The locks of ROS, of Boost.Asio and of the logger are not modelled.
-/

namespace Verif.Lk

/-- the kinds of mutexes, each with where it is declared:
`chain`, `diag`: canopen_chain_node/include/canopen_chain_node/ros_chain.h:164, 184; `timer`: canopen_master/include/canopen_master/timer.h:57;
`vars`: canopen_motor_node/include/canopen_motor_node/handle_layer.h:52; `cw`, `map`, `mode`, `homing`, `sw402`: canopen_402/include/canopen_402/motor.h:361, 368, 376, 270, 56;
`node`, `cond`, `nodeStates`, `sdo`, `pdo`, `buf`, `tpdo`, `rpdo`: canopen_master/include/canopen_master/canopen.h:219, 220, 229, 56, 96, 110, 136, 150;
`storage`, `data`: canopen_master/include/canopen_master/objdict.h:461, 293; `nodes`: canopen_master/src/master_plugin.cpp:14;
`canLayer`: canopen_master/include/canopen_master/can_layer.h:11; `bcm`: canopen_master/include/canopen_master/bcm_sync.h:22; `status`: canopen_master/include/canopen_master/layer.h:13;
`frames`, `states`: socketcan_interface/include/socketcan_interface/dispatcher.h:64, in the two dispatchers of a driver, asio_base.h:17-18; `state`: asio_base.h:21;
`send`: socketcan.h:263; `reader`: reader.h:15; `waiter`: threading.h:10; `bus`: dispatcher.h:64 in dummy.h:27; `dummy`: dummy.h:64; `dframes`, `dstates`: dispatcher.h:64 in
dummy.h:57-58; `life` is not a mutex: a thread holds it as long as it runs, joining the thread is to wait for it -/
inductive Kind where
  | chain | diag | life | timer | vars | cw | mode | homing | sw402 | map | node | pdo | frames | rpdo | tpdo | cond | storage | data | sdo | nodes | nodeStates
  | bus | dummy | dframes | dstates | reader | buf | canLayer | bcm | send | state | states | waiter | status
  deriving DecidableEq, Repr

/-- a mutex: its kind and the number of the object it belongs to (the declarations are listed at `Kind`; socketcan_interface/include/socketcan_interface/dispatcher.h:64 and the others) -/
structure Lock where
  kind : Kind
  obj : Nat
  deriving DecidableEq, Repr

/-- what a thread does with mutexes: `boost::mutex::scoped_lock` and the end of its scope, or something that takes time but no mutex, like the wait in
socketcan_interface/include/socketcan_interface/reader.h:97 -/
inductive Act where
  | acq (l : Lock)
  | rel (l : Lock)
  | wait
  deriving DecidableEq, Repr

/-- the shape of a function.  `lock l p`: `p` in the scope of a lock; `pause l p`: in such a scope, `p` with the mutex released (a wait on a condition variable as in
socketcan_interface/include/socketcan_interface/reader.h:97, `reverse_lock` as in canopen_402/src/motor.cpp:338); `any f`: for some object -/
inductive P where
  | skip
  | wait
  | lock (l : Lock) (p : P)
  | pause (l : Lock) (p : P)
  | seq (p q : P)
  | alt (p q : P)
  | many (p : P)
  | any (f : Nat → P)

/-- one after the other (`;` as in canopen_master/src/node.cpp:180-192) -/
def seqs : List P → P
  | [] => .skip
  | p :: ps => .seq p (seqs ps)

/-- perhaps (`if` as in canopen_master/src/node.cpp:86) -/
def opt (p : P) : P := .alt .skip p

/-- one of them (`switch`, virtual functions; canopen_master/include/canopen_master/layer.h:60-120) -/
def alts : List P → P
  | [] => .skip
  | [p] => p
  | p :: ps => .alt p (alts ps)

/-- a scope with nothing but memory accesses in it, like socketcan_interface/include/socketcan_interface/reader.h:65-68 -/
def short (k : Kind) (i : Nat) : P := .lock ⟨k, i⟩ .skip

/-- what a call of the function does: one of its traces (the order of statements in the function, each loop as often as it happens to run; e.g.
canopen_master/src/sdo.cpp:416-427) -/
inductive Tr : P → List Act → Prop where
  | skip : Tr .skip []
  | wait : Tr .wait [.wait]
  | lock {l p t} : Tr p t → Tr (.lock l p) (.acq l :: (t ++ [.rel l]))
  | pause {l p t} : Tr p t → Tr (.pause l p) (.rel l :: (t ++ [.acq l]))
  | seq {p q t u} : Tr p t → Tr q u → Tr (.seq p q) (t ++ u)
  | altl {p q t} : Tr p t → Tr (.alt p q) t
  | altr {p q t} : Tr q t → Tr (.alt p q) t
  | none {p} : Tr (.many p) []
  | more {p t u} : Tr p t → Tr (.many p) u → Tr (.many p) (t ++ u)
  | any {f t} (n : Nat) : Tr (f n) t → Tr (.any f) t

/-! ## The driver `d` (SocketCAN) -/

/-- canopen_master/include/canopen_master/layer.h:20-27, 42: a message is added to a status or read from it -/
def status : P := .any (short .status)
/-- socketcan_interface/include/socketcan_interface/asio_base.h:91-94 `getState` -/
def getState (d : Nat) : P := short .state d
/-- socketcan_interface/include/socketcan_interface/threading.h:14-19 `StateWaiter::updateState`; the other listeners (`RosChain::logState`,
canopen_chain_node/src/ros_chain.cpp:66-71, and those of the bridge) take no mutex -/
def updateState : P := .any (short .waiter)
/-- socketcan_interface/include/socketcan_interface/dispatcher.h:72-75: the state listeners are called -/
def notifyStates (d : Nat) : P := .lock ⟨.states, d⟩ (.many updateState)
/-- socketcan_interface/include/socketcan_interface/asio_base.h:48-69 `setErrorCode`, `setInternalError`, `setDriverState` (and 70-72) -/
def setState (d : Nat) : P := .lock ⟨.state, d⟩ (opt (notifyStates d))
/-- socketcan_interface/include/socketcan_interface/asio_base.h:115-117 `send` with socketcan_interface/include/socketcan_interface/socketcan.h:213-234 `enqueue` -/
def send (d : Nat) : P := .seq (getState d) (opt (.lock ⟨.send, d⟩ (opt (.seq (setState d) (setState d)))))
/-- socketcan_interface/include/socketcan_interface/socketcan.h:208-211 `triggerReadSome` -/
def triggerRead (d : Nat) : P := short .send d
/-- socketcan_interface/include/socketcan_interface/socketcan.h:236-261 `readFrame`, asio_base.h:74-82 `frameReceived`: dispatching is posted, not done here -/
def readFrame (d : Nat) : P := .seq (opt (.seq (setState d) (setState d))) (.alt (triggerRead d) (.seq (setState d) (setState d)))
/-- socketcan_interface/include/socketcan_interface/dispatcher.h:68-71, 91-96: a frame listener is registered -/
def createListener (d : Nat) : P := short .frames d
/-- socketcan_interface/include/socketcan_interface/dispatcher.h:30-35, 49-52: a frame listener is destroyed -/
def removeListener (d : Nat) : P := short .frames d
/-- socketcan_interface/include/socketcan_interface/dispatcher.h:68-71 in asio_base.h:129-131, and 30-35, 49-52: a state listener is registered or destroyed -/
def stateListener (d : Nat) : P := short .states d
/-- socketcan_interface/include/socketcan_interface/socketcan.h:64-206 `init` -/
def driverInit (d : Nat) : P := .alt (getState d) (.many (setState d))

/-! ## Readers -/

/-- socketcan_interface/include/socketcan_interface/reader.h:29-38 `handleFrame`, 51-78 `flush` … `disable` -/
def readerOp (r : Nat) : P := short .reader r
/-- socketcan_interface/include/socketcan_interface/reader.h:94-109 `readUntil` -/
def readUntil (r : Nat) : P := .lock ⟨.reader, r⟩ (.many (.pause ⟨.reader, r⟩ .wait))
/-- socketcan_interface/include/socketcan_interface/reader.h:80-89 `listen`: the new listener is registered, the old one destroyed -/
def listen (d r : Nat) : P := .lock ⟨.reader, r⟩ (.seq (createListener d) (opt (removeListener d)))

/-! ## SDO, storage -/

/-- canopen_master/src/sdo.cpp:436-451 `read`, `write` with 398-434 `transmitAndWait`, 292-371 `abort`, `processFrame`; node `n` has reader `n` -/
def sdoTransfer (d n : Nat) : P :=
  opt (.lock ⟨.sdo, n⟩ (seqs [readerOp n, send d, .many (.seq (readUntil n) (opt (send d))), readerOp n]))
/-- canopen_master/src/sdo.cpp:373-396 `SDOClient::init` -/
def sdoInit (d n : Nat) : P := listen d n
/-- canopen_master/src/pdo.cpp:340-383 `Buffer::read`, `write` -/
def bufOp (b : Nat) : P := short .buf b
/-- the delegate of an object: a PDO buffer or the SDO client (canopen_master/include/canopen_master/objdict.h:297-298, set at canopen_master/include/canopen_master/canopen.h:81-83 and
canopen_master/src/pdo.cpp:127-136) -/
def delegate (d : Nat) : P := .alt (.any bufOp) (.any (sdoTransfer d))
/-- canopen_master/include/canopen_master/objdict.h:317, 334-338 `size`, `set_delegates`; canopen_master/src/objdict.cpp:67-75 `reset` -/
def dataPlain (i : Nat) : P := short .data i
/-- canopen_master/include/canopen_master/objdict.h:339-377 `get`, `set`, `set_cached`; canopen_master/src/objdict.cpp:43-56 `init` -/
def dataAccess (d i : Nat) : P := .lock ⟨.data, i⟩ (opt (delegate d))
/-- canopen_master/src/objdict.cpp:57-65 `force_write` -/
def dataForce (d i : Nat) : P := .lock ⟨.data, i⟩ (.seq (opt (delegate d)) (opt (delegate d)))
/-- any object of a node is read or written (canopen_master/include/canopen_master/objdict.h:394-432) -/
def someData (d : Nat) : P := .any (dataAccess d)
/-- canopen_master/include/canopen_master/objdict.h:469-520 `entry` -/
def storageEntry (n : Nat) : P := .lock ⟨.storage, n⟩ (.many (.any dataPlain))
/-- canopen_master/src/objdict.cpp:335-383 `map` -/
def storageMap (d n : Nat) : P :=
  .lock ⟨.storage, n⟩ (seqs [.many (.any dataPlain), opt (seqs [.any dataPlain, .any (dataForce d), .any dataPlain]), .any dataPlain])
/-- canopen_master/src/objdict.cpp:392-419 `init`, `init_all` -/
def storageInit (d n : Nat) : P := .lock ⟨.storage, n⟩ (.many (someData d))
/-- canopen_master/src/objdict.cpp:421-426 `reset` -/
def storageReset (n : Nat) : P := .lock ⟨.storage, n⟩ (.many (.any dataPlain))
/-- canopen_chain_node/src/ros_chain.cpp:249-279: the services `get_object`, `set_object` -/
def objectService (d : Nat) : P := opt (.seq (.any storageEntry) (opt (someData d)))

/-! ## PDO -/

/-- canopen_master/src/pdo.cpp:88-169 `parse_and_set_mapping` (and 28-86) -/
def parseMapping (d n : Nat) : P := .many (alts [storageEntry n, someData d, storageMap d n, storageInit d n])
/-- canopen_master/src/pdo.cpp:212-231 `RPDO::init`; simplification: nobody else knows the RPDO (and its mutex) before it is registered, so its mutex is taken at the registration -/
def rpdoInit (d n p : Nat) : P := .seq (parseMapping d n) (opt (.lock ⟨.frames, d⟩ (short .rpdo p)))
/-- canopen_master/src/pdo.cpp:233-253 `TPDO::init` -/
def tpdoInit (d n p : Nat) : P := .lock ⟨.tpdo, p⟩ (seqs [parseMapping d n, opt (.seq (storageEntry n) (opt (someData d)))])
/-- canopen_master/src/pdo.cpp:175-209 `PDOMapper::init` -/
def pdoInit (d n : Nat) : P :=
  .lock ⟨.pdo, n⟩ (seqs [.many (removeListener d), .many (.any (rpdoInit d n)), .many (.any (tpdoInit d n)), opt status])
/-- canopen_master/src/pdo.cpp:298-324 `RPDO::handleFrame` -/
def rpdoFrame (p : Nat) : P := .seq (.many (.any bufOp)) (short .rpdo p)
/-- canopen_master/src/pdo.cpp:282-296 `RPDO::sync` -/
def rpdoSync (d p : Nat) : P := .lock ⟨.rpdo, p⟩ (.seq (opt status) (opt (send d)))
/-- canopen_master/src/pdo.cpp:255-280 `TPDO::sync` -/
def tpdoSync (d p : Nat) : P := .lock ⟨.tpdo, p⟩ (.seq (.many (.any bufOp)) (opt (send d)))
/-- canopen_master/src/pdo.cpp:326-331 `PDOMapper::read` -/
def pdoRead (d n : Nat) : P := .lock ⟨.pdo, n⟩ (.many (.any (rpdoSync d)))
/-- canopen_master/src/pdo.cpp:332-338 `PDOMapper::write` -/
def pdoWrite (d n : Nat) : P := .lock ⟨.pdo, n⟩ (.many (.any (tpdoSync d)))

/-! ## Node `n`; its heartbeat object (0x1017) has the number `n` -/

/-- canopen_master/src/master_plugin.cpp:31-40 `addNode`, `removeNode` -/
def syncNode : P := .any (short .nodes)
/-- canopen_master/src/node.cpp:94-114 `switchState`; listeners of the node state take no mutex (there are none in the repository) -/
def switchState (n : Nat) : P := .seq (opt syncNode) (opt (short .nodeStates n))
/-- canopen_master/include/canopen_master/canopen.h:236-237 `getHeartbeatInterval`, `setHeartbeatInterval` -/
def heartbeat (d n : Nat) : P := opt (dataAccess d n)
/-- canopen_master/src/node.cpp:115-121 `handleNMT` -/
def handleNMT (d n : Nat) : P := .lock ⟨.cond, n⟩ (.seq (heartbeat d n) (switchState n))
/-- canopen_master/src/node.cpp:122-140 `wait_for` -/
def waitFor (d n : Nat) : P := .lock ⟨.cond, n⟩ (.seq (.many (.pause ⟨.cond, n⟩ .wait)) (opt (.seq (heartbeat d n) (opt (switchState n)))))
/-- canopen_master/src/node.cpp:141-145 `checkHeartbeat` -/
def checkHeartbeat (d n : Nat) : P := .seq (heartbeat d n) (opt (short .cond n))
/-- canopen_master/src/node.cpp:39-42 `getState` -/
def nodeState (n : Nat) : P := short .node n
/-- canopen_master/src/node.cpp:44-66 `reset_com`, `reset` -/
def nodeReset (d n : Nat) : P := .lock ⟨.node, n⟩ (seqs [storageReset n, send d, waitFor d n, heartbeat d n])
/-- canopen_master/src/node.cpp:68-83 `prepare`, `start` -/
def nodeStart (d n : Nat) : P := .lock ⟨.node, n⟩ (.seq (send d) (waitFor d n))
/-- canopen_master/src/node.cpp:84-92 `stop` -/
def nodeStop (d n : Nat) : P := .lock ⟨.node, n⟩ (.seq (opt syncNode) (send d))
/-- canopen_master/src/node.cpp:148-158 `handleRead` -/
def nodeRead (d n : Nat) : P := opt (seqs [checkHeartbeat d n, opt (nodeState n), opt (pdoRead d n), opt status])
/-- canopen_master/src/node.cpp:159-164 `handleWrite` -/
def nodeWrite (d n : Nat) : P := opt (seqs [nodeState n, opt (pdoWrite d n), opt status])
/-- canopen_master/src/node.cpp:167-175 `handleDiag` -/
def nodeDiag (d n : Nat) : P := seqs [nodeState n, opt (checkHeartbeat d n), opt status]
/-- canopen_master/src/node.cpp:202-209 `handleRecover` -/
def nodeRecover (d n : Nat) : P := .seq (nodeStart d n) (opt status)
/-- canopen_master/src/node.cpp:210-215 `handleShutdown` -/
def nodeShutdown (d n : Nat) : P := seqs [heartbeat d n, heartbeat d n, nodeStop d n, removeListener d, switchState n]
/-- canopen_master/src/node.cpp:176-201 `handleInit` -/
def nodeInit (d n : Nat) : P :=
  seqs [createListener d, opt (removeListener d), sdoInit d n, nodeReset d n, opt status,
    opt (seqs [pdoInit d n, opt (seqs [storageInit d n, sdoInit d n, nodeStart d n, opt status])])]
/-- canopen_master/src/emcy.cpp:72-78, 83-143: the handlers of `EMCYHandler` -/
def emcyOp (d : Nat) : P := .many (alts [.any storageEntry, someData d, status])

/-! ## Other layers -/

/-- canopen_master/include/canopen_master/can_layer.h:32-41 `handleRead`, `handleWrite` -/
def canCheck (d : Nat) : P := opt (.seq (getState d) (opt status))
/-- canopen_master/include/canopen_master/can_layer.h:43-68 `handleDiag` -/
def canDiag (d : Nat) : P := seqs [getState d, opt status, opt (short .canLayer d)]
/-- socketcan_interface/include/socketcan_interface/threading.h:21-24: constructor of a `StateWaiter` -/
def waiterCreate (d : Nat) : P := .seq (getState d) (stateListener d)
/-- socketcan_interface/include/socketcan_interface/threading.h:25-36 `wait`, then the destructor (dispatcher.h:30-35) -/
def waiterWait (d w : Nat) : P := .seq (.lock ⟨.waiter, w⟩ (.many (.pause ⟨.waiter, w⟩ .wait))) (stateListener d)
/-- `thread_->join()` (canopen_master/include/canopen_master/can_layer.h:98, canopen_chain_node/src/ros_chain.cpp:217,
socketcan_interface/include/socketcan_interface/threading.h:47) -/
def join : P := .any (short .life)
/-- canopen_master/include/canopen_master/can_layer.h:70-88 `handleInit` -/
def canInit (d : Nat) : P :=
  seqs [opt (seqs [driverInit d, opt (seqs [waiterCreate d, createListener d, .any (waiterWait d), opt status])]), opt status, getState d, opt status]
/-- canopen_master/include/canopen_master/can_layer.h:89-101 `handleShutdown` -/
def canShutdown (d : Nat) : P := seqs [waiterCreate d, opt (removeListener d), .any (waiterWait d), opt status, opt join]
/-- canopen_master/include/canopen_master/can_layer.h:105-110 `handleRecover` -/
def canRecover (d : Nat) : P := .seq (getState d) (opt (.seq (canShutdown d) (canInit d)))
/-- canopen_master/src/master_plugin.cpp:62-77, 98-105: reading and writing of the SYNC layers -/
def syncPhase (d : Nat) : P := alts [.wait, opt (send d), .any readUntil]
/-- canopen_master/src/master_plugin.cpp:109-111: `ExternalSyncLayer::handleInit` -/
def externalInit (d r : Nat) : P := listen d r
/-- canopen_master/include/canopen_master/bcm_sync.h:46-76 `handleFrame`, 86-93 `handleDiag`, 125-132 `handleHalt` -/
def bcmOp (b : Nat) : P := short .bcm b
/-- canopen_master/include/canopen_master/bcm_sync.h:95-118 `handleInit` -/
def bcmInit (d b : Nat) : P := .lock ⟨.bcm, b⟩ (seqs [opt status, opt (.seq (createListener d) (opt (removeListener d)))])
/-- canopen_master/include/canopen_master/bcm_sync.h:119-123 `handleShutdown` -/
def bcmShutdown (d b : Nat) : P := .lock ⟨.bcm, b⟩ (opt (removeListener d))
/-- canopen_master/include/canopen_master/bcm_sync.h:134-137 `handleRecover` -/
def bcmRecover (d b : Nat) : P := .seq (bcmShutdown d b) (bcmInit d b)

/-- the frame listeners of the repository: socketcan_interface/include/socketcan_interface/reader.h:29-38, canopen_master/src/pdo.cpp:298-324, canopen_master/src/node.cpp:115-121,
canopen_master/include/canopen_master/can_layer.h:18-22, canopen_master/include/canopen_master/bcm_sync.h:46-76; those without a mutex: canopen_master/src/emcy.cpp:42-50, the bridge -/
def frameListener (d : Nat) : P := alts [.skip, .any readerOp, .any rpdoFrame, .any (handleNMT d), .any (short .canLayer), .any bcmOp]
/-- socketcan_interface/include/socketcan_interface/asio_base.h:45-47, dispatcher.h:104-109: a received frame is dispatched -/
def dispatch (d : Nat) : P := .lock ⟨.frames, d⟩ (.many (frameListener d))
/-- socketcan_interface/include/socketcan_interface/asio_base.h:95-114 `run`; what the two threads in `io_service_.run` do is done by one here or by another -/
def driverRun (d : Nat) : P :=
  seqs [setState d, getState d, opt (seqs [setState d, triggerRead d, .many (alts [.wait, readFrame d, dispatch d]), setState d, setState d]), getState d, notifyStates d]
/-- socketcan_interface/include/socketcan_interface/threading.h:63-70 `ThreadedInterface::init` -/
def threadedInit (d : Nat) : P := .alt (getState d) (.seq (driverInit d) (opt (.seq (waiterCreate d) (.any (waiterWait d)))))
/-- socketcan_interface/include/socketcan_interface/threading.h:72-83 `shutdown`, `join`, the destructor -/
def threadedShutdown : P := opt join

/-! ## Motor `m` -/

/-- canopen_402/src/motor.cpp:7-10, 65-69: the state of the motor is read or set -/
def sw402 (m : Nat) : P := short .sw402 m
/-- canopen_402/src/motor.cpp:72-78 `waitForNewState` -/
def waitState (m : Nat) : P := .lock ⟨.sw402, m⟩ (.many (.pause ⟨.sw402, m⟩ .wait))
/-- canopen_402/src/motor.cpp:356-377 `switchState` -/
def motorSwitch (m : Nat) : P := .seq (sw402 m) (.many (seqs [.lock ⟨.cw, m⟩ (opt status), opt (waitState m), opt status]))
/-- canopen_402/src/motor.cpp:268-273, 279-289 `allocMode`; 274-277 `registerMode` -/
def allocMode (d m : Nat) : P := .seq (opt (someData d)) (opt (short .map m))
/-- canopen_402/src/motor.cpp:168-180 `DefaultHomingMode::start`, `read`; the other modes take no mutex (canopen_402/include/canopen_402/motor.h:179-192, 229-231) -/
def modeStart (m : Nat) : P := opt (short .homing m)
/-- canopen_402/include/canopen_402/motor.h:193-202, 232-250: `write` of the modes sets the target object; canopen_402/src/motor.cpp:181-188 takes no mutex -/
def modeWrite (d : Nat) : P := opt (someData d)
/-- canopen_402/src/motor.cpp:291-354 `switchMode` -/
def switchMode (d m : Nat) : P :=
  .alt (.lock ⟨.mode, m⟩ (opt (someData d)))
    (seqs [allocMode d m, opt status, opt (seqs [modeStart m, short .mode m, opt (seqs [motorSwitch m, opt (seqs [someData d,
      .lock ⟨.mode, m⟩ (.seq (.many (.pause ⟨.mode, m⟩ (.alt .wait (someData d)))) (opt (.seq status (someData d)))), motorSwitch m])])])])
/-- canopen_402/src/motor.cpp:379-406 `readState` -/
def motorRead (d m : Nat) : P := seqs [someData d, sw402 m, .lock ⟨.mode, m⟩ (seqs [someData d, modeStart m, .many status])]
/-- canopen_402/src/motor.cpp:414-440 `handleWrite` -/
def motorWrite (d m : Nat) : P := opt (.lock ⟨.cw, m⟩ (seqs [sw402 m, opt (.lock ⟨.mode, m⟩ (modeWrite d)), opt (someData d)]))
/-- canopen_402/src/motor.cpp:441-470 `handleDiag` -/
def motorDiag (m : Nat) : P := .seq (sw402 m) (.many status)
/-- canopen_402/src/motor.cpp:190-243 `executeHoming` -/
def executeHoming (d m : Nat) : P := .seq (someData d) (opt (.lock ⟨.homing, m⟩ (.many (.alt (.pause ⟨.homing, m⟩ .wait) status))))
/-- canopen_402/src/motor.cpp:471-513 `handleInit` -/
def motorInit (d m : Nat) : P :=
  seqs [.many (allocMode d m), motorRead d m, short .cw m, motorSwitch m, opt status,
    opt (.seq (allocMode d m) (opt (seqs [switchMode d m, executeHoming d m, opt status, switchMode d m])))]
/-- canopen_402/src/motor.cpp:514-517 `handleShutdown` -/
def motorShutdown (d m : Nat) : P := .seq (switchMode d m) (motorSwitch m)
/-- canopen_402/src/motor.cpp:518-533 `handleHalt` -/
def motorHalt (m : Nat) : P := .seq (sw402 m) (.lock ⟨.cw, m⟩ (opt status))
/-- canopen_402/src/motor.cpp:534-547 `handleRecover` -/
def motorRecover (m : Nat) : P := .seq (.lock ⟨.mode, m⟩ (opt (.seq (modeStart m) (opt status)))) (opt (.seq (motorSwitch m) (opt status)))
/-- canopen_402/src/motor.cpp:245-251 `setTarget`, 263-266 `getMode` -/
def motorTarget (m : Nat) : P := .seq (opt (sw402 m)) (opt (short .mode m))
/-- canopen_402/src/motor.cpp:252-261 `isModeSupported`, `enterModeAndWait` -/
def enterMode (d m : Nat) : P := .alt (allocMode d m) (.seq (opt (switchMode d m)) (opt status))
/-- canopen_motor_node/include/canopen_motor_node/handle_layer.h:59-81 `sync`, `getVariable`; canopen_motor_node/src/handle_layer.cpp:138-145 `handleRead` -/
def handleRead (d h : Nat) : P := opt (.lock ⟨.vars, h⟩ (.many (.alt (someData d) (.any storageEntry))))
/-- canopen_motor_node/src/handle_layer.cpp:59-93 `canSwitch`, `switchMode`, `forwardForMode`, 146-170 `handleWrite` -/
def handleOp (d : Nat) : P := .many (.any fun m => alts [motorTarget m, enterMode d m, motorHalt m, status])

/-! ## The chain -/

/-- the read phase of the layers, in any order and number (canopen_master/include/canopen_master/layer.h:185-246 with the `handleRead` above) -/
def layersRead (d : Nat) : P :=
  .many (alts [canCheck d, syncPhase d, .any (nodeRead d), .any (motorRead d), .any (handleRead d), handleOp d, emcyOp d, status])
/-- the write phase (canopen_master/include/canopen_master/layer.h:185-246); publishers read objects (canopen_chain_node/src/ros_chain.cpp:203-208) -/
def layersWrite (d : Nat) : P :=
  .many (alts [canCheck d, syncPhase d, .any (nodeWrite d), .any (motorWrite d), handleOp d, someData d, status])
/-- diagnosis of the layers (canopen_master/include/canopen_master/layer.h:185-246) -/
def layersDiag (d : Nat) : P := .many (alts [canDiag d, .any (nodeDiag d), .any motorDiag, emcyOp d, status])
/-- recovery of the layers (canopen_master/include/canopen_master/layer.h:185-246) -/
def layersRecover (d : Nat) : P := .many (alts [canRecover d, .any (nodeRecover d), .any motorRecover, emcyOp d, .any (handleRead d), handleOp d, status])
/-- halting the layers (canopen_master/include/canopen_master/layer.h:185-246) -/
def layersHalt : P := .many (alts [.any motorHalt, status])
/-- shutting down the layers (canopen_master/include/canopen_master/layer.h:185-246) -/
def layersShutdown (d : Nat) : P := .many (alts [canShutdown d, .any (nodeShutdown d), .any (motorShutdown d), status])
/-- canopen_chain_node/src/ros_chain.cpp:73-92 `run`: one cycle -/
def chainCycle (d : Nat) : P := seqs [layersRead d, layersWrite d, opt status, opt .wait]
/-- canopen_chain_node/src/ros_chain.cpp:171-201 `handle_recover` -/
def chainRecover (d c : Nat) : P := .lock ⟨.chain, c⟩ (opt (seqs [.many (emcyOp d), opt (layersRecover d), opt (layersDiag d), opt status]))
/-- canopen_chain_node/src/ros_chain.cpp:210-220 `handleShutdown` -/
def chainShutdownLayer (d c : Nat) : P := .lock ⟨.diag, c⟩ (seqs [short .timer c, layersShutdown d, opt join])
/-- canopen_chain_node/src/ros_chain.cpp:222-234 `handle_shutdown` -/
def chainShutdown (d c : Nat) : P := .lock ⟨.chain, c⟩ (opt (.seq layersHalt (chainShutdownLayer d c)))
/-- canopen_chain_node/src/ros_chain.cpp:236-247 `handle_halt` -/
def chainHalt (c : Nat) : P := .lock ⟨.chain, c⟩ (opt layersHalt)
/-- canopen_chain_node/src/ros_chain.cpp:580-596 `report_diagnostics` -/
def chainDiag (d c : Nat) : P := .lock ⟨.diag, c⟩ (opt (.seq (layersDiag d) (opt status)))
/-- canopen_master/include/canopen_master/timer.h:25-46 `stop`, `start`, `restart`, `getPeriod` -/
def timerOp (c : Nat) : P := short .timer c
/-- canopen_master/include/canopen_master/timer.h:61-70 `handler` with the heartbeat sender, canopen_chain_node/include/canopen_chain_node/ros_chain.h:177-179 -/
def timerHandler (d c : Nat) : P := opt (.lock ⟨.timer, c⟩ (opt (opt (send d))))

/-! ## The simulated bus `b` with its participants -/

/-- socketcan_interface/include/socketcan_interface/dummy.h:75-80 `enqueue` -/
def dummyEnqueue (i : Nat) : P := short .dummy i
/-- socketcan_interface/include/socketcan_interface/dummy.h:92-101 `send`, 40-42 `dispatch` -/
def dummySend (b i : Nat) : P := .seq (opt (dummyEnqueue i)) (.lock ⟨.bus, b⟩ (.many (.any dummyEnqueue)))
/-- socketcan_interface/include/socketcan_interface/dummy.h:67-74 `setDriverState`, 113-116 `getState` -/
def dummyState (i : Nat) : P := .lock ⟨.dummy, i⟩ (opt (.lock ⟨.dstates, i⟩ (.many updateState)))
/-- socketcan_interface/include/socketcan_interface/dummy.h:169-183 `init` -/
def dummyInit (b i : Nat) : P := .seq (short .bus b) (dummyState i)
/-- socketcan_interface/include/socketcan_interface/dummy.h:118-121 `shutdown` with 135-145 `flush`, 82-85 -/
def dummyShutdown (b i : Nat) : P := seqs [.many (.seq (dummyState i) .wait), dummyState i, short .bus b]
/-- socketcan_interface/include/socketcan_interface/dummy.h:103-108, 184-186: listeners are registered (or destroyed) -/
def dummyListener (i : Nat) : P := .alt (short .dframes i) (short .dstates i)
/-- socketcan_interface/include/socketcan_interface/dummy.h:147-167 `run` with the listeners `l` -/
def dummyRun (i : Nat) (l : P) : P :=
  .lock ⟨.dummy, i⟩ (.many (seqs [.lock ⟨.dstates, i⟩ (.many updateState), .pause ⟨.dummy, i⟩ .wait, .many (.lock ⟨.dframes, i⟩ (.many l))]))
/-- socketcan_interface/include/socketcan_interface/dummy.h:206-208, 217-225: a responder sends from its listener -/
def responder (b i : Nat) : P := opt (dummySend b i)

/-! ## The calls -/

/-- the calls of the library on driver `d`; `dispatch`, `driverRun`, `chainCycle`, `timerHandler` are made by its own threads (canopen_chain_node/src/ros_chain.cpp:73-92,
socketcan_interface/include/socketcan_interface/asio_base.h:95-114, canopen_master/include/canopen_master/timer.h:61-70) -/
inductive Call where
  | send (d : Nat) | getState (d : Nat) | driverInit (d : Nat) | driverRun (d : Nat) | readFrame (d : Nat) | dispatch (d : Nat) | createListener (d : Nat) | removeListener (d : Nat)
  | stateListener (d : Nat) | threadedInit (d : Nat) | threadedShutdown | readerOp (r : Nat) | readUntil (r : Nat)
  | objectService (d : Nat) | object (d i : Nat) | storageEntry (n : Nat) | storageInit (d n : Nat) | storageReset (n : Nat)
  | nodeState (n : Nat) | nodeReset (d n : Nat) | nodeStart (d n : Nat) | nodeStop (d n : Nat) | nodeRead (d n : Nat) | nodeWrite (d n : Nat) | nodeDiag (d n : Nat)
  | nodeRecover (d n : Nat) | nodeShutdown (d n : Nat) | pdoInit (d n : Nat) | emcy (d : Nat)
  | canCheck (d : Nat) | canDiag (d : Nat) | canInit (d : Nat) | canShutdown (d : Nat) | canRecover (d : Nat) | syncNode | syncPhase (d : Nat) | bcmOp (b : Nat)
  | motorRead (d m : Nat) | motorWrite (d m : Nat) | motorDiag (m : Nat) | motorInit (d m : Nat) | motorShutdown (d m : Nat) | motorHalt (m : Nat) | motorRecover (m : Nat)
  | motorTarget (m : Nat) | enterMode (d m : Nat) | handleRead (d h : Nat) | handleOp (d : Nat)
  | chainCycle (d : Nat) | chainRecover (d c : Nat) | chainShutdown (d c : Nat) | chainShutdownLayer (d c : Nat) | chainHalt (c : Nat) | chainDiag (d c : Nat)
  | timerOp (c : Nat) | timerHandler (d c : Nat)
  | dummySend (b i : Nat) | dummyState (i : Nat) | dummyInit (b i : Nat) | dummyShutdown (b i : Nat) | dummyListener (i : Nat) | dummyRun (i : Nat)

/-- the functions behind the calls (canopen_chain_node/src/ros_chain.cpp:73-92 and the others, see there); the listeners on a simulated bus take what a reader takes
(socketcan_interface/include/socketcan_interface/reader.h:29-38) -/
def Call.prog : Call → P
  | .send d => Lk.send d | .getState d => Lk.getState d | .driverInit d => Lk.driverInit d | .driverRun d => Lk.driverRun d | .readFrame d => Lk.readFrame d
  | .dispatch d => Lk.dispatch d | .createListener d => Lk.createListener d | .removeListener d => Lk.removeListener d | .stateListener d => Lk.stateListener d
  | .threadedInit d => Lk.threadedInit d | .threadedShutdown => Lk.threadedShutdown | .readerOp r => Lk.readerOp r | .readUntil r => Lk.readUntil r
  | .objectService d => Lk.objectService d | .object d i => Lk.dataAccess d i | .storageEntry n => Lk.storageEntry n | .storageInit d n => Lk.storageInit d n
  | .storageReset n => Lk.storageReset n | .nodeState n => Lk.nodeState n | .nodeReset d n => Lk.nodeReset d n | .nodeStart d n => Lk.nodeStart d n | .nodeStop d n => Lk.nodeStop d n
  | .nodeRead d n => Lk.nodeRead d n | .nodeWrite d n => Lk.nodeWrite d n | .nodeDiag d n => Lk.nodeDiag d n | .nodeRecover d n => Lk.nodeRecover d n
  | .nodeShutdown d n => Lk.nodeShutdown d n | .pdoInit d n => Lk.pdoInit d n | .emcy d => Lk.emcyOp d | .canCheck d => Lk.canCheck d | .canDiag d => Lk.canDiag d
  | .canInit d => Lk.canInit d | .canShutdown d => Lk.canShutdown d | .canRecover d => Lk.canRecover d | .syncNode => Lk.syncNode | .syncPhase d => Lk.syncPhase d
  | .bcmOp b => Lk.bcmOp b | .motorRead d m => Lk.motorRead d m | .motorWrite d m => Lk.motorWrite d m | .motorDiag m => Lk.motorDiag m | .motorInit d m => Lk.motorInit d m
  | .motorShutdown d m => Lk.motorShutdown d m | .motorHalt m => Lk.motorHalt m | .motorRecover m => Lk.motorRecover m | .motorTarget m => Lk.motorTarget m
  | .enterMode d m => Lk.enterMode d m | .handleRead d h => Lk.handleRead d h | .handleOp d => Lk.handleOp d | .chainCycle d => Lk.chainCycle d
  | .chainRecover d c => Lk.chainRecover d c | .chainShutdown d c => Lk.chainShutdown d c | .chainShutdownLayer d c => Lk.chainShutdownLayer d c | .chainHalt c => Lk.chainHalt c
  | .chainDiag d c => Lk.chainDiag d c | .timerOp c => Lk.timerOp c | .timerHandler d c => Lk.timerHandler d c | .dummySend b i => Lk.dummySend b i | .dummyState i => Lk.dummyState i
  | .dummyInit b i => Lk.dummyInit b i | .dummyShutdown b i => Lk.dummyShutdown b i | .dummyListener i => Lk.dummyListener i
  | .dummyRun i => Lk.dummyRun i (opt (.any Lk.readerOp))

/-- the calls of the threads that others join: the driver's (canopen_master/include/canopen_master/can_layer.h:78, socketcan_interface/include/socketcan_interface/threading.h:66)
and the control loop's (canopen_chain_node/src/ros_chain.cpp:142) -/
def Call.joined : Call → Bool
  | .driverRun _ | .dispatch _ | .readFrame _ | .chainCycle _ | .dummyRun _ => true
  | _ => false

end Verif.Lk
