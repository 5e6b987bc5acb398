# Formal model of ros_canopen in Lean 4

## 1. Layout

* `lean/Verif/Model/*`  – function by function models of the C++ code; every definition cites file and lines.
* `lean/Verif/Spec/*`   – small independent specifications (what the English property says), no reference to model helpers.
* `lean/Verif/Lemmas/*` – auxiliary lemmas.
* `lean/Verif/Props/*`  – one theorem (or a few) per property, each with an `example` that meets its hypotheses.
* `properties.jsonl`    – the properties in English. `MANIFEST.json` – property to theorem map.
* `seeded/LOG.jsonl`    – log of wrong-program experiments.

## 2. Modelling conventions

* Bytes are `BitVec 8`, machine words `BitVec n`; bit fields have their exact width so truncation is modelled.
* Text is `List Char` (a superset of C++ byte strings: every `char` value is embedded as a `Char`).
* Uninitialised memory is an explicit parameter ("junk"), theorems quantify over it.
* Undefined behaviour (out-of-bounds, use after free, a loop that does not end) is the distinct outcome
  `Outcome.ub`; C++ exceptions are `Outcome.throws`.
* Components guarded by a mutex are modelled as state machines whose steps are the critical sections;
  "every schedule" is then "every list of steps".
* Time-outs and device behaviour are inputs (lists of events, or an arbitrary device function with a state), so
  theorems quantify over all of them.
* `double` is NaN, ±infinity or an exact rational. Where rounding matters (C59, C71, C72) it is either a parameter
  `rd` or the theorem says "in exact arithmetic".
* When the code violates a property: the negation is proved with a concrete witness, and a theorem with the suffix
  `_partial` says what does hold. The disagreements are collected in section 8.

## 3. Plan per property

The rows C01–C60 were written before any proof, later rows before the proofs of the properties they name.

| id | modelled | method |
|----|----------|--------|
| C01 | `Header`, `Frame`, `tostring`, `tohex` (libstdc++ hex extraction), `toheader`, `toframe` | round-trip law; false for extended ids < 0x800: counterexample + `_partial` |
| C02 | `hex2dec`,`hex2buffer`,`dec2hex`,`byte2hex`,`buffer2hex` | round trip by list induction; acceptance iff |
| C03 | `toframe` | case analysis + C02 |
| C04 | `fullid`,`key`,`isValid` | bit-level extensionality |
| C05, C06 | `FrameMaskFilter`,`FrameRangeFilter` | bit-wise spec / interval spec |
| C07 | `tofilter` | parse of printed ids; counterexample for extended ranges |
| C08 | `FilteredFrameListener` | list induction |
| C09 | `SimpleDispatcher`,`FilteredDispatcher` as op machine | refinement to a list of live listeners, induction over histories |
| C10 | `DummyBus`, `DummyInterface.send` | case analysis over connected set |
| C11 | `DummyInterface` queue | invariant over schedules |
| C12 | `BufferedReader` | invariant over schedules, refinement to the arrival log |
| C13 | `enqueue`,`readFrame` conversion | round trip |
| C14 | `AsioDriver` state functions | invariant over histories |
| C15 | `parse_error_mask`, `init` masks, `readFrame` | bit lemmas |
| C16, C17 | bridge conversion and callbacks | round trip; counterexample for id truncation |
| C18 | `LayerStatus` | fold/max induction |
| C19, C20 | `Layer` with arbitrary handlers | invariant over histories |
| C21–C23 | `LayerGroup`,`LayerStack` | induction over member list |
| C24, C25 | `Key` | bit lemmas, text round trip |
| C26 | `int_from_string`,`parse_int`,`NodeIdOffset` | numeral parsing induction |
| C27 | `parse_octets` | negation with witness |
| C28–C31 | `ObjectStorage::Data` with device environment | state machine, refinement; negations for C30 |
| C32–C37 | `SDOClient` | state machine against arbitrary / conforming server; induction on length |
| C38–C41 | `PDOMapper` | layout lemmas, schedule invariants |
| C42–C45 | `Node` | state machine invariants |
| C46 | `EMCYHandler` | state machine |
| C47, C48 | `SimpleSyncLayer`, `BCMsync` | invariants |
| C49–C53 | `State402`,`Command402`,`Motor402` | finite tables decided by the kernel, bit lemmas, product with a CiA 402 drive spec |
| C54 | `ModeTargetHelper` over exact reals + NaN/inf | case analysis |
| C55, C56 | `ProfiledPositionMode`, `switchMode` | state machine |
| C57, C58 | `RobotLayer` | list induction; negation for C58 |
| C59 | `norm` over rationals | well-founded recursion |
| C60 | `MergedXmlRpcStruct` | tree induction |
| C61 | `SocketCANInterface::translateError` | list of texts against the class table, bit lemmas |
| C62, C63 | `parse_typed_value`, `HoldAny` with its C++ type, `ObjectStorage::Data::init` | computation on the typed value; the bytes of an internal object are a parameter |
| C64–C66 | `ObjectDict::fromFile`, `parse_object`, `add_sub`, `read_var`, property tree as a map | induction over sections and object lists, invariant on keys |
| C67 | `Motor402` and a CiA 402 drive | product machine, invariant |
| C68–C70 | `RobotLayer::prepareSwitch/doSwitch`, `HandleLayer` | list induction over the controllers of a request |
| C71, C72 | `UnitConverter::avg/smooth` | exact arithmetic; negation for `avg` |
| C73 | `DummyReplay` | simulation by the script |
| C74, C75 | `ObjectStorage` | invariant over histories |
| C76 | `ObjectStorage::map` | case analysis over the access rights |
| C77 | `PDOMapper::init` with buffers as numbered cells that can be destroyed | reachability invariant over all later uses |
| C78 | the same, log of device writes | trace invariant |
| C79, C80 | the same | loop invariants over mapping entries and PDO numbers |
| C81 | `RosChain` services and the control thread as events | invariant over histories; negation for a late thread start |
| C82 | `handle_init/recover/halt/shutdown` over arbitrary layers | the layer theorems C19–C23 applied to the stack |
| C83 | `Layer::init` of the stack interleaved with read/write cycles at member boundaries | induction over members; negation with a witness |
| C84 | `report_diagnostics`, `Logger::log` | case analysis |
| C85 | `CANLayer`, `StateWaiter`, driver as a parameter | state machine invariants |
| C86 | `Timer`, heartbeat producer: timer and completion queue | state machine; negations for a failed send and a late stop |
| C87 | `getStringReader/Writer`, `handle_get/set_object` | text round trips on top of the storage model |
| C88 | `setup_sync`, `setup_heartbeat`, `setup_node(s)`, `parseObjectName` | decision logic; negations for truncated parameters |
| C89 | `Node::handleInit/Recover/Shutdown` | sequence of the steps, every failure point |
| C90 | `DefaultHomingMode` | state machine against arbitrary drives |
| C91 | `Motor402::switchState`, `handleInit/Halt/Recover/Shutdown` | product with the drive specification |
| C92 | `HandleLayer` commands, limits and tracking | invariant over cycles |
| C93 | `Settings`, `XmlRpcSettings` | case analysis |
| C94 | `MotorChain::nodeAdded`, `setup_chain`, `HandleLayer` constructor and filters, `RobotLayer::add`, the clock of `ControllerManagerLayer` | characterisation of acceptance by the merged parameters, induction over nodes, members and cycles |
| C95 | `SDOClient` with its `BufferedReader`, `init`, and calls of any threads | `State.run` over all lists of events; invariant of a running call (frames used so far are a subsequence of those heard); link with the server of `Spec.Sdo` refined to a map from objects to values |
| C96 | `RobotLayer::handleInit`, `HandleLayer::registerHandle`, `enforceLimits` | induction over the joints with the names and limits registered so far; filter of the limits handles by kind |
| C97 | `sync_node.cpp` `main` and `report_diagnostics` over the layer stack of C15 and the BCM layer of C48, argument parsing of `bcm_sync.cpp` | a report is reduced to one step of the BCM layer for each state and answer of the outside; invariant over all histories; healthy histories refine the runs of C48 |
| C98 | `threading.h`, `asio_base.h` `run`/`shutdown`/strand, `socketcan.h` `recover` as a transition system of the calling thread, the thread of the driver and the thread it posts, with the outstanding reads and queued handlers of the event loop as state | session invariant (frames arrived = handled ++ at most one pending; delivered ++ queued = handled) and global invariant over all schedules; progress by constructing a continuation; defects by witness schedules, two of them with an invariant that rules out any recovery |
| C99 | the three `main` functions of the bridge around the driver of C98: phases of `main`, `setup` of both halves with `tofilters` of the `can_ids` parameter, the listeners, `msgCallback`; ROS queues are outside | invariant tying the phase of `main` to the session of the driver, its waiting calls and the registered listener; published = what the listener makes of the frames delivered since `setup`; progress from C98; defects proved for all continuations |
| C100 | `BCMsocket` with its message as a list of bytes (layout of 64 bit Linux), the calls to the operating system with their answers as a trace, `main` of canbcm; the kernel is a small decoder and table of jobs in the specification | closed form of the memory after all writes, by induction over the frames; decoder evaluated on the closed form; invariant over histories for the open descriptors; defects by witnesses |
| C101 | `SimpleSyncLayer` and `ExternalSyncLayer` on a clock: each call has the time that passed before it and the delay with which a sleep ends as parameters; the bus is a list of frames with times of arrival | invariants over histories (sent frames against the next read time; frames arrived, held and used), closed form of the write time; a list of cycles for the absence of drift |
| C102 | every function that takes a mutex as the order in which it (and what it calls) takes and releases mutexes, branches and loops left open; threads as lists of such actions under a scheduler | an order of the kinds of mutexes that every function respects (structural check per function), then: a blocked thread waits for one that holds a higher mutex, so some thread can move; the number of remaining actions decreases, so a fair schedule ends |
| C103 | the operations of candump's listeners on the output stream (with the base of numbers as state), its main function, two listeners interleaved operation by operation | a grammar of lines as specification; the printed text follows it (induction over the calls, base decimal in between), the grammar is unambiguous; a concrete interleaving that garbles a line |
| C104 | joint handle, motor and PDOs of one drive composed; objects as little-endian bytes in the storage, in the PDO buffers and in the frames; every event of the control loop and of other threads | one invariant over all histories relates storage, buffers and frames to the motor's decisions; the results of C49, C53, C54 and C92 are carried over to what is in the frames; for the profiled position mode a second invariant follows bit 4 of the control word and the last target |
| C105 | the log output of the SDO client beside its frame handling; the table of abort codes separately in the specification | each frame decides what is logged (case analysis), lifted over the loop by induction on the frames with the waiting invariant of C33–C36 |
| C106 | `setup_bus` over an arbitrary tree of parameters and arbitrary results of loading plug-ins; the two masters that are shipped by name; composition with the set-up of C88 | case analysis over the parameters and results; the acceptance condition is stated by paths and values of the parameter server |
| C107 | the two response loggers as what their destructors write for an answer, beside the services of C82; the throttled lines of the control loop with explicit times | case analysis over the answers; induction over the cycles with the times of the last lines as invariant |
| C108 | the destructor as `halt` and `shutdown` on the chain of C81 | the invariant of C81, carried over one more call |
| C109 | the storage of C28-C31 with the SDO channel of C95 as its delegates and the server of `Spec.Sdo` at the other end | relational lemma for every function of the storage: delegates with the same results give the same histories; the invariant of C95 shows that an access over the bus has the result of an access to a memory; progress by the number of frames still to be read |
| C110 | the set-up of C77-C80 against a device with contents that refuses what CiA 301 forbids and possibly anything else | invariant of the stages of the set-up (PDO off, number 0) over every call of the device, for one PDO and by induction for all; delegates never go back to the device, so a parameter that is not mapped in the end never was |
| C111 | motors as leaves in the trees of layers of C19-C23, everything else in the tree arbitrary but leaving the motors' command words alone | a relation between motor before and after, carried through the tree by mutual induction with the states of the layers; the motor's handlers are related to it once |
| C112 | the receiving parts (error control, SDO channel, emergencies, RPDOs) of any number of nodes behind one dispatcher (C09) and one receiving thread; what the program does with one node is an arbitrary function of that node's state | simulation between the whole bus and the bus with this node alone, over all histories; the identifiers computed by the code compared with the table of CiA 301 for all 127 numbers; survival by an invariant |
| C113 | received PDO (C38), the storage's buffers, the variables of the unit conversions and the measured values, with frames, reads of others and the steps of a cycle in any order; filters with memory left out | invariant over histories, on top of that of the PDO buffers; the specification says with the last frame and the last look what must be shown; little-endian two's complement integers specified by congruence and range |
| C114 | closed loop of `handleInit` (C89) with an NMT slave as in CiA 301: commands and reports as queues, the device, the receiving and the calling thread take steps in any order | safety: invariant per place of the calling thread; progress: seventeen stages, no step goes back, one kind of step leads on from each; sixteen rounds suffice |
| C115 | closed loop of `ProfiledPositionMode` (C55) with a drive following the set-point handshake; control word with target and status word travel in queues | safety: the adopted targets followed by the rising edges on their way are the targets sent; progress: six stages, no step goes back; six rounds suffice |
| C116 | `ThreadedInterface<DummyInterface>`: state, queue, connection, thread and the user's calls as a step system; `run` between two waits is one step | told: invariant; shutdown and destructor: stages, seven (four) rounds suffice; counterexamples by histories |
| C117 | the static table of `DummyBus`, bus objects and connections | refinement to names with a count of how often the bus of a name was taken down |
| C118 | driver, nodes and emergency handlers behind the layers that watch them, above the motors of C111 | faults as predicates on what was received; preservation under every event that cannot end them; induction over the tree of layers that some layer reports; then C111 |
| C119 | `DeviceInfo` and the part of `fromFile` that fills it, with the stream conversions of the property tree | grammar of decimal numbers and truth values in the specification; decision of the conversions; counterexample for hexadecimal numbers carried to `PDOMapper::init` by C80 |
| C120 | composition of the object services (C87) with one SDO channel and one conforming device per node (C109) | simulation of the channels by memories, componentwise; invariant that the written value stays in record and device |
| C121 | bridge programs (C99) on several computers, one bus, one kernel queue per socket | invariant that links queues, wires and histories; C99 per program; bits of identifiers and flags through both conversions |
| C122 | layer trees (C40) whose handlers act on one world: bus (C85), nodes (C89), motors (C91), everything interleaved | induction over the tree: each successful handler passes its moment (C85, C89, C91), later ones only extend the history; failure: shutdown of the CAN layer comes last |
| C123 | driver (C08), its strand and the error listener of the CAN layer as one system; diagnostics of C85 | invariants over steps: the frame kept or waiting, origin of number and payload; witnesses for mixed and missed frames |
| C124 | converters, the place behind each name, expressions as terms with arbitrary operators, assignments, reset, copies of objects | two runs look alike for one conversion (simulation); value by invariants over histories |
| C125 | set-up of PDOs (C79, C80) on the strict device (C110), which splits and builds frames by its own mapping parameters | words of the layout = words of the device (Applied), payload law (C38); loops: set-up of one PDO leaves the parameters of the others |
| C126 | the world of C122 with the shutdown of nodes (C89) and motors (C91) | induction over the tree, stacks in reverse: each handler without an error passes its moment and leaves other nodes as they are; the CAN layer, first in the stack, comes last |
| C127 | PdoInit with the device behind wired SDO accesses (C109), and with the device's memory | simulation: all programs of the set-up keep `hung` and give the same on both sides; a device with the rules of CiA 301 is a third side, joined by C110; for termination the memory counts the accesses, and each has its frames bounded by its bytes |
| C128 | severities of `handleDiag` as a function of the word taken first and the state taken later, with any events in between | invariants of the motor for word and state over all histories; each state against the patterns of CiA 402 (C49) |
| C129 | the chain of C81-C84 with the diagnostics of the CAN layer (C85), of nodes (C89) and of motors (C128) as layers, while the rest of the program goes on | induction over the tree: asking it is asking its layers in order, and the level only rises; what each layer said is at most the level shown |

## 5. Modelled code, file by file

The line ranges are those cited by the definitions under `lean/Verif/Model`. A range that is not listed is not
modelled; section 6 says what the larger missing parts are.

| file | cited lines |
|------|-------------|
| `canopen_402/include/canopen_402/base.h` | 13-26 |
| `canopen_402/include/canopen_402/motor.h` | 37-49, 56, 61-68, 76-78, 106-127, 133, 137, 142-289, 295-299, 317-334, 350-390 |
| `canopen_402/src/motor.cpp` | 7-10, 12-69, 72-78, 82-143, 145-161, 163-547 |
| `canopen_chain_node/include/canopen_chain_node/ros_chain.h` | 21-38, 45-53, 57-70, 76-91, 120-122, 129-210 |
| `canopen_chain_node/src/chain_node.cpp` | 15-17 |
| `canopen_chain_node/src/ros_chain.cpp` | 24-64, 66-71, 73-92, 94-132, 134-279, 281-332, 334-578, 580-596, 598-604, 606-634, 636-641 |
| `canopen_chain_node/src/sync_node.cpp` | 18-36, 44-89, 91-98 |
| `canopen_master/include/canopen_master/bcm_sync.h` | 21-37, 39-44, 46-137, 143-164 |
| `canopen_master/include/canopen_master/can_layer.h` | 10-110 |
| `canopen_master/include/canopen_master/canopen.h` | 24-69, 71-168, 170-177, 189-258, 311-326 |
| `canopen_master/include/canopen_master/layer.h` | 12-18, 20-27, 35, 38, 42, 44-46, 54-146, 153-160, 165-168, 173-176, 180, 182-246, 248-254 |
| `canopen_master/include/canopen_master/objdict.h` | 41, 44, 48-50, 56-94, 98-115, 117, 122-134, 164-188, 194-208, 210-212, 214, 224-231, 233, 241-243, 251-263, 272-276, 278-536, 542-583 |
| `canopen_master/include/canopen_master/timer.h` | 20-23, 25-70 |
| `canopen_master/src/bcm_sync.cpp` | 7-55 |
| `canopen_master/src/emcy.cpp` | 9-21, 23-29, 31-39, 42-51, 53-70, 72-81, 83-146 |
| `canopen_master/src/master_plugin.cpp` | 9-16, 27, 31-40, 44-47, 52-60, 62-82, 84-92, 95-115, 119-121, 124-138 |
| `canopen_master/src/node.cpp` | 10-16, 20-25, 28-37, 39-42, 44-145, 148-219 |
| `canopen_master/src/objdict.cpp` | 15-17, 19-75, 83-108, 110-136, 138-147, 149-153, 155-162, 164-188, 190-201, 203-215, 217-333, 335-426, 428-480 |
| `canopen_master/src/pdo.cpp` | 8-34, 39-253, 255-383 |
| `canopen_master/src/sdo.cpp` | 18-30, 35-37, 42-49, 51-55, 68, 75-77, 82-89, 91-95, 100-110, 117-124, 127-137, 143-153, 156-164, 169-194, 196-203, 209-231, 234-277, 279-288, 292-296, 298-451 |
| `canopen_motor_node/include/canopen_motor_node/controller_manager_layer.h` | 19-27 |
| `canopen_motor_node/include/canopen_motor_node/handle_layer.h` | 36-53, 56-82, 90-142 |
| `canopen_motor_node/include/canopen_motor_node/handle_layer_base.h` | 14-19 |
| `canopen_motor_node/include/canopen_motor_node/robot_layer.h` | 20-44, 52 |
| `canopen_motor_node/include/canopen_motor_node/unit_converter.h` | 17-32, 34-39, 44-53, 64-84 |
| `canopen_motor_node/src/canopen_motor_chain_node.cpp` | 16-18 |
| `canopen_motor_node/src/controller_manager_layer.cpp` | 7-53 |
| `canopen_motor_node/src/handle_layer.cpp` | 8-17, 19-24, 26-136, 138-215 |
| `canopen_motor_node/src/interface_mapping.h` | 17-42 |
| `canopen_motor_node/src/motor_chain.cpp` | 10-84 |
| `canopen_motor_node/src/robot_layer.cpp` | 26-29, 31-80, 88-104, 106-246 |
| `socketcan_bridge/include/socketcan_bridge/socketcan_to_topic.h` | 59-71 |
| `socketcan_bridge/include/socketcan_bridge/topic_to_socketcan.h` | 53-65 |
| `socketcan_bridge/src/socketcan_bridge_node.cpp` | 37-72 |
| `socketcan_bridge/src/socketcan_to_topic.cpp` | 35-48, 60-87, 90-132 |
| `socketcan_bridge/src/socketcan_to_topic_node.cpp` | 44-61 |
| `socketcan_bridge/src/topic_to_socketcan.cpp` | 37-38, 48-74 |
| `socketcan_interface/include/socketcan_interface/asio_base.h` | 17-121 |
| `socketcan_interface/include/socketcan_interface/bcm.h` | 22-43, 45, 54-111, 113-115 |
| `socketcan_interface/include/socketcan_interface/dispatcher.h` | 22-64, 67-117 |
| `socketcan_interface/include/socketcan_interface/dummy.h` | 23-27, 30-51, 59-65, 67-186, 206-208, 215-225, 229-240 |
| `socketcan_interface/include/socketcan_interface/filter.h` | 17-32, 36-42, 55-62 |
| `socketcan_interface/include/socketcan_interface/interface.h` | 17-46, 49-57, 62-83, 86-97 |
| `socketcan_interface/include/socketcan_interface/logging.h` | 7-9 |
| `socketcan_interface/include/socketcan_interface/reader.h` | 13-19, 21-109 |
| `socketcan_interface/include/socketcan_interface/settings.h` | 14-26, 29, 38, 42-48, 51-53 |
| `socketcan_interface/include/socketcan_interface/socketcan.h` | 28-44, 46-48, 64-206, 208-211, 213-234, 236-261 |
| `socketcan_interface/include/socketcan_interface/string.h` | 35-41 |
| `socketcan_interface/include/socketcan_interface/threading.h` | 14-19, 21-88 |
| `socketcan_interface/include/socketcan_interface/xmlrpc_settings.h` | 10-41 |
| `socketcan_interface/src/canbcm.cpp` | 8-39 |
| `socketcan_interface/src/candump.cpp` | 13-46, 49-90 |
| `socketcan_interface/src/string.cpp` | 6-168 |

## 6. Parts that are not modelled

* The operating system: every result of a system call on a CAN or BCM socket (C13, C85, C98, C100), of a clock, of a timed wait and of the
  scheduler is an input of the step, so the theorems hold for all of them; the kernel's queues, filters and error reporting are not modelled.
* Plug-in loading (`plugin.cpp`, `*_plugin.cpp`, class loaders): whether a class can be loaded or allocated is an input of C94 and C106.
* ROS itself: transport of topics and services, the parameter server (parameters are inputs of C60, C88, C93, C94, C96, C99, C106), the diagnostics
  updater, the controller manager's choice of controllers and the controllers (arbitrary writers of commands in C92, C104).
* `muparser` expressions, filter plug-ins and the limits handles of `joint_limits_interface` (arbitrary functions in C92, C94, C104); the functions the
  code adds to the parser are modelled (C59, C71, C72), with exact or rounded arithmetic as stated there.
* boost's tokenizer, property tree reader of EDS files and `std::stream` number parsing: modelled as far as the code uses them
  (`Verif.Txt`, `Verif.OD`), not as libraries.
* Include guards, forward declarations, typedefs, logging of constant texts other than those of C103, C105 and C107, `rosconsole_bridge.cpp`, the virtual
  bus's life cycle (`dummy.h:17-52`: names of buses), `make_shared.h`, `delegates.h` (deprecated wrappers).
* Memory layout, allocation failure, destructor order (except where a property is about it: C09, C64, C77, C98, C108), real time inside critical sections,
  the C++ memory model beyond mutexes and atomics (each access to a shared variable outside a mutex that matters is a step of its own where a
  property is about the race: C43, C83, C92, C98).

## 7. Trusted base

* Lean 4.33 kernel. Axioms: `propext`, `Classical.choice`, `Quot.sound` only (section 9); no `sorry`, no axioms of
  our own, no `native_decide`/`bv_decide`.
* The correspondence between the C++ text and the model definitions is by reading; each definition cites its lines.
* Behaviour of libraries that is written into the model: `std::istringstream >> std::hex` (libstdc++), `strtol`/`sscanf`
  as used by the EDS parser, `boost::property_tree` INI reading (result is a tree; its parser is not modelled),
  `boost::lexical_cast<bool>`, `boost::to_lower_copy`, `boost::numeric_cast` (rounding and range check),
  `boost::unordered_map`/`std::map`/`std::set` as finite maps, `boost::mutex`/`condition_variable` as atomic steps,
  Linux SocketCAN frame layout and BCM jobs (`TX_SETUP`, `TX_DELETE` failing when there is no job), IEEE 754 double
  rounding as `roundDouble` in C59; boost::asio `io_service` (`stop` before `reset` is lost, queued handlers survive
  `stop` and are executed by the next `run`) and waitable timers (`cancel` does not remove a queued handler).

## 8. Disagreements between the code and the properties

Each is proved about the model (theorem in brackets).

* Frame text: an extended id below 0x800 is read back as a standard id (`C01_fails`).
* Filter text: a range of extended ids does not match them (`C07_extended_range_fails`).
* Socket: the error flag of a frame to send is dropped (`C13_error_flag_not_sent`); an error frame received keeps the
  rtr/extended flags of the frame read before (`C13_error_frame_stale_flags`).
* Bridge: ids beyond 29 bits are truncated and sent (`C17_out_of_range_id_sent`).
* A failing read or write cycle does not stop at the failing member (`C23_*` say what is called).
* EDS: octet strings are refused when well-formed (`C27_octets_inverted`); text values hold bytes of an internal object
  (`C62_text_values`); configured `$NODEID` values are written as raw object bytes (`C63_node_id_init`); the constant
  flag of compact sub-objects is uninitialised (`C64_compact_constant`); compact arrays miss their last entry
  (`C65_compact_arrays`).
* Storage: a failed access can leave an invented value or lose a write (`C30_*`).
* SDO: announced sizes of 256 bytes and more are encoded and decoded wrongly (`C32_long_download_refused`,
  `C33_long_upload_truncated`, `C35_announced_size`); an empty write (`C32_empty_write`); the last confirmation may be
  missing (`C36_unconfirmed_write_succeeds`); specifiers 5–7 are ignored (`C37_unknown_specifier_ignored`).
* PDO: short frames shift the data (`C38_short_frame_misplaced`), mappings longer than eight bytes are accepted and
  overflow (`C38_too_long_mapping_overflows`); buffers used after they were destroyed (`C77_disabled_pdo_false`,
  `C77_failed_repetition_false`). Seen while modelling: `pdo.cpp:107` passes the mapping index where the communication
  index is meant, so changed communication parameters alone go unnoticed; the test on `num` in `pdo.cpp:82` is
  inverted; 255 communication sub-objects give an endless loop; the mapping is written without switching the PDO off
  if the COB-ID is not writable.
* Node: unknown heartbeat interval throws in the receive thread (`C42_unknown_interval_escapes`); SYNC membership races
  (`C43_race`, `C43_unknown_state_keeps`, `C43_restart_without_report`); prepare and a second reset succeed without a
  report (`C44_prepare_without_report`, `C44_second_reset_succeeds`); false heartbeat alarm after a reset
  (`C45_interval_changed`); EMCY frame length unchecked (`C46_malformed_counts`).
* SYNC with BCM: broadcast and recover (`C48_broadcast_ignored`, `C48_broadcast_start_sticks`,
  `C48_recover_stops_sync_forever`).
* Motor: quick stop entries (`C50_quick_stop_not_entered`), stuck in Fault (`C51_repeated_fault_stuck`,
  `C51_recover_stuck`), refused mode keeps the old mode (`C56_refused_keeps_mode`), an enabled drive is dropped by
  init (`C67_enabled_drive_dropped`).
* Controller switch: stale records, two controllers, refused requests recorded (`C57_*`), the wrong joint is stopped
  (`C58_doSwitch_others_keep_running`).
* Units: `norm` in doubles (`C59_double_returns_max`, `C59_double_hangs`), `avg` divides by one too many
  (`C71_avg_wrong`), `smooth` turns NaN into 0 (`C72_nan_is_zero`).
* Error texts are missing for two error classes (`C61_translate_result`).
* Chain node: an initialisation that fails before the control thread begins leaves a thread looping on a chain that is
  off, later requests hang or run two control loops (`C81_late_thread_false`, `C81_two_loops_false`); `init` answers
  failure on warnings although the chain runs and success on a halted chain (`C82_init_warning_false`,
  `C82_init_halted_false`); a cycle failing during initialisation leaves single layers halted in a ready chain, and
  `recover` does not help (`C83_halted_layer_false`); a halted chain reports OK (`C84_halted_ok_false`).
* CAN layer: a send or read error that looked at the socket before it was closed may record `open` after shutdown, after
  which init never works again (`C85_stuck_false`); a stop that comes before the event loop is reset is lost and
  shutdown waits for ever (`C85_hang_false`); the cancelled read of the last session disturbs the next one
  (`C85_stale_abort_false`); `ThreadedInterface::init` may return true when the driver is not ready any more
  (`C85_threaded_ready_false`).
* Timer: stop does not stop a timer whose handler is queued (`C86_stop_false`); a single failed send ends the heartbeat
  until the chain is initialised again, `recover` does not restart it (`C86_failure_is_final`, `C86_heartbeat_result`).
* A frame after the end of a replay script is undefined behaviour (`C73_not_after_end`).
* Objects as text: one-byte integers are shown as a character (`C87_byte_false`); texts and octets are printed as C
  strings, read beyond their end and fail when empty (`C87_text_false`), the hexadecimal variants are never chosen;
  setting a text writes 24 bytes of an internal object (`C87_set_text_false`), setting octets writes nothing
  (`C87_set_octets_false`); numbers out of range wrap and non-numbers count as 0 (`C87_out_of_range_false`,
  `C87_garbage_false`); cached writes always answer success (`C87_set_cached_false`).
* Set-up of a chain: SYNC period and overflow are truncated to 16 and 8 bits, a negative update period is accepted
  (`C88_sync_false`), a rate that is NaN too (`C88_heartbeat_false`); node numbers are truncated to a byte and may occur
  twice (`C88_ids_false`); a name among the defaults hides the nodes' own names (`C88_names_false`); without nodes the
  behaviour is undefined (`C88_no_nodes_false`), a missing file lets an exception escape (`C88_no_file_false`); one
  unreadable object stops publishing of those listed after it (`C88_publish_false`).
* Node as a layer: a boot-up message that arrives before the reset command counts as its confirmation
  (`C89_early_boot_false`); recovery reports nothing when the start times out (`C89_recover_false`); a device that does
  not answer is not stopped by shutdown and stays in the SYNC producer (`C89_shutdown_false`), as does one that reports
  operational between the stop command and the end of the subscription (`C89_shutdown_synced_false`).
* Homing: a drive that still reports an earlier homing is reported as homed at once, the start bit is never sent
  (`C90_homed_before_false`); an error bit that is gone before the waiting thread looks is missed
  (`C90_short_error_false`).
* Motor handlers: a halt during a change of mode, or just after a handler has read the state, is overwritten and the motor
  is enabled (`C91_halt_mode_false`, `C91_halt_race_false`); a halt does not take back a command to enable that the drive
  has not followed yet, so a drive slower than the limit is enabled, and moves, after the halt (`C91_halt_late_false`);
  a shutdown interrupted by a halt ends without an error (`C91_shutdown_false`); the time limit is not checked while the
  state keeps changing, so a fault that comes back keeps initialisation going for ever (`C91_time_limit_false`).
- C92: `ControllerManagerLayer::handleShutdown` resets `cm_` from the service thread while the loop thread may be inside `cm_->update` (controller_manager_layer.cpp:30 and 51-53; the loop is only joined afterwards, ros_chain.cpp:210-220): `C92_shutdown_race_false`.
- C92: layers are recovered in order, so the joints are ready before `recover_` is set; a cycle in between sends the command given before the halt and does not restart the controllers (`C92_recover_race_false`). Commands do not follow the measured values while the joint is not ready (`C92_halt_tracking_false`).
- C92: `handleWrite` loads `forward_command_` and `jh_` one after the other; a mode switch in between lets a command through before `forwardForMode` (`C92_early_false`).
- C92: `handleRead` and `handleInit` ignore the result of `variables_.sync()`; a variable whose object was never read holds uninitialised memory, which becomes the measured position without any report (`C92_unread_false`).
- C93: `XmlRpcSettings::create(nh)` has the default name `"/"`, an absolute name: the settings are taken from the root of the parameter server, not from the namespace of `nh` (xmlrpc_settings.h:15-19; used in ros_chain.cpp:329 and the three bridge nodes): `C93_namespace_false`.
- C93: `boost::lexical_cast<unsigned int>` accepts negative numbers: `state_switch_timeout: -5` waits 4294967291 s (`C93_negative_false`).
- C94: `RobotLayer::add` ignores that `map::insert` found the joint already present: the second motor of a joint is set up, initialised and enabled, but no command reaches it and nothing is reported (`C94_joint_false`; robot_layer.cpp:26-29).
- C94: the obsolete `*_unit_factor` parameters and conversion expressions that are no strings raise exceptions (`std::invalid_argument`, `XmlRpcException`) that leave `setup_chain` instead of refusing the configuration (`C94_exprs_false`).
- C94: a negative update period is taken over as a negative control period, as the interval in C88.
- C95: `transmitAndWait` enables the reader without emptying it (sdo.cpp:405); a frame that came between the time-out and the return of a call is taken by the next one, which returns the old value or fails (`C95_stale_false`, `C95_stale_other_false`).
- C95: before `SDOClient::init` the identifier is that of `can::Header()`, 0: a transfer would send NMT commands (`C95_uninitialised_false`).
- C95: `SDOClient::init` does not take the mutex; during a transfer that fails, `*current_entry` at sdo.cpp:429 is a null pointer (`C95_init_race_false`).
- C95: bits 30 and 31 (dynamic, not valid) of 1200 sub 1 and 2 are ignored (sdo.cpp:18-30); a second `init` takes the values of the dictionary again, never those of the device.
- C96: limits handles are made for a command only if there are limits of its own kind (handle_layer.cpp:103): a continuous joint with a velocity limit takes any position command (`C96_continuous_false`).
- C96: `first_init_` is cleared only after all joints were registered and `limits_` is never emptied: after an exception of the limits library a second initialisation adds to the limits of the first (`C96_retry_false`).
- C96: `registerHandle` registers at the interface before it makes the limits handles (handle_layer.cpp:102-104): if the library refuses them, the joint stays offered for commands without its limits (`C96_refused_false`).
- C97: `sync_interval_ms` is an int that is stored in 16 bits: 65536 gives period 0 (`C97_interval_false`); `sync_overflow` is checked against 1 and > 240 only, -1 is stored as 255 (`C97_overflow_false`); `sync_id` is not checked (`C97_identifier_false`).
- C97: with `sync/ignored_nodes` the node's own heartbeat (`heartbeat/msg`) is not ignored (sync_node.cpp, `C97_own_heartbeat_false`).
- C97: the tool `canopen_bcm_sync` takes a period that is 0, negative or no number (`C97_tool_period_false`).
- C97: `report_diagnostics` recovers only if the bus reports an error; if recovery failed at the BCM socket while the bus is up, it never tries again (`C97_dead_false`).
- C97: `handleHalt` leaves the listener in place: a node started between halt and recovery sets `sync_running_`, which `init` does not clear; SYNC is then never sent again and no fault is shown (`C97_stuck_false`).
- C97: if the filter cannot be set, `BCMsync::handleInit` only warns; the node is ready but sends nothing (`C97_filter_false`).
- C97: with a missing `sync_interval_ms` the message printed shows an uninitialised value.
- C98: `AsioDriver::shutdown` stops the event loop with the handler of the last read still queued (cancelled or completed); the next `run` resets the loop and runs it: the driver of the new session gets an `operation_canceled` error and is not ready (`C98_restart_ready_false`), or a frame of the first session is replaced by one of the second, which is delivered twice, and two reads run at once from then on (`C98_restart_frames_false`).
- C98: `ThreadedInterface::init` returns false on a time-out but leaves its thread running; the driver becomes ready later (`C98_init_late_false`) and a further `init` reports that.
- C98: `run` checks the state and then resets the event loop (asio_base.h:96-99); a `shutdown` between the two is undone and waits for ever (`C98_shutdown_hangs_false`).
- C98: `run` starts a second thread in the event loop (asio_base.h:103) that `shutdown` does not wait for; a listener can be called after shutdown has returned (`C98_after_shutdown_false`).
- C98: `SocketCANInterface::recover` calls the `init` without thread (socketcan.h:85-91): on a threaded driver it returns true, no thread runs, and neither `init` nor `shutdown` nor `recover` makes the driver ready again (`C98_recover_false`).
- C98 (not expressed): listeners of states are called with the state mutex held, so one that asks for the state or sends deadlocks; a shutdown from a listener would join its own thread.
- C98: `~ThreadedInterface` (threading.h:81-83) interrupts and joins the thread without stopping the event loop; destroying a driver that runs waits for ever (`C98_destroy_false`).
- C99: if `init` gives up waiting (10 s) after the device was opened, `main` returns 1 through the destructor above and hangs with the socket open (`C99_timeout_false`).
- C99: no program recovers its driver: once it is not ready (fatal error frame, failed write, failed read) nothing is sent any more (`C99_fault_false`), and after a failed read, as when the interface goes down, nothing is received (`C99_read_error_false`), until the program is restarted.
- C99: `stateCallback` looks only at the internal error: a failed read is logged as information with the text "OK" (`C99_read_error_logged_false`).
- C99: a `can_ids` that is a single number or holds another type ends the program by an uncaught exception after the device was opened (part of `C99_ids`); an empty string is taken as an empty list: nothing is published.
- C100: `BCMsocket::init` on an open object forgets the open socket, whose transmission then goes on until the process ends (`C100_reinit_false`); a socket with descriptor 0 is never closed (`C100_descriptor0_false`).
- C100: `setHeader` drops the remote flag: an order for remote frames is accepted and data frames are sent (`C100_remote_false`).
- C100: `strcpy` of the device name into the 16 bytes of `ifr_name` (`C100_long_name_false`).
- C100: canbcm does not check the parsed frames: a text without '#' or with too many digits sends identifier 0x7ff, an odd number of digits or a wrong digit sends the frame without payload (`C100_canbcm_malformed_false`).
- C101: after a stall the producer sends the SYNC frames it missed one after the other, half a period apart (`C101_catch_up_false`); a consumer that was slow uses a SYNC that is already old at once, so its read phase is not half a period after that SYNC (`C101_external_phase_false`). The loss of the foreign SYNC is not reported: the read phase leaves its status untouched.
- C102: three pairs of calls can block each other for ever. `BufferedReader::listen` holds its mutex while it registers itself, the dispatcher holds its mutex while it calls the reader; `Node` initialises its SDO client twice, the second time while it is registered (`C102_reinit_false`). `BCMsync::handleShutdown` (and a second `handleInit`) drops its listeners while it holds the mutex that its listener takes (`C102_bcm_false`). A participant of the simulated bus holds its mutex while it calls its listeners, so a responder that sends blocks against any other sender (`C102_responder_false`).
- C102: a transfer that reads or writes the heartbeat object of a node holds the mutex of the object until the answer is there; a heartbeat that arrives meanwhile makes the dispatcher wait for this mutex, so the answer is not delivered and the transfer times out (`C102_answer_false`).
- C103: candump's listeners share `std::cout` without a mutex. The state listener can run in the thread that changes the state while the frame listener prints; between `std::hex` and `std::dec` the numbers of the state come out in base 16, in the middle of the line of the frame (`C103_interleave_false`).
- C105: accesses can fail without any line in the log: a server that ends a segmented upload before the announced size, a size that is neither requested nor announced, the write of an empty value (even if confirmed), and a mutex that cannot be had in time (`C105_silent_false`). A write that returns although its last confirmation never came does leave a line (`C105_write`).
- C26: a literal that does not fit the type of its object is not refused but stored modulo the width of the type (`C26_any_literal`); beyond 64 bits it saturates first.
- C03: a header text of more than 32 bits is not refused; the frame gets the identifier word 0xFFFFFFFF, i.e. it is a valid extended error frame (`C03_header_too_large`). A header text without any hexadecimal digit means identifier 0 and is accepted (`C03_header_no_number`).
- C106: bus parameters of another type than expected (`loopback: 1`, a `master_type` that is no text, …) are ignored without a message (`C106_types_false`); the settings handed to the driver are those at the root of the parameter server, so an `error_mask` among the bus parameters has no effect (`C106_settings_false`).
- C107: `init` with warnings is reported as an error "Initializing failed" although the chain runs (`C107_init_warning_false`); errors of the control loop can go untold (`C107_loop_false`).
- C108: a control thread that begins after its failed `init` survives the destructor and works on a destroyed object (`C108_late_thread_false`).
- C110: configured communication parameters are looked for at the index of the mapping parameter (pdo.cpp:107), so a PDO of which only the identifier is configured is not switched off for the change; `init_all` then writes the identifier while the PDO is on, which CiA 301 forbids (`C110_identifier_false`). A number of mapped objects configured without entries is written while the PDO is on (`C110_count_false`).
- C110: a communication parameter with 255 sub-objects, the most CiA 301 allows, makes the set-up go round for ever with the PDO switched off: the counter of the loop in pdo.cpp:150 is a `uint8_t` compared with `<= 255` (`C110_endless_false`).
- C112: an exception in the handler of one node ends the program for all: the boot-up message of a node whose heartbeat interval has no default in the EDS is handled by reading the interval over SDO in the receiving thread, which cannot receive the answer (`C112_escape_false`).
- C113: position and velocity shown together may stem from different frames, as every mapped object is read on its own while the receiving thread goes on (`C113_torn_false`).  At the first `handleRead`, that of `handleInit`, no variable exists yet (muParser creates them when it first evaluates), so the joint shows uninitialised memory until the next cycle (`C113_first_false`).
- C114: `wait_for` looks at the current state only.  If the heartbeat that follows the boot-up message is handled before the waiting thread wakes, the boot-up message is missed; the reset fails after ten seconds although the device was reset (`C114_missed_boot_false`).  A boot-up message that is on its way when the initialisation begins is taken for the confirmation of the reset; the values are then written before the device resets and are lost, without complaint (`C114_stale_boot_false`).
- C115: `ProfiledPositionMode::write` lowers the bit for one cycle only if another command arrives before the drive's acknowledge.  If the drive misses this one frame, it sees no new set-point; `last_target_` already holds the target, so it is never sent again (`C115_missed_false`).
- C116: `DummyInterface::run` sets the state to ready without looking at it.  If the thread starts only after `shutdown` has closed the driver, the driver is ready afterwards, without a connection; a frame left in the queue then makes the next `shutdown` wait for ever (`C116_late_start_false`, `C116_hangs_false`).  The queue survives a shutdown (`C116_stale_false`).  `send` uses `bus_` without a check (`C116_send_false`).  `run` tells listeners the state although it has not changed (`C116_told_again_false`).
- C117: `~DummyBus` erases the name even if another `DummyBus` of this name exists (`C117_twins_false`).
- C118: after a bus failure the quick stop commands cannot be sent: `SocketCANInterface::enqueue`/`send` refuse everything once the driver is not ready (`C118_bus_quiet`); the drives must stop by their own supervision.  A node whose entry 0x1017 is 0 or absent is not supervised (`C118_unsupervised`).
- C119: `read_optional` uses `pt.get<T>`, which reads decimal numbers only, while objects are read with `strtoul(..., 0)`.  `NrOfTXPDO=0x4` counts as 0 and no PDO of this direction is set up, without a report (`C119_hex_false`, `C119_no_pdos_false`).  The prefixes `BaudRate_` and `Dummy` are compared with regard to case, other names are not.
- C120: a write with the flag `cached` is answered with success although the device has another value by now (`C120_cached_false`); writes without the flag are not affected.
- C121: a message with `is_error` set is put on the bus as an ordinary frame and published as an ordinary message by the other program; identifiers are cut to 29 bits (`C121_error_false`).
- C122: the initialisation of a chain does not look back: a node that leaves the operational state while later layers are initialised goes unnoticed until the next cycle (`C122_now_false`). Its recovery succeeds although a node does not start (`C122_recovered_false`).
- C123: the driver sets the number of an error before the listener of the CAN layer is called, and starts its thread before the listener exists; diagnostics may show the number of one error with the payload of another (`C123_mixed_false`) or with none (`C123_missed_false`).
- C124: conversions share the copies of objects and refer to the commands themselves, so one that assigns to them changes other results or the command (`C124_shared_false`, `C124_command_false`).
- C125: a mapping that is not configured is taken from the default of the EDS and never compared with the device, so a device with another mapping is misunderstood without an error (`C125_default_false`).
- C126: a device that does not answer when its heartbeat is switched off is not told to stop before the bus is closed (`C126_device_false`), and a motor that is halted while it is shut down is left in quick stop without any report (`C126_halt_false`).
- C128: the diagnostics of a motor take the status word and the state one after the other without a lock; a status word read in between makes them show nothing although both words call for an error (`C128_mixed_false`).
- C129: therefore a whole chain can be shown as all right although a drive was in a fault before and is at a limit after the status word that was read in between (`C129_mixed_false`).

## 9. Axioms per theorem

Output of `#print axioms` for every theorem named in `MANIFEST.json`, grouped.

* **no axioms**: `C60_complete`, `C88_publish_false`, `C98_new_quiet`, `C117_twins_false`
* **propext**: `C12_scoped_enabler`, `C14_life_cycle`, `C14_read_error`, `C17_out_of_range_id_sent`, `C29_initial`, `C38_short_frame_misplaced`, `C57_two_controllers`, `C57_stale_record`, `C57_refused_recorded`, `C63_node_id_default`, `C66_value`, `C68_refused`, `C75_reset`, `C75_fresh_read`, `C86_failure_is_final`, `C86_stop_partial`, `C87_types`, `C88_object_name`, `C89_write`, `C92_measured`, `C92_shutdown_partial`, `C93_optional`, `C96_retry_false`, `C96_refused_false`, `C102_reinit_false`, `C102_bcm_false`, `C102_responder_false`, `C116_told_again_false`, `C116_init_again`, `C116_late_start_false`, `C116_send_false`
* **Quot.sound, propext**: `C02_buffer2hex_denotes`, `C03_toframe_dlc`, `C04_fullid_value`, `C04_fullid_injective`, `C04_key_error`, `C04_key_data`, `C04_constructors`, `C04_isValid`, `C05_mask_filter`, `C05_mask_invert`, `C06_range_invert`, `C08_filtered_listener`, `C09_dispatch_calls`, `C09_exactly_once`, `C09_destroyed_not_called`, `C09_dispatch_filtered`, `C10_send_excludes_only_sender`, `C10_send_needs_connection`, `C11_no_loss_dup_reorder`, `C12_reader_refines`, `C12_capacity`, `C12_no_loss`, `C12_read_result`, `C13_dlc_out_of_range`, `C13_error_flag_not_sent`, `C13_error_frame_stale_flags`, `C14_notified_exactly_on_change`, `C14_last_view_is_current`, `C14_send`, `C15_fatal_error_stops`, `C15_other_frames_harmless`, `C15_stays_stopped`, `C16_frame_roundtrip`, `C16_message_roundtrip`, `C16_message_matches`, `C17_published_exactly_valid`, `C17_sent_exactly_valid_partial`, `C17_sent_always_valid`, `C28_device_accesses`, `C28_denied`, `C29_storage_transparent`, `C30_invented_value`, `C30_lost_write`, `C30_failed_access_partial`, `C31_init_writes`, `C32_segments`, `C35_announced_size`, `C36_unconfirmed_write_succeeds`, `C38_layout_received`, `C38_too_long_mapping_overflows`, `C39_rpdo_read`, `C40_timeout`, `C42_state`, `C42_unknown_interval_escapes`, `C43_sync_partial`, `C43_removed_partial`, `C43_race`, `C43_unknown_state_keeps`, `C43_restart_without_report`, `C44_command_sent`, `C44_nothing_else_sent`, `C44_prepare_without_report`, `C44_assumed_only_without_heartbeat`, `C44_second_reset_succeeds`, `C45_heartbeat_partial`, `C45_no_interval`, `C45_read_cycle`, `C45_interval_changed`, `C46_emergency_partial`, `C46_malformed_counts`, `C46_listens`, `C46_init`, `C46_error_list`, `C47_rejected`, `C47_sync`, `C47_nothing_else`, `C47_counter_range`, `C48_frames`, `C48_broadcast_ignored`, `C48_broadcast_start_sticks`, `C48_silent`, `C48_recover_stops_sync_forever`, `C50_refused`, `C50_same`, `C50_fault_reset_needs_edge`, `C54_objects`, `C54_nan`, `C56_available`, `C56_accepts`, `C56_other_modes_partial`, `C56_timeout`, `C56_refused_keeps_mode`, `C56_no_modes_object`, `C63_node_id_init`, `C64_compact_constant`, `C74_type_stays`, `C74_first_handle`, `C76_mapped`, `C76_traffic`, `C76_which`, `C77_no_destroyed_buffer_partial`, `C77_disabled_pdo_false`, `C77_failed_repetition_false`, `C80_which`, `C86_no_drift`, `C86_start`, `C86_heartbeat_result`, `C86_stop_false`, `C88_sync_false`, `C88_heartbeat_partial`, `C88_publish`, `C89_init_order`, `C89_init_listens`, `C89_init_result`, `C89_init_assumes`, `C89_early_boot_false`, `C89_init_waits`, `C89_recover_partial`, `C89_recover_false`, `C89_shutdown`, `C89_shutdown_unsynced_partial`, `C89_shutdown_synced_false`, `C89_shutdown_exception`, `C89_shutdown_false`, `C89_diag`, `C90_homed_before_false`, `C90_start_bit`, `C90_bits`, `C90_times`, `C90_method`, `C90_short_error_false`, `C91_init`, `C91_recover`, `C91_mode`, `C91_shutdown_partial`, `C91_shutdown_false`, `C91_shutdown_refused`, `C91_commands`, `C91_halt_mode_false`, `C91_halt_race_false`, `C91_halt_late_false`, `C91_time_limit_partial`, `C91_time_limit_false`, `C91_mode_wait`, `C91_calls`, `C91_mode_at_once`, `C91_report`, `C92_tracking`, `C92_recover_race_false`, `C92_halt_tracking_false`, `C92_early_false`, `C92_shutdown_race_false`, `C92_sync`, `C92_variable`, `C94_period_fixed`, `C94_period_realtime`, `C95_ids`, `C95_requests`, `C95_foreign`, `C95_idle`, `C95_transfer_partial`, `C95_stale_false`, `C95_stale_other_false`, `C95_init_race_false`, `C96_once`, `C96_continuous_false`, `C97_node`, `C97_own_heartbeat_partial`, `C98_one_at_a_time`, `C98_ready_partial`, `C98_shutdown_returns_partial`, `C98_destroy_false`, `C98_after_shutdown_partial`, `C100_safe`, `C100_long_name_false`, `C101_never_early`, `C101_on_time`, `C101_catch_up_false`, `C101_external_phase_false`, `C102_answer_false`, `C107_loop_rate`, `C107_loop_only`, `C109_initialised`, `C110_untouched`, `C110_identifier_false`, `C110_count_false`, `C110_endless_false`, `C112_delivered`, `C112_predefined`, `C112_disjoint`, `C112_survives`, `C112_escape_false`, `C113_torn_false`, `C113_first_false`, `C114_stale_boot_false`, `C116_told`, `C116_hangs_false`, `C116_stale_false`, `C116_no_crash`, `C118_silence`, `C118_bus_quiet`, `C118_unsupervised`, `C123_last`
* **Classical.choice, Quot.sound, propext**: `C01_frame_text_roundtrip_partial`, `C01_small_extended_becomes_standard`, `C01_fails`, `C02_digit`, `C02_hex_roundtrip`, `C02_hex2buffer_decodes`, `C02_hex2buffer_accepts`, `C03_toframe_meaning`, `C03_header_too_large`, `C03_header_no_number`, `C03_toframe_no_separator`, `C03_toframe_too_long`, `C03_toframe_payload`, `C06_range_filter`, `C06_range_default`, `C07_filter_number`, `C07_filter_text_mask`, `C07_filter_text_plain`, `C07_filter_text_range_partial`, `C07_extended_range_fails`, `C08_no_filters`, `C10_loop_back`, `C12_in_order_at_most_once`, `C13_socket_roundtrip`, `C13_kernel_frame_received`, `C13_delivered`, `C15_masks`, `C15_masks_readable`, `C15_settings_take_effect`, `C15_boolean_texts`, `C18_status_worst`, `C18_reasons`, `C19_layer_life_cycle`, `C19_group_life_cycle`, `C19_group_history`, `C19_ready_only_after_success`, `C19_recover_all_or_nothing`, `C20_handlers_follow_life_cycle`, `C20_leaf_invocations`, `C20_cyclic_handlers`, `C20_transition_handlers`, `C20_member_order`, `C21_startup_all_or_nothing`, `C22_shutdown_reverse_complete`, `C22_shutdown_handler_order`, `C23_read_cycle`, `C23_write_cycle`, `C24_key_parts`, `C24_keys_never_collide`, `C25_index_text`, `C25_sub_text`, `C25_key_text_roundtrip`, `C26_literal`, `C26_node_id`, `C26_bare`, `C26_any_literal`, `C27_octets_inverted`, `C27_octet_values_false`, `C27_octets_partial`, `C28_access_codes`, `C32_download_partial`, `C32_long_download_refused`, `C32_empty_write`, `C33_upload_partial`, `C33_long_upload_truncated`, `C34_memory_safe`, `C35_read_complete_partial`, `C36_write_confirmed_partial`, `C37_server_abort`, `C37_wrong_kind_partial`, `C37_other_object`, `C37_wrong_toggle`, `C37_too_many_bytes`, `C37_too_few_announced`, `C37_unknown_specifier_ignored`, `C38_layout_sent`, `C38_transfer`, `C39_tpdo_sent`, `C39_write_reaches_bus`, `C40_rtr_timeout`, `C40_unsupervised`, `C41_cob_id`, `C41_mapping_word`, `C44_start_confirmed`, `C44_reset_confirmed`, `C44_prepare_confirmed_partial`, `C46_diag`, `C48_bcm`, `C49_state`, `C49_read`, `C50_commands_partial`, `C50_step`, `C50_automatic`, `C50_quick_stop_not_entered`, `C51_after_init`, `C51_after_init_any_partial`, `C51_after_recover_partial`, `C51_repeated_fault_stuck`, `C51_recover_stuck`, `C52_accessor`, `C52_write`, `C53_halt`, `C53_target`, `C53_moves`, `C54_target`, `C54_run_bits`, `C54_determined`, `C55_raised`, `C55_sent`, `C55_lowered`, `C55_held`, `C56_selected`, `C57_accepts`, `C57_recorded_partial`, `C57_one_interface`, `C57_one_mode`, `C58_prepare`, `C58_doSwitch_partial`, `C58_locked_out`, `C58_doSwitch_others_keep_running`, `C59_norm_partial`, `C59_needs_interval`, `C59_double_bounds`, `C59_rounding`, `C59_double_partial`, `C59_inside`, `C59_double_returns_max`, `C59_double_hangs`, `C60_node_wins`, `C60_default`, `C60_struct`, `C60_blocked`, `C61_translate_result`, `C61_translate_text`, `C62_text_values`, `C65_compact_arrays`, `C66_variables_loaded`, `C66_sub_objects_loaded`, `C66_keys_match`, `C66_contents`, `C66_overlay`, `C67_stays_enabled_partial`, `C67_enabled_drive_dropped`, `C68_started`, `C68_stopped`, `C68_others`, `C69_forwarded`, `C70_kind`, `C70_silent_while_switching`, `C71_avg_partial`, `C71_avg_wrong`, `C72_smooth`, `C72_converges`, `C72_nan_is_zero`, `C73_replay`, `C73_not_after_end`, `C78_order`, `C78_restored`, `C79_sent`, `C79_received`, `C80_frame`, `C80_every_sync`, `C81_control_loop_partial`, `C81_thread_object`, `C81_late_thread_false`, `C81_two_loops_false`, `C81_loops_bounded`, `C82_init_partial`, `C82_init_warning_false`, `C82_init_halted_false`, `C82_recover`, `C82_recover_resets`, `C82_shutdown_and_halt`, `C83_init_during_cycles_partial`, `C83_halted_layer_false`, `C84_chain_report`, `C84_halted_ok_false`, `C84_node_report`, `C85_init_and_recover`, `C85_shutdown`, `C85_one_thread`, `C85_threaded_init`, `C85_threaded_ready_false`, `C85_undisturbed_init`, `C85_restart_partial`, `C85_stuck_false`, `C85_join_returns_partial`, `C85_hang_false`, `C85_stale_abort_false`, `C85_init_again`, `C85_init_refused`, `C85_cycle`, `C85_diag`, `C85_diag_dlc`, `C85_calls_end`, `C86_rate`, `C86_calls_bounded`, `C87_get_integer`, `C87_set_integer`, `C87_round_trip`, `C87_out_of_range_false`, `C87_byte_shown`, `C87_byte_false`, `C87_text_shown_partial`, `C87_text_false`, `C87_set_text_false`, `C87_set_octets_false`, `C87_set_success`, `C87_set_cached`, `C87_set_cached_false`, `C87_garbage_false`, `C87_node_id_refused`, `C87_unknown`, `C87_others_untouched`, `C88_publish_cycle`, `C88_sync_partial`, `C88_heartbeat_false`, `C88_node`, `C88_nodes`, `C88_addressable`, `C88_ids_false`, `C88_id_kept`, `C88_names_false`, `C88_no_nodes_false`, `C88_no_file_false`, `C88_order`, `C90_success`, `C90_failure`, `C90_result`, `C91_shutdown_word`, `C91_halt_partial`, `C92_limits`, `C92_target`, `C92_start`, `C92_silent`, `C92_restart`, `C92_first_update`, `C92_unread_false`, `C93_path`, `C93_create_partial`, `C93_namespace_false`, `C93_map`, `C93_roundtrip`, `C93_typed`, `C93_unsigned`, `C93_negative_false`, `C93_bool`, `C93_motor`, `C94_node`, `C94_nodes`, `C94_joint_partial`, `C94_joint_false`, `C94_exprs_false`, `C94_order`, `C94_cycle`, `C95_read`, `C95_write`, `C95_memory_safe`, `C95_sequence`, `C95_returns`, `C95_uninitialised_false`, `C96_init`, `C96_succeeds`, `C96_enforce_partial`, `C97_own_heartbeat_false`, `C97_job_partial`, `C97_interval_false`, `C97_overflow_false`, `C97_identifier_false`, `C97_tool`, `C97_tool_refuses`, `C97_tool_ub`, `C97_tool_period_false`, `C97_states`, `C97_bring_up`, `C97_sync_partial`, `C97_fault_partial`, `C97_dead_false`, `C97_stuck_false`, `C97_filter_false`, `C98_frames_partial`, `C98_delivers`, `C98_restart_frames_false`, `C98_restart_ready_false`, `C98_init`, `C98_init_late_false`, `C98_shutdown`, `C98_shutdown_hangs_false`, `C98_after_shutdown_false`, `C98_recover_false`, `C99_published`, `C99_all_published`, `C99_send`, `C99_only_messages`, `C99_start`, `C99_no_device_partial`, `C99_timeout_false`, `C99_ids`, `C99_fault_false`, `C99_read_error_false`, `C99_quit`, `C99_done`, `C99_fault_logged_partial`, `C99_read_error_logged_false`, `C100_message`, `C100_start`, `C100_stop`, `C100_closed_partial`, `C100_reinit_false`, `C100_descriptor0_false`, `C100_remote_false`, `C100_canbcm`, `C100_canbcm_exit`, `C100_canbcm_malformed_false`, `C100_sync`, `C101_read_shifted`, `C101_spacing_partial`, `C101_external_returns`, `C101_external_read`, `C101_external_once`, `C102_no_deadlock_partial`, `C102_can_return_partial`, `C102_return_partial`, `C103_output_partial`, `C103_readable`, `C103_same_partial`, `C103_run_partial`, `C103_usage`, `C103_interleave_false`, `C103_long_false`, `C104_defined`, `C104_word`, `C104_moves`, `C104_setpoint`, `C104_limits`, `C104_command`, `C105_abort`, `C105_abort_line`, `C105_lines`, `C105_read_quiet`, `C105_write`, `C105_throws_partial`, `C105_silent_false`, `C106_accepted_partial`, `C106_refused`, `C106_shipped`, `C106_chain`, `C106_types_false`, `C106_settings_false`, `C107_request`, `C107_warning`, `C107_objects`, `C107_init_warning_false`, `C107_loop_told_partial`, `C107_loop_false`, `C108_end_partial`, `C108_late_thread_false`, `C109_same_as_memory`, `C109_object`, `C109_returns`, `C110_accepted_partial`, `C110_accepted_one`, `C110_applied_sent`, `C110_applied_received`, `C110_identifier_applied`, `C111_stopped`, `C111_not_stopped`, `C111_limit`, `C111_write_stopped`, `C111_write_fails`, `C111_quick_stop_sent`, `C111_halt`, `C111_reports`, `C111_read`, `C112_isolated_partial`, `C112_foreign_frame`, `C112_stopped`, `C113_shown_partial`, `C113_kept`, `C113_not_older`, `C113_same_frame`, `C113_integer_unique`, `C114_operational_partial`, `C114_configured_in_preop`, `C114_comes_up`, `C114_never_stuck`, `C114_missed_boot_false`, `C115_adopted_partial`, `C115_arrives_partial`, `C115_missed_false`, `C116_init`, `C116_shutdown_partial`, `C116_shutdown_returns_partial`, `C116_destroy_returns`, `C117_buses`, `C117_while_there_partial`, `C118_raised`, `C118_stops`, `C118_supervised`, `C118_write_stops`, `C118_no_alarm`, `C119_info_partial`, `C119_missing`, `C119_hex_false`, `C119_no_pdos_false`, `C119_number_else_zero`, `C119_sets`, `C119_refused`, `C119_loaded`, `C120_same_as_memory`, `C120_set_get`, `C120_others`, `C120_cached_false`, `C121_published`, `C121_message`, `C121_delivered`, `C121_origin`, `C121_error_false`, `C122_started_partial`, `C122_failed`, `C122_now_false`, `C122_recovered_partial`, `C122_recovered_false`, `C123_shown_partial`, `C123_origin`, `C123_mixed_false`, `C123_missed_false`, `C124_independent`, `C124_forgets`, `C124_command`, `C124_value`, `C124_shared_false`, `C124_command_false`, `C125_received_partial`, `C125_sent_partial`, `C125_all_partial`, `C125_default_false`, `C126_ordered_partial`, `C126_closed`, `C126_restart_partial`, `C126_device_false`, `C126_halt_false`, `C127_same_as_memory`, `C127_returns`, `C127_accepted`, `C127_agrees_partial`, `C128_report_partial`, `C128_unknown`, `C128_two_words`, `C128_mixed_false`, `C129_worst`, `C129_drives_partial`, `C129_drives_any`, `C129_nodes`, `C129_bus`, `C129_mixed_false`
