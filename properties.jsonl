{"id": "C01", "title": "Frame text round trip", "statement": "Formatting a valid CAN frame with tostring(frame, lc) and parsing the text with toframe() gives back a frame with the same identifier, the same extended/RTR/error flags, the same dlc and the same payload bytes, for upper and lower case output.", "quantifier": "every valid frame (all 29-bit ids, all flag combinations, all dlc 0..8, all payloads) and both letter cases", "why_tests_cant": "2^29 ids x flags x 2^64 payloads; tests sample a few strings, and the code actually breaks it for extended ids below 0x800, which no sampled test hits", "anchors": ["socketcan_interface/src/string.cpp: tostring(const Header&,bool), tostring(const Frame&,bool), toheader, tohex, toframe", "socketcan_interface/test/test_string.cpp"]}
{"id": "C02", "title": "Hex payload codec is lossless and total", "statement": "buffer2hex(bytes, lc) always yields exactly two hex digits per byte and hex2buffer() on that text returns the original bytes; hex2buffer accepts exactly the strings whose characters are all hex digits and whose length is even (or any length when padding is requested, an odd string then meaning the same as with a leading 0) and reports failure on every other string.", "quantifier": "every byte string of any length and every input string of any length", "why_tests_cant": "unbounded lengths and all 256 byte values at every position", "anchors": ["socketcan_interface/src/string.cpp: hex2dec, hex2buffer, dec2hex, byte2hex, buffer2hex"]}
{"id": "C03", "title": "toframe never yields an over-long frame", "statement": "For every input text, toframe returns a frame with dlc <= 8; it is marked invalid whenever the text has no '#' or the payload text denotes more than 8 bytes, and when the payload text is well-formed hex of at most 8 bytes dlc and data are exactly the decoded bytes.", "quantifier": "every input string, including garbage", "why_tests_cant": "the input space is all strings; the memory-safety part (copy into a fixed 8 byte array) must hold for hostile input", "anchors": ["socketcan_interface/src/string.cpp: toframe, hex2buffer", "socketcan_interface/include/socketcan_interface/interface.h: Frame::isValid"]}
{"id": "C04", "title": "Header packing is faithful", "statement": "fullid() packs id, extended, RTR and error flag so that two headers have the same fullid exactly when all four fields agree; the flags and id can be read back from the packed word; key() equals fullid() for data frames, and maps all error frames (and only those) to one common key.", "quantifier": "every header value", "why_tests_cant": "2^32 values; key collisions would make listeners miss or steal frames", "anchors": ["socketcan_interface/include/socketcan_interface/interface.h: Header::fullid, Header::key, Header::isValid"]}
{"id": "C05", "title": "Mask filter semantics", "statement": "A mask filter built with FrameMaskFilter(id, mask, invert) passes a frame exactly when the frame key and id agree on every bit of the mask, negated if invert is set; a filter and its inverted twin always disagree.", "quantifier": "every can id, mask, inversion flag and frame", "why_tests_cant": "2^32 x 2^32 x 2^32 combinations", "anchors": ["socketcan_interface/include/socketcan_interface/filter.h: FrameMaskFilter"]}
{"id": "C06", "title": "Range filter semantics", "statement": "A range filter passes a frame exactly when its key lies in [min,max], negated if invert is set.", "quantifier": "every min, max, inversion flag and frame", "why_tests_cant": "2^32 cubed combinations, boundary values", "anchors": ["socketcan_interface/include/socketcan_interface/filter.h: FrameRangeFilter"]}
{"id": "C07", "title": "Filter text syntax", "statement": "tofilter parses 'id', 'id:mask', 'id~mask', 'lo-hi' and 'lo_hi' (standard ids written in hex) into filters with the documented meaning: match the id, match under the mask, match unless under the mask, pass inside the range, pass outside the range.", "quantifier": "every pair of ids/masks written in hex and every frame", "why_tests_cant": "the parser must be right for all texts; the unit tests exercise a handful; for extended range filters the code breaks it", "anchors": ["socketcan_interface/src/string.cpp: tofilter, toheader, tohex", "socketcan_interface/include/socketcan_interface/filter.h"]}
{"id": "C08", "title": "Filtered listener delivers exactly the matching frames once", "statement": "A FilteredFrameListener calls its callback exactly once for every received frame for which at least one filter passes, in arrival order, and never for any other frame; with no filters it never calls it.", "quantifier": "every list of filters and every sequence of received frames", "why_tests_cant": "all sequences of frames and filter lists", "anchors": ["socketcan_interface/include/socketcan_interface/filter.h: FilteredFrameListener"]}
{"id": "C09", "title": "Dispatch reaches every live listener exactly once and nobody else", "statement": "After any history of creating and destroying listeners, dispatching a message calls, exactly once each, every listener that is still alive and was created for that message's key, and every live listener created without a key; destroyed listeners and listeners for other keys are never called; within one kind the calls follow creation order and keyed listeners come first.", "quantifier": "every sequence of createListener / listener destruction / dispatch operations and every message", "why_tests_cant": "property of unbounded histories", "anchors": ["socketcan_interface/include/socketcan_interface/dispatcher.h: SimpleDispatcher, FilteredDispatcher"]}
{"id": "C10", "title": "Bus delivery excludes only the sender", "statement": "A frame sent on a DummyInterface is queued exactly once on every other interface connected to the same bus; it is queued on the sending interface exactly when loopback was requested.", "quantifier": "every set of connected interfaces, loopback settings and sent frame", "why_tests_cant": "any number of interfaces and any connection history", "anchors": ["socketcan_interface/include/socketcan_interface/dummy.h: DummyBus, DummyInterface::send", "socketcan_interface/include/socketcan_interface/dispatcher.h: dispatch_filtered"]}
{"id": "C11", "title": "No loss, duplication or reordering in the virtual interface", "statement": "For every interleaving of frame arrivals with the receive loop, the frames handed to listeners followed by the frames still queued are exactly the arrived frames in arrival order.", "quantifier": "every schedule of enqueue and run-loop steps", "why_tests_cant": "schedules are unbounded; a test sees one interleaving", "anchors": ["socketcan_interface/include/socketcan_interface/dummy.h: DummyInterface::enqueue, run"]}
{"id": "C12", "title": "Buffered reader keeps the newest frames in order", "statement": "After any history of arrivals, reads, flushes, enabling/disabling and capacity changes the reader returns received frames in arrival order, each at most once, never more than the capacity are held, only oldest frames are discarded, frames arriving while disabled are discarded, and with unlimited capacity no enabled frame is lost.", "quantifier": "every sequence of reader operations and every capacity", "why_tests_cant": "unbounded histories, all capacities", "anchors": ["socketcan_interface/include/socketcan_interface/reader.h: BufferedReader"]}
{"id": "C13", "title": "Socket frame conversion is faithful", "statement": "A valid data or RTR frame written to the kernel socket by send() and read back by the receive path carries the same id, flags, dlc and payload; the kernel identifier word has EFF/RTR flags exactly as in the frame; a frame whose dlc is out of range would read outside the payload.", "quantifier": "every frame and every previous receive state", "why_tests_cant": "2^29 ids, all payloads, and dependence on stale state of the input frame", "anchors": ["socketcan_interface/include/socketcan_interface/socketcan.h: enqueue, readFrame"]}
{"id": "C14", "title": "Driver state notification", "statement": "State listeners are notified exactly when the recorded driver state, error code or internal error changes, and once more whenever run() ends; the value delivered is the recorded state; nothing is sent unless the driver is ready.", "quantifier": "every sequence of state updates and sends", "why_tests_cant": "unbounded histories", "anchors": ["socketcan_interface/include/socketcan_interface/asio_base.h: setErrorCode, setInternalError, setDriverState, setNotReady, send"]}
{"id": "C15", "title": "Fatal error mask always stops the driver", "statement": "Whatever the settings say, bus-off is in the fatal mask, every fatal class is also reported, settings can enable or disable exactly the named classes, and receiving an error frame of a fatal class leaves the driver not ready with that error recorded.", "quantifier": "every settings map, every error frame, every driver state", "why_tests_cant": "2^9 settings combinations x 2^29 error words x states", "anchors": ["socketcan_interface/include/socketcan_interface/socketcan.h: parse_error_mask, init, readFrame"]}
{"id": "C16", "title": "Bridge conversion round trip", "statement": "Converting a CAN frame to a ROS message and back yields the same frame; converting a message whose id fits 29 bits and whose flags are 0/1 to a frame and back yields the same message.", "quantifier": "every frame and every such message", "why_tests_cant": "all ids and payloads", "anchors": ["socketcan_bridge/include/socketcan_bridge/socketcan_to_topic.h: convertSocketCANToMessage", "socketcan_bridge/include/socketcan_bridge/topic_to_socketcan.h: convertMessageToSocketCAN"]}
{"id": "C17", "title": "Bridge forwards exactly valid traffic", "statement": "The CAN-to-ROS bridge publishes exactly one message for every valid received frame and none for an invalid one; the ROS-to-CAN bridge sends exactly one frame for every message denoting a valid frame and none for a message whose id or dlc is out of range.", "quantifier": "every sequence of frames and messages", "why_tests_cant": "all messages, including malformed ones; the code truncates ids above 29 bits and breaks the second half", "anchors": ["socketcan_bridge/src/socketcan_to_topic.cpp: frameCallback", "socketcan_bridge/src/topic_to_socketcan.cpp: msgCallback", "socketcan_interface/include/socketcan_interface/interface.h: Frame::isValid"]}
{"id": "C18", "title": "Status only gets worse", "statement": "A LayerStatus never decreases in severity: after any sequence of warn/error/stale reports its severity is the worst reported one, and every reported non-empty reason appears in the final reason text in order.", "quantifier": "every sequence of reports", "why_tests_cant": "unbounded sequences and concurrent reporters", "anchors": ["canopen_master/include/canopen_master/layer.h: LayerStatus::set, reason, warn, error, stale"]}
{"id": "C19", "title": "Layer life cycle", "statement": "A layer is only ever Ready after an init or recover call that reported at most a warning; after init it is Ready or Off, after shutdown it is Off, after halt it is never running, after recover it is Ready, Error, or unchanged if it was not in Error; whatever the handlers do or throw.", "quantifier": "every layer implementation (arbitrary handlers, possibly throwing) and every sequence of calls", "why_tests_cant": "quantifies over all handler behaviours and call histories", "anchors": ["canopen_master/include/canopen_master/layer.h: Layer"]}
{"id": "C20", "title": "Handlers run only in the right states", "statement": "read and write handlers are only invoked while the layer is not Off, init handlers only from Off, shutdown handlers only when not Off, recover handlers only from Error, halt handlers only when the layer is past Halt.", "quantifier": "every handler behaviour and call history", "why_tests_cant": "unbounded histories", "anchors": ["canopen_master/include/canopen_master/layer.h: Layer::read, write, init, shutdown, halt, recover"]}
{"id": "C21", "title": "Stack start-up is all or nothing", "statement": "Initialising a group or stack of layers that are Off initialises them in order; if all report at most a warning every member ends Ready, otherwise initialisation stops at the first failing member, members after it are never initialised, and every member ends Off.", "quantifier": "every number of members, arbitrary handlers, failure at any position", "why_tests_cant": "crash point and group size are unbounded", "anchors": ["canopen_master/include/canopen_master/layer.h: LayerGroup::handleInit, VectorHelper::call, Layer::init"]}
{"id": "C22", "title": "Stack shutdown is complete and in reverse order", "statement": "Shutting down a stack calls shutdown on every member even if earlier ones throw or report errors, in reverse order of addition, and all members are Off afterwards.", "quantifier": "every number of members and handler behaviour", "why_tests_cant": "every failure pattern", "anchors": ["canopen_master/include/canopen_master/layer.h: LayerStack::handleShutdown, VectorHelper::call_reverse"]}
{"id": "C23", "title": "A failing cycle halts everything", "statement": "In every read or write of a group each member is processed exactly once, in order (write of a stack: in reverse order). If the status ends above warning, no member at any depth and not the group itself is left in a running state; otherwise no state changes.", "quantifier": "every group size, failing member position and handler behaviour", "why_tests_cant": "all failure positions and group sizes", "anchors": ["canopen_master/include/canopen_master/layer.h: LayerGroup::handleRead, handleWrite, call_or_fail, LayerStack::handleWrite"]}
{"id": "C24", "title": "Object keys never collide", "statement": "Keys built from (index) and (index, sub-index) compare equal exactly when built the same way from the same numbers; index and sub-index are recovered exactly; hasSub tells the two forms apart.", "quantifier": "every 16-bit index and 8-bit sub-index", "why_tests_cant": "2^25 keys, pairwise", "anchors": ["canopen_master/include/canopen_master/objdict.h: ObjectDict::Key"]}
{"id": "C25", "title": "Object name text round trip", "statement": "Printing a key and parsing the text yields the same key.", "quantifier": "every key", "why_tests_cant": "2^25 keys through a text codec", "anchors": ["canopen_master/src/objdict.cpp: Key::fromString, operator std::string"]}
{"id": "C26", "title": "Numeric EDS values", "statement": "An integer literal in an EDS file (decimal, 0x hex or 0 octal) that fits the object's type yields that value; '$NODEID+literal' yields a value that evaluates to literal plus node id, modulo the type's width, for whichever node uses it, and a plain literal is independent of the node id.", "quantifier": "every literal, every integer data type and every node id", "why_tests_cant": "all values x types x node ids", "anchors": ["canopen_master/src/objdict.cpp: int_from_string, parse_int", "canopen_master/include/canopen_master/objdict.h: NodeIdOffset"]}
{"id": "C27", "title": "Octet and domain EDS values", "statement": "A well-formed hex octet string or domain default value in an EDS file becomes the object's default value, and a malformed one does not.", "quantifier": "every hex string", "why_tests_cant": "all strings; the code has the acceptance test inverted", "anchors": ["canopen_master/src/objdict.cpp: parse_octets, parse_typed_value"]}
{"id": "C28", "title": "Access rights are enforced before the bus is touched", "statement": "Through the object storage a value is never read from the device unless the object is readable and never written to the device unless it is writable; access codes ro/wo/rw/rwr/rww/const map to their documented rights and any other code is rejected.", "quantifier": "every object, device behaviour and sequence of accesses", "why_tests_cant": "histories and device failures are unbounded", "anchors": ["canopen_master/include/canopen_master/objdict.h: ObjectStorage::Data::get, set, set_cached", "canopen_master/src/objdict.cpp: set_access, Data::init, force_write"]}
{"id": "C29", "title": "Storage reads and writes are transparent", "statement": "While the device answers, get returns what the device holds, set makes the device hold the value, get_cached returns the last value read or written, and set_cached leaves the device holding the value while writing only if the cached value differs.", "quantifier": "every sequence of storage operations on one object against a device that answers", "why_tests_cant": "histories are unbounded", "anchors": ["canopen_master/include/canopen_master/objdict.h: ObjectStorage::Data"]}
{"id": "C30", "title": "A failed device access never fakes success", "statement": "If a device read fails, a later cached read does not return an invented value; if a device write fails, writing the same value again with set_cached reaches the device.", "quantifier": "every failure position in every history of storage operations", "why_tests_cant": "crash points in histories; the code breaks both halves", "anchors": ["canopen_master/include/canopen_master/objdict.h: ObjectStorage::Data::get, set, set_cached, allocate"]}
{"id": "C31", "title": "Configured values reach the device at init", "statement": "A successful init of the storage writes the configured (init) value of exactly the writable objects whose configured value differs from the default of the file and whose known value has not been changed from that default (without a default: whose known value is not the configured one), once each, touches nothing else, and afterwards the configured value is the known one of every object not changed before; a failing write stops init and is reported.", "quantifier": "every dictionary, every device behaviour and every history of storage operations before", "why_tests_cant": "dictionary size and contents unbounded", "anchors": ["canopen_master/src/objdict.cpp: Data::init", "canopen_master/include/canopen_master/objdict.h: init_all, init_nolock"]}
{"id": "C32", "title": "SDO download delivers exactly the bytes", "statement": "Writing any non-empty byte string of any length through the SDO client to a conforming server completes and leaves the server holding exactly those bytes, using alternating toggle bits, at most 7 bytes per segment, and the last-segment flag only on the last one.", "quantifier": "every byte string of any length, every object", "why_tests_cant": "unbounded length; both transfer types; toggle parity", "anchors": ["canopen_master/src/sdo.cpp: SDOClient::write, processFrame, DownloadInitiateRequest, DownloadSegmentRequest, transmitAndWait"]}
{"id": "C33", "title": "SDO upload returns exactly the server's bytes", "statement": "Reading from a conforming server that uses expedited or size-indicated segmented upload returns exactly the server's bytes (for a fixed-size object: its leading bytes of the requested size).", "quantifier": "every byte string and object, both transfer types, every requested size", "why_tests_cant": "unbounded length; the code mis-decodes lengths of 256 and more", "anchors": ["canopen_master/src/sdo.cpp: SDOClient::read, processFrame, UploadInitiateResponse, UploadSegmentResponse, InitiateLong::data_size"]}
{"id": "C34", "title": "SDO client is memory safe against any server", "statement": "Whatever frames a server sends, in whatever order, the client never reads or writes outside the payload or the value buffer.", "quantifier": "every finite sequence of arbitrary 8-byte (or other) frames and timeouts", "why_tests_cant": "adversarial inputs of unbounded length", "anchors": ["canopen_master/src/sdo.cpp: processFrame, apply_buffer, read_data"]}
{"id": "C35", "title": "SDO read never returns partial data", "statement": "An SDO read that returns normally received a complete transfer: the number of received bytes equals the announced or requested size, is not zero, and the returned bytes are the received payload bytes in order; otherwise it throws and leaves the caller's value untouched.", "quantifier": "every server behaviour", "why_tests_cant": "adversarial schedules", "anchors": ["canopen_master/src/sdo.cpp: SDOClient::read, transmitAndWait, processFrame"]}
{"id": "C36", "title": "SDO write success means the server confirmed", "statement": "An SDO write returns normally only if the server confirmed the whole transfer.", "quantifier": "every server behaviour, including silence at any point", "why_tests_cant": "timeouts at every protocol step; the code breaks it for expedited transfers and for the last segment", "anchors": ["canopen_master/src/sdo.cpp: SDOClient::write, transmitAndWait, processFrame"]}
{"id": "C37", "title": "SDO protocol violations are aborted", "statement": "A response of the wrong kind, for another object, with a wrong toggle bit or with too many bytes makes the client send an abort frame naming the object and the standard abort code, and the access throws; an abort from the server makes it throw without answering.", "quantifier": "every protocol state and response frame", "why_tests_cant": "all 2^64 response frames in every state", "anchors": ["canopen_master/src/sdo.cpp: processFrame, abort"]}
{"id": "C38", "title": "PDO payload layout", "statement": "A transmitted PDO contains the mapped objects' values back to back in mapping order, and a received PDO of full length stores into each mapped object exactly its slice; sending with one mapping and receiving with the same mapping transfers all values.", "quantifier": "every mapping of total size at most 8 bytes and all values", "why_tests_cant": "all mappings and payloads", "anchors": ["canopen_master/src/pdo.cpp: TPDO::sync, RPDO::handleFrame, Buffer::read, Buffer::write"]}
{"id": "C39", "title": "PDO values are neither lost nor repeated", "statement": "A TPDO is sent on a cycle exactly when some mapped object was written since it was last sent, and it then carries the latest written values; a read of a received object reports fresh data once per received frame and otherwise leaves the last value.", "quantifier": "every interleaving of writes, cycles, receptions and reads", "why_tests_cant": "unbounded schedules", "anchors": ["canopen_master/src/pdo.cpp: PDOMapper::Buffer, TPDO::sync, RPDO::handleFrame"]}
{"id": "C40", "title": "RPDO supervision", "statement": "For a synchronous RPDO of type T a warning is reported from the (T+3)-th consecutive cycle without a frame on and never earlier, and never before the first frame.", "quantifier": "every transmission type and every schedule of cycles and frames", "why_tests_cant": "unbounded schedules", "anchors": ["canopen_master/src/pdo.cpp: RPDO::sync, RPDO::handleFrame"]}
{"id": "C41", "title": "PDO parameter words decode correctly", "statement": "A PDO COB-ID word is split into valid flag, RTR flag, frame type and identifier, and a mapping word into index, sub-index and bit length, losslessly.", "quantifier": "all 32-bit words", "why_tests_cant": "2^32 values", "anchors": ["canopen_master/src/pdo.cpp: PDOid, PDOmap"]}
{"id": "C42", "title": "Node state follows the device", "statement": "After any sequence of NMT error-control frames the node's reported state is the last received state byte and state listeners were notified exactly on the changes, in order.", "quantifier": "every sequence of received frames", "why_tests_cant": "unbounded histories", "anchors": ["canopen_master/src/node.cpp: handleNMT, switchState"]}
{"id": "C43", "title": "SYNC membership follows the node state", "statement": "As long as the device reports standard NMT states, a node takes part in SYNC only while its last state is operational; boot-up, pre-operational and stopped remove it.", "quantifier": "every sequence of frames and commands", "why_tests_cant": "unbounded histories; breaks for non-standard state bytes", "anchors": ["canopen_master/src/node.cpp: switchState, stop, handleNMT", "canopen_master/src/master_plugin.cpp: ManagingSyncLayer::addNode, removeNode"]}
{"id": "C44", "title": "NMT commands and transitions are confirmed", "statement": "start/prepare/reset report success only if the device reported the target state (or no heartbeat is configured, where the state is assumed), and send exactly the right two-byte command to the right node.", "quantifier": "every device behaviour", "why_tests_cant": "all schedules of device answers and timeouts", "anchors": ["canopen_master/src/node.cpp: reset_com, reset, prepare, start, stop, wait_for, NMTcommand"]}
{"id": "C45", "title": "Heartbeat loss is detected", "statement": "With a heartbeat interval configured, a read cycle reports an error exactly if more than three intervals passed since the last NMT frame from the device; with no interval it never does.", "quantifier": "all times, intervals and frame arrivals", "why_tests_cant": "real-time schedules", "anchors": ["canopen_master/src/node.cpp: checkHeartbeat, handleNMT, setHeartbeatInterval, handleRead"]}
{"id": "C46", "title": "Emergency errors surface", "statement": "After an EMCY frame the node reports an error on the next cycles while Ready exactly if the frame's error register has a bit other than bit 5 set; a malformed frame changes nothing.", "quantifier": "every sequence of EMCY frames", "why_tests_cant": "all 2^64 payloads and histories", "anchors": ["canopen_master/src/emcy.cpp: handleEMCY, handleRead, EMCYHandler::EMCYHandler"]}
{"id": "C47", "title": "SYNC counter", "statement": "SYNC frames with counter carry a value in 1..overflow and increase by one modulo the overflow from one cycle to the next; without overflow the frame is empty; nothing is sent while no node takes part; overflow 1 or above 240 is rejected.", "quantifier": "every number of cycles and every overflow", "why_tests_cant": "unbounded cycles", "anchors": ["canopen_master/src/master_plugin.cpp: SimpleSyncLayer, ManagingSyncLayer"]}
{"id": "C48", "title": "BCM SYNC runs only while nodes are started", "statement": "Without broadcast commands, after any sequence of observed NMT commands and heartbeats the kernel SYNC transmission is running exactly while at least one monitored node is started.", "quantifier": "every sequence of NMT/heartbeat frames and node lists", "why_tests_cant": "unbounded histories; breaks for broadcast start", "anchors": ["canopen_master/include/canopen_master/bcm_sync.h: BCMsync"]}
{"id": "C49", "title": "Status word decoding", "statement": "The drive state derived from a status word is the one the CiA 402 bit table assigns to it, and is unknown for every bit pattern outside that table.", "quantifier": "all 65536 status words", "why_tests_cant": "needs all words against the table", "anchors": ["canopen_402/src/motor.cpp: State402::read"]}
{"id": "C50", "title": "State commands are legal CiA 402 commands", "statement": "For every pair of states for which the transition table has an entry, the control word produced from any previous control word is a command that makes a CiA 402 drive in that state take that transition; for every other pair the control word stays unchanged and failure is reported.", "quantifier": "all state pairs, all control words, all drive states", "why_tests_cant": "2^16 previous words x 81 pairs", "anchors": ["canopen_402/src/motor.cpp: Command402, TransitionTable, setTransition"]}
{"id": "C51", "title": "Enabling always converges", "statement": "Against a conforming drive, repeatedly commanding the next step towards Operation Enable reaches it from every state in at most a fixed number of steps.", "quantifier": "every start state and control word", "why_tests_cant": "liveness over state machine product", "anchors": ["canopen_402/src/motor.cpp: nextStateForEnabling, setTransition, Motor402::switchState"]}
{"id": "C52", "title": "Operation modes cannot touch state machine bits", "statement": "Writing the control word through an operation mode changes only bits 4, 5, 6 and 9 (the declared mask), whatever the mode does.", "quantifier": "all control words, values and modes", "why_tests_cant": "2^16 x 2^16 combinations", "anchors": ["canopen_402/include/canopen_402/motor.h: WordAccessor", "canopen_402/src/motor.cpp: handleWrite"]}
{"id": "C53", "title": "Halt bit unless moving is allowed", "statement": "Every control word written has the halt bit set unless the drive is in Operation Enable with the selected mode active and the mode produced a target.", "quantifier": "every motor state and mode behaviour", "why_tests_cant": "all histories", "anchors": ["canopen_402/src/motor.cpp: handleWrite"]}
{"id": "C54", "title": "Targets are clamped, never wrapped", "statement": "A target given as a floating point number is stored as its integer part limited to the range of the device object; NaN is refused and leaves the previous target.", "quantifier": "all doubles and all target object types", "why_tests_cant": "2^64 inputs; overflow behaviour", "anchors": ["canopen_402/include/canopen_402/motor.h: ModeTargetHelper::setTarget"]}
{"id": "C55", "title": "Profiled position handshake", "statement": "In profiled position mode the new-set-point bit is raised only for a target different from the last sent one and only when the drive has not acknowledged an earlier one; it is lowered after the acknowledge.", "quantifier": "every sequence of targets and status words", "why_tests_cant": "unbounded schedules", "anchors": ["canopen_402/include/canopen_402/motor.h: ProfiledPositionMode"]}
{"id": "C56", "title": "Only supported and confirmed modes become active", "statement": "After a mode switch request, the motor accepts targets for the requested mode only if the mode is registered, the device supports it and the device reported it in the mode display; in every other case no mode is selected.", "quantifier": "every device behaviour", "why_tests_cant": "all device schedules", "anchors": ["canopen_402/src/motor.cpp: switchMode, setTarget, isModeSupportedByDevice, allocMode"]}
{"id": "C57", "title": "Controller switch admission", "statement": "prepareSwitch accepts a start request only if every claimed joint exists, supports the required mode, and no joint is claimed twice with conflicting modes; the recorded switch covers exactly the claimed joints.", "quantifier": "every set of controllers, joints and claims", "why_tests_cant": "combinatorial in controllers and joints", "anchors": ["canopen_motor_node/src/robot_layer.cpp: prepareSwitch"]}
{"id": "C58", "title": "A failed switch stops all related joints", "statement": "If switching one joint of a controller fails, all joints of that controller are put into no mode.", "quantifier": "every set of joints and every failing position", "why_tests_cant": "all failure positions; the code stops the wrong joint", "anchors": ["canopen_motor_node/src/robot_layer.cpp: doSwitch"]}
{"id": "C59", "title": "Angle normalisation", "statement": "norm(x,min,max) with min<max returns the unique value in [min,max) that differs from x by a multiple of max-min.", "quantifier": "all x, min<max", "why_tests_cant": "infinitely many inputs", "anchors": ["canopen_motor_node/include/canopen_motor_node/unit_converter.h: norm"]}
{"id": "C60", "title": "Defaults merge", "statement": "Merging node parameters over defaults gives the node's value for every path it defines and the default for every other path.", "quantifier": "all parameter trees", "why_tests_cant": "unbounded trees", "anchors": ["canopen_chain_node/include/canopen_chain_node/ros_chain.h: MergedXmlRpcStruct"]}
{"id": "C61", "title": "Error translation", "statement": "translateError succeeds exactly for 'no error' and for codes containing at least one class with a text, and then lists exactly the texts of the contained classes in a fixed order; missing acknowledge and bus errors have no text although bus errors are fatal by default.", "quantifier": "all 32-bit error codes", "why_tests_cant": "2^32 codes", "anchors": ["socketcan_interface/include/socketcan_interface/socketcan.h: translateError"]}
{"id": "C62", "title": "Text values of the EDS file", "statement": "Given a VISIBLE_STRING or UNICODE_STRING value in the file, the bytes held for it (and written at init or compared as default) are the characters of the text. The code breaks this: it holds 24 bytes of an internal object for every text.", "quantifier": "all texts, all memory layouts", "why_tests_cant": "the bytes contain addresses, they differ from run to run", "anchors": ["canopen_master/src/objdict.cpp: parse_typed_value<String>", "canopen_master/include/canopen_master/objdict.h: HoldAny::HoldAny"]}
{"id": "C63", "title": "$NODEID as default and as configured value", "statement": "A $NODEID expression given as default value is the literal plus node id for a handle of the object's type. Given as configured value of a writable object, init does not write the number but 16 bytes of an internal object, and the object cannot be opened with its integer type afterwards.", "quantifier": "all integer types, literals, node ids, devices", "why_tests_cant": "unbounded dictionaries, memory dependent bytes", "anchors": ["canopen_master/include/canopen_master/objdict.h: NodeIdOffset, ObjectStorage::entry", "canopen_master/src/objdict.cpp: Data::init, init_nolock"]}
{"id": "C64", "title": "Sub-objects of compact arrays and the constant flag", "statement": "Whether a sub-object of a compactly described array is fetched from the device on every read or answered from the first value for ever depends on uninitialised memory.", "quantifier": "all files with compact arrays, all memory contents, all devices", "why_tests_cant": "uninitialised memory differs from run to run", "anchors": ["canopen_master/src/objdict.cpp: parse_object", "canopen_master/include/canopen_master/objdict.h: ObjectDict::Entry"]}
{"id": "C65", "title": "Compact arrays are incomplete", "statement": "Reading an array in compact form with n sub-objects gives the count n at sub-index 0 and entries 1 to n-1 with the rights, type and default of the array and no configured value; the last sub-object is missing and the values section is ignored.", "quantifier": "all files and counts", "why_tests_cant": "all files and counts", "anchors": ["canopen_master/src/objdict.cpp: parse_object"]}
{"id": "C66", "title": "An accepted EDS file is completely in the dictionary", "statement": "If reading a file succeeds then each of the n supported objects of each list has a name, every named variable or domain with a section is in the dictionary under its index, every sub-object N below SubNumber with a section is there under index and sub-index, keys name their entries and are unique; an overlay value replaces exactly the configured value of exactly the named object and is refused for unknown objects.", "quantifier": "all files, overlays", "why_tests_cant": "file contents are unbounded", "anchors": ["canopen_master/src/objdict.cpp: fromFile, parse_objects, parse_object, read_var"]}
{"id": "C67", "title": "An enabled drive stays enabled", "statement": "After init, a conforming drive that has acted on enough control words is in Operation Enable and stays there in all further read and write cycles, unless a halt or a shutdown is requested.", "quantifier": "every initial state of the drive, every sequence of cycles with lost control words and delays", "why_tests_cant": "the drive's initial state, losses and delays combine without bound", "anchors": ["canopen_402/src/motor.cpp: Motor402::handleInit, switchState, handleWrite"]}
{"id": "C68", "title": "Result of a controller switch", "statement": "After an accepted switch request every joint of a controller that was started is in the mode recorded for it, even if a controller to stop used it before; every joint of a stopped controller that no started controller uses is in no mode; joints of no controller of the request are untouched. A refused request changes no joint.", "quantifier": "every robot that can arise, all start and stop lists, all answers of the motors and every iteration order of the set of joints to stop", "why_tests_cant": "combinatorial in joints, controllers, answers and set order", "anchors": ["canopen_motor_node/src/robot_layer.cpp: RobotLayer::prepareSwitch", "canopen_motor_node/src/handle_layer.cpp: HandleLayer::switchMode"]}
{"id": "C69", "title": "Commands flow after a switch", "statement": "If all controllers of a request could be started and the motors keep their modes, the second phase of the switch fails for none of them, and then every joint sends exactly the kind of command (position, velocity, effort) its mode takes.", "quantifier": "every robot that can arise, all requests and answers of motors", "why_tests_cant": "combinatorial in joints and controllers", "anchors": ["canopen_motor_node/src/robot_layer.cpp: RobotLayer::doSwitch", "canopen_motor_node/src/handle_layer.cpp: HandleLayer::forwardForMode, handleWrite"]}
{"id": "C70", "title": "A command never reaches a motor in a foreign mode", "statement": "A handle layer passes a position, velocity or effort command to the motor only while the motor is in a mode that takes this kind of command (or in no mode or homing, where it is ignored); during a mode switch it passes none.", "quantifier": "every interleaving of mode switches, forwarding, writes and modes dropped by the motor", "why_tests_cant": "unbounded interleavings of two threads", "anchors": ["canopen_motor_node/src/handle_layer.cpp: HandleLayer::switchMode, select, forwardForMode, handleWrite"]}
{"id": "C71", "title": "Average", "statement": "avg of some numbers, up to the first NaN, is their arithmetic mean.", "quantifier": "all lists of numbers", "why_tests_cant": "infinitely many inputs", "anchors": ["canopen_motor_node/include/canopen_motor_node/unit_converter.h: avg"]}
{"id": "C72", "title": "Smoothing", "statement": "smooth(x, old, alpha) with alpha in [0,1] lies between old and x; after a reset it is x; with a constant input the distance shrinks geometrically.", "quantifier": "all numbers, all numbers of cycles", "why_tests_cant": "infinitely many inputs and cycles", "anchors": ["canopen_motor_node/include/canopen_motor_node/unit_converter.h: smooth, reset"]}
{"id": "C73", "title": "Scripted participant of the virtual bus", "statement": "A DummyReplay whose script was added as texts of frames (in any letter case) answers each expected frame, when it arrives in its turn, with exactly its answers in order and moves on; it ignores other frames; done() is true exactly when the script was played to its end. A frame that arrives after the end is undefined behaviour.", "quantifier": "every script of frames whose text determines them, every sequence of such frames seen", "why_tests_cant": "scripts and sequences of frames are unbounded", "anchors": ["socketcan_interface/include/socketcan_interface/dummy.h: DummyReplay::respond, add, done"]}
{"id": "C74", "title": "Types of object handles", "statement": "The type of an object, once a handle was granted, never changes, whatever happens to the storage; the first handle granted for an object has the type its dictionary declares; handles for objects the dictionary does not have are refused.", "quantifier": "every sequence of operations on the storage, all dictionaries and devices", "why_tests_cant": "unbounded histories of operations", "anchors": ["canopen_master/include/canopen_master/objdict.h: ObjectStorage::entry"]}
{"id": "C75", "title": "Reset of the object storage", "statement": "Resetting the storage forgets every value learned from the device: afterwards each handle is as it was when it was created, with the value of the file or none, while its type and its way to the device stay.", "quantifier": "every reachable storage", "why_tests_cant": "unbounded histories of operations before the reset", "anchors": ["canopen_master/src/objdict.cpp: ObjectStorage::reset, ObjectStorage::Data::reset"]}
{"id": "C76", "title": "Mapping objects into process data", "statement": "After an object was mapped, a received process data object is the source of its values and SDO still the way to write it; a sent process data object is the way to write it and SDO still the way to read it. Mapping transfers the known value (asking the device first if none is known and it is readable) and writes nothing to the device. An object not in the dictionary cannot be mapped.", "quantifier": "every storage, dictionary and device", "why_tests_cant": "depends on the history of the handle and on the device's answers", "anchors": ["canopen_master/src/objdict.cpp: ObjectStorage::map"]}
{"id": "C77", "title": "Mapped objects never use memory that is gone", "statement": "After the PDOs of a node were set up, any use of the node's objects (reads, writes, reset, init, in any order) works on live PDO buffers only.", "quantifier": "every dictionary, device behaviour, history of uses before and after the set-up", "why_tests_cant": "a use-after-free depends on dictionary contents and on failures at any point of the set-up, and need not show in a test run", "anchors": ["canopen_master/src/pdo.cpp: PDOMapper::init, RPDO::init, TPDO::init, parse_and_set_mapping", "canopen_master/include/canopen_master/canopen.h: PDOMapper"]}
{"id": "C78", "title": "A PDO is remapped only while it is switched off", "statement": "While a PDO is set up, its mapping on the device is written only after the PDO was switched off on the device, and mapping entries only while their number is 0; when the set-up succeeds, the device has been given the number of entries and identifier of the dictionary last.", "quantifier": "every dictionary, reachable storage and device behaviour, including failures at any access", "why_tests_cant": "the order must hold for every outcome of every access", "anchors": ["canopen_master/src/pdo.cpp: PDOMapper::PDO::parse_and_set_mapping"]}
{"id": "C79", "title": "PDO buffers follow the mapping", "statement": "A PDO that was set up has one buffer per mapping entry, in order, of the length of the entry; each mapped object is connected to the buffer of its entry (for reading if the device sends the PDO, for writing otherwise) and to SDO in the other direction; other objects are left alone; the frame length is the sum of the lengths; configured entries win over defaults.", "quantifier": "every dictionary, mapping, reachable storage and device behaviour", "why_tests_cant": "combinatorial in dictionaries and histories", "anchors": ["canopen_master/src/pdo.cpp: PDOMapper::PDO::parse_and_set_mapping, RPDO::init, TPDO::init"]}
{"id": "C80", "title": "Which PDOs are used, with which frames", "statement": "A successful set-up creates exactly the first PDOs of each direction that the dictionary describes with a mapping and switched on, up to the numbers in the device information; their identifier and transmission type are those of the dictionary; a synchronous PDO the device receives is set to every SYNC.", "quantifier": "every dictionary, node id, reachable storage and device behaviour", "why_tests_cant": "combinatorial in dictionaries and histories", "anchors": ["canopen_master/src/pdo.cpp: PDOMapper::init, RPDO::init, TPDO::init"]}
{"id": "C81", "title": "One control loop while the chain is initialised", "statement": "While a chain is initialised (ready or halted) exactly one thread runs its read/write cycles and the heartbeat producer is on; while it is off there is none and the heartbeat is off. No service hangs and none touches a thread object that does not exist.", "quantifier": "every sequence of init/recover/halt/shutdown requests, cycles and thread starts, for arbitrary layers", "why_tests_cant": "depends on when the new thread is scheduled and on which layer fails", "anchors": ["canopen_chain_node/src/ros_chain.cpp: RosChain::run, handle_init, handleShutdown", "canopen_chain_node/include/canopen_chain_node/ros_chain.h: RosChain"]}
{"id": "C82", "title": "Answers of the chain's services tell the truth", "statement": "A service of the chain answers success exactly if the chain is in the requested state afterwards: init and recover leave all layers ready or answer failure and leave all of them off (init) or halted (recover); shutdown leaves everything off and halt leaves a ready chain halted. If configured, recover resets the errors of all nodes first.", "quantifier": "every reachable chain, arbitrary layers and error handlers", "why_tests_cant": "layers may fail, warn or throw at any point", "anchors": ["canopen_chain_node/src/ros_chain.cpp: RosChain::handle_init, handle_recover, handle_shutdown, handle_halt"]}
{"id": "C83", "title": "Initialisation while cycles run", "statement": "The control thread already runs read/write cycles while the layers are initialised one after the other. Whatever the interleaving, after a successful initialisation all layers are ready and after a failed one all are off.", "quantifier": "every number and position of read and write calls between the initialisations of the layers, arbitrary layers", "why_tests_cant": "schedules of two threads", "anchors": ["canopen_chain_node/src/ros_chain.cpp: RosChain::run, handle_init", "canopen_master/include/canopen_master/layer.h: Layer::init, LayerGroup::call_or_fail"]}
{"id": "C84", "title": "Diagnostics of chain and nodes", "statement": "The chain's diagnostics warn without touching any layer while it is off, report an error if the control thread is missing, and otherwise the worst report of all layers with all reasons. A node's diagnostics additionally contain one line for each configured object whose level is reached, with its value or <ERROR>; a failing read does not suppress other lines.", "quantifier": "every reachable chain, arbitrary layers and configured objects", "why_tests_cant": "layers and devices answer arbitrarily", "anchors": ["canopen_chain_node/src/ros_chain.cpp: RosChain::report_diagnostics", "canopen_chain_node/include/canopen_chain_node/ros_chain.h: Logger::log, Logger::log_entry"]}
{"id": "C85", "title": "CAN layer: a successful start means a running bus, shutdown means a closed one", "statement": "If init of the CAN layer reports no error, a single thread executes the driver's event loop on an open socket; if it reports an error, the driver is shut down and the next init starts from scratch. After shutdown the socket is closed, the thread has ended and the driver is closed, and the layer can be initialised again. While the layer is initialised, cycles report an error exactly while the driver is not ready; diagnostics name the driver state and errors.", "quantifier": "every schedule of the calling thread, the driver thread, senders and read errors; every result of the system calls and of timed waits", "why_tests_cant": "three threads and the kernel interleave; the windows are a few instructions wide", "anchors": ["canopen_master/include/canopen_master/can_layer.h: CANLayer", "socketcan_interface/include/socketcan_interface/threading.h: StateWaiter, ThreadedInterface", "socketcan_interface/include/socketcan_interface/asio_base.h: AsioDriver::run, shutdown, setNotReady"]}
{"id": "C86", "title": "Heartbeat producer keeps its rate and stops when told", "statement": "While sending works, the number of heartbeats sent after a start is the elapsed time divided by the period: delays of the thread do not accumulate. After stop, or after a heartbeat could not be sent, none is sent until the timer is started again; each start leads to one chain of heartbeats only.", "quantifier": "every history of starts, restarts, stops and results, every delay of the event loop", "why_tests_cant": "timing and the order of expiry and stop are up to the scheduler", "anchors": ["canopen_master/include/canopen_master/timer.h: Timer", "canopen_chain_node/include/canopen_chain_node/ros_chain.h: HeartbeatSender"]}
{"id": "C87", "title": "Objects read and written as text", "statement": "The get_object service answers with the device's value written out: an integer in decimal, a text as itself, octets in hexadecimal. The set_object service writes exactly the number the text denotes and refuses texts that denote none or do not fit the object; setting and then getting gives back the value. Both answer success exactly if the access succeeded, a failure with the reason otherwise; unknown nodes and objects are refused; a request never touches another node.", "quantifier": "every object of every type, every text, every device behaviour and every stored value", "why_tests_cant": "unbounded domain of texts, types and values", "anchors": ["canopen_master/src/objdict.cpp: ReadAnyValue, WriteStringValue, formatValue, ObjectStorage::getStringReader, ObjectStorage::getStringSetter", "canopen_chain_node/src/ros_chain.cpp: RosChain::handle_get_object, handle_set_object"]}
{"id": "C88", "title": "A chain is set up as its parameters say", "statement": "Setting up a chain succeeds exactly for valid parameters; then the cycles and SYNC messages have the given period and counter overflow, the heartbeat is the given frame at the given rate, there is exactly one node per configured node with its number, name, description file and overlay, diagnostics and publishers cover exactly the listed objects, every node can be addressed by its name, and the layers are ordered bus, SYNC, nodes, emergency handlers. Invalid parameters are refused.", "quantifier": "every set of parameters, defaults, description files and packages", "why_tests_cant": "unbounded trees of parameters; wrong values are silently converted", "anchors": ["canopen_chain_node/src/ros_chain.cpp: RosChain::setup, setup_sync, setup_heartbeat, setup_nodes, setup_node, addLoggerEntries, createPublishFunc, parseObjectName", "canopen_chain_node/include/canopen_chain_node/ros_chain.h: Logger::add"]}
{"id": "C89", "title": "Initialising, recovering and shutting down a node", "statement": "Initialising a node resets its communication, sets up the PDOs, writes the configured values and starts it, in this order and only if the step before succeeded; if no problem is reported, all of it was done, the device confirmed the reset after being told to and is operational. Recovery that reports no problem leaves an operational node. Shutting down switches off the device's heartbeat, stops the device, stops listening and takes the node out of the SYNC producer, also when the device does not answer. No handler waits for ever. Diagnostics and write cycles report a node that is not operational.", "quantifier": "every schedule of the calling thread and the receive thread, every behaviour of the device, every failure point", "why_tests_cant": "NMT frames arrive between any two steps of the handler; each step can fail", "anchors": ["canopen_master/src/node.cpp: Node::handleInit, handleRecover, handleShutdown, handleDiag, handleWrite, reset_com, start, stop"]}
{"id": "C90", "title": "Homing succeeds only if the drive is homed", "statement": "If homing is reported as successful, the drive was told to start homing and has completed it: at that moment its status says home position attained, target reached and no error. If it is reported as failed, the drive reported an error or a time limit passed: one second until it has started, ten more until it has finished; homing never takes longer. A finished or failed drive is noticed as soon as its status is read. The start command is held exactly while homing is in progress and never left behind. Without a homing method nothing is done.", "quantifier": "every schedule of read cycles, write cycles, bus deliveries, moves of the drive and wake-ups of the waiting thread; every status word", "why_tests_cant": "two threads, the bus and the drive interleave; status bits come and go", "anchors": ["canopen_402/src/motor.cpp: DefaultHomingMode::start, read, write, executeHoming", "canopen_402/include/canopen_402/motor.h: DefaultHomingMode"]}
{"id": "C91", "title": "Enabling, halting, recovering and shutting down a motor", "statement": "Initialisation, recovery and a change of mode that are reported as successful mean that the drive reported operation enabled in their course (and, for initialisation, that it was homed if it can be; for a mode, that it displayed the mode, which is then selected). A shutdown without an error means that the drive reported switch on disabled; a drive that can be switched off is commanded to do so by the next control word. Handlers command only transitions that start in a state the drive has reported. Once an enabled motor is halted, every control word demands a quick stop until somebody calls a handler, and a handler under way does not succeed. All handlers end within their time limits.", "quantifier": "every schedule of the handler's thread, read and write cycles, targets and halts; every sequence of status words and mode displays", "why_tests_cant": "three threads interleave between any two statements; drives take arbitrary time and may fail at any point", "anchors": ["canopen_402/src/motor.cpp: Motor402::switchState, switchMode, handleInit, handleRecover, handleHalt, handleShutdown, State402::waitForNewState"]}
{"id": "C92", "title": "Commands, limits and measured values of a joint", "statement": "Every target a joint's motor is given is the converted command of the interface in use, limited in the same cycle unless limits are switched off; nothing is sent while the joint is not ready. Commands of interfaces that are not in use follow the measured values, so a newly selected interface starts from them. Controllers and limits are restarted with the first update after initialisation and after each recovery, once. Measured values come from the objects named in the conversions: a value that cannot be read keeps its last value, a name that is no numeric object is not a number. Shutting down does not disturb a running update.", "quantifier": "every schedule of the control loop, mode switches, halts, recoveries and shutdowns; all values, limits and conversions; every outcome of reading objects", "why_tests_cant": "the loop thread interleaves with the services between any two statements; values and limits are unbounded", "anchors": ["canopen_motor_node/src/handle_layer.cpp: HandleLayer::handleRead, handleWrite, handleInit, enforceLimits", "canopen_motor_node/include/canopen_motor_node/handle_layer.h: ObjectVariables", "canopen_motor_node/src/controller_manager_layer.cpp: ControllerManagerLayer", "canopen_motor_node/include/canopen_motor_node/unit_converter.h: UnitConverter::createVariable"]}
{"id": "C93", "title": "Settings mean what they say", "statement": "A setting of a driver or a motor has the value given for it under its path, in the namespace the settings were made for, or its default if none is given; the last value set counts and is read back unchanged. A text that is no value of the expected type is refused, not guessed. A motor without settings switches modes in operation enabled, monitors the mode and waits 5 s for a state.", "quantifier": "every tree of parameters, every name, every history of values set, every text", "why_tests_cant": "unbounded trees, names and texts", "anchors": ["socketcan_interface/include/socketcan_interface/settings.h: Settings, SettingsMap, NoSettings", "socketcan_interface/include/socketcan_interface/xmlrpc_settings.h: XmlRpcSettings", "canopen_402/include/canopen_402/motor.h: Motor402 constructor"]}
{"id": "C94", "title": "A chain of motors is set up as configured", "statement": "A motor node accepts a configuration exactly if every node is acceptable and a motor can be made from its merged parameters; then every node gets one motor with its name, its joint, its converters and its filters, and commands for a joint reach the motor of that joint. Faulty parameters are refused, not raised as exceptions. The layers are driven in the order bus, SYNC, nodes, motors, joints, controllers, emergency handlers: in each cycle values go up from the bus to the controllers and commands back down in the same cycle. The controllers are updated with the configured period, or with the time really passed if asked for.", "quantifier": "every configuration, every number of nodes and joints, every sequence of cycles and times", "why_tests_cant": "unbounded configurations and histories", "anchors": ["canopen_motor_node/src/motor_chain.cpp: MotorChain::nodeAdded, MotorChain::setup_chain", "canopen_motor_node/src/handle_layer.cpp: HandleLayer constructor, HandleLayer::prepareFilters", "canopen_motor_node/src/robot_layer.cpp: RobotLayer::add", "canopen_motor_node/src/controller_manager_layer.cpp: ControllerManagerLayer::handleWrite, handleInit"]}
{"id": "C95", "title": "Transfers on the SDO channel of a node do not disturb each other", "statement": "Requests to a node carry the configured or predefined identifier and only frames with the identifier of its answers are taken in; all other traffic has no effect on a transfer. Frames that arrive while no transfer runs are ignored. Any number of reads and writes from any threads behave as if they were made one after the other: with a conforming device a read returns the value last written or set, a write changes its object, and what a transfer returns depends only on answers to it. The identifiers are set before the first transfer and changing them does not disturb a running one.", "quantifier": "every interleaving of arriving frames, calls from any number of threads, time-outs and re-initialisations; every conforming device; every object and value", "why_tests_cant": "answers may arrive before, during and after a transfer and between its steps; histories are unbounded", "anchors": ["canopen_master/src/sdo.cpp: SDOClient::init, transmitAndWait, read, write", "canopen_master/include/canopen_master/canopen.h: SDOClient", "socketcan_interface/include/socketcan_interface/reader.h: BufferedReader, ScopedEnabler"]}
{"id": "C96", "title": "Joints are offered and limited as configured", "statement": "After a successful initialisation every joint can be read, and can be commanded by position, velocity or effort exactly if its motor supports a mode of operation of that kind. Limits come from the robot description, completed by the parameters; commands of a kind a joint has limits for are saturated and then pass the soft limits, unless limits are disabled, and no other command is changed. Each joint is registered once: initialisations after a successful one change nothing, whatever happened to the parameters. Initialisation succeeds exactly if all joints are in the robot description and the limits are accepted; a missing joint is named. Limits of a joint's velocity hold for position commands too, and only the limits of the last configuration hold.", "quantifier": "every set of joints, supported modes and limits from either source; every sequence of initialisations; every behaviour of the limits library", "why_tests_cant": "sets of joints, limits and retries are unbounded", "anchors": ["canopen_motor_node/src/robot_layer.cpp: RobotLayer::handleInit", "canopen_motor_node/src/handle_layer.cpp: HandleLayer::registerHandle, enforceLimits", "canopen_motor_node/include/canopen_motor_node/handle_layer.h: HandleLayer::addHandle"]}
{"id": "C97", "title": "The programs that produce SYNC", "statement": "The SYNC node starts exactly if a positive interval, a device and an acceptable overflow are given; the command line tool takes its arguments as given and refuses others. SYNC is sent with the configured identifier, period and counter, and no other message is. Once the node is up and while the bus is, SYNC is sent exactly while a monitored (or not ignored) node is started; the node's own heartbeat does not count. The bus, the SYNC layer and the node are off, ready or in error together. Bringing the node up is tried again until it succeeds; when the bus fails an error is shown, SYNC is halted and recovery is tried until it succeeds, after which SYNC starts with the next node.", "quantifier": "every configuration and command line; every sequence of frames, diagnostic reports and outcomes of sockets, including frames that arrive between any two calls of a report", "why_tests_cant": "frames interleave with the calls of the diagnostics timer; histories are unbounded", "anchors": ["canopen_chain_node/src/sync_node.cpp: main, report_diagnostics", "canopen_master/src/bcm_sync.cpp: main", "canopen_master/include/canopen_master/bcm_sync.h: BCMsync", "socketcan_interface/include/socketcan_interface/bcm.h: BCMsocket", "canopen_master/include/canopen_master/canopen.h: SyncProperties"]}
{"id": "C98", "title": "The driver and its threads", "statement": "With the driver's own thread running, listeners are called for every frame that arrives, once, in order of arrival, and by one thread at a time. An initialisation that returns true leaves the driver ready, and it stays ready until a fault or a shutdown. A shutdown returns, leaves the driver closed with its socket and thread gone, and no listener is called after it until the next initialisation; after it the driver can be initialised again and behaves like a new one. A failed initialisation leaves the driver closed. A recovery that returns true leaves the driver ready. Destroying the driver ends its thread.", "quantifier": "every interleaving of the calling thread, the reading thread and the thread it starts, arriving frames, errors of the socket and times-out; any number of sessions", "why_tests_cant": "three threads interleave at every statement; sessions and frames are unbounded", "anchors": ["socketcan_interface/include/socketcan_interface/threading.h: StateWaiter, ThreadedInterface", "socketcan_interface/include/socketcan_interface/asio_base.h: AsioDriver::run, shutdown, dispatchFrame, frameReceived", "socketcan_interface/include/socketcan_interface/socketcan.h: SocketCANInterface::recover, triggerReadSome, readFrame"]}
{"id": "C99", "title": "The programs of the bridge", "statement": "A bridge program works on the bus exactly after its driver was opened and became ready and its parameters were usable; otherwise it ends with an error, having published and sent nothing. A running program publishes exactly one message, saying the same, for each valid frame that arrives after its start and is selected by the configured identifiers, in order, and nothing else. It writes exactly the frames of the valid messages it takes from the topic, in order, refuses others and reports those it could not send; nothing else is written. Faults of the bus are logged as errors with their text, and the program works again when the bus does. Asked to end, it always ends, with the driver closed, and does nothing afterwards.", "quantifier": "every configuration; every interleaving of arriving frames, messages, errors of the socket, times-out and requests to end with the threads of the driver", "why_tests_cant": "threads, frames and messages interleave arbitrarily; histories are unbounded", "anchors": ["socketcan_bridge/src/socketcan_bridge_node.cpp: main", "socketcan_bridge/src/socketcan_to_topic_node.cpp: main", "socketcan_bridge/src/topic_to_socketcan_node.cpp: main", "socketcan_bridge/src/socketcan_to_topic.cpp: SocketCANToTopic::setup, frameCallback, stateCallback", "socketcan_bridge/src/topic_to_socketcan.cpp: TopicToSocketCAN::msgCallback, stateCallback", "socketcan_interface/include/socketcan_interface/string.h: tofilters"]}
{"id": "C100", "title": "Cyclic frames are sent as given", "statement": "Starting a cyclic transmission orders the kernel to send exactly the given frames, one after the other, with the given identifier and period, and changes no other transmission; success is reported exactly if the kernel accepted. Stopping ends exactly the transmission of this identifier. After a shut-down or the end of the object nothing is sent any more. No call with permitted arguments touches memory outside of its buffers. The program canbcm sends exactly the frames given as texts until it is left, refuses texts that are no frames, and its exit code tells why it ended.", "quantifier": "every history of calls; every header, period and list of up to 256 frames; every answer of the operating system; every argument list of the program", "why_tests_cant": "the message is assembled at byte offsets for any number of frames and payload lengths; histories and answers of the operating system are unbounded", "anchors": ["socketcan_interface/include/socketcan_interface/bcm.h: BCMsocket", "socketcan_interface/src/canbcm.cpp: main", "canopen_master/include/canopen_master/bcm_sync.h: BCMsync"]}
{"id": "C101", "title": "The control cycle keeps time with SYNC", "statement": "A master that produces SYNC never sends one before it is due, sends the n-th a fixed number of periods after its initialisation without drift if the control loop is fast enough, and never sends two closer than a period; its read phase returns at least half a period after the last SYNC. A master that follows a foreign SYNC returns from its read phase half a period after that SYNC and, if none comes, after one period, so that it never hangs; a SYNC is used for at most one cycle, none is used twice or out of order, and none is missed unless a newer one is used; other frames do not matter.", "quantifier": "every sequence of read and write phases, every duration between them, every delay of a sleep and every arrival of frames on the bus", "why_tests_cant": "time and the delays of the scheduler are not under the control of a test; drift and lost frames show only over long runs", "anchors": ["canopen_master/src/master_plugin.cpp: SimpleSyncLayer::handleRead, handleWrite, handleInit; ExternalSyncLayer::handleRead, handleInit", "socketcan_interface/include/socketcan_interface/reader.h: BufferedReader::readUntil"]}
{"id": "C102", "title": "Calls do not block each other for ever", "statement": "However the threads of an application, of its drivers and of its control loop are scheduled, calls of the library never get into a state in which some of them wait for each other: whatever has happened, every call can still return, and does so if all threads get the processor again and again. This covers sending, receiving and dispatching, registering and dropping listeners, object access and SDO transfers, PDO exchange, NMT, the motor and controller layers, diagnostics, recovery, halt and shut-down including the joining of threads.", "quantifier": "every number of threads, every sequence of calls of each of them with every branch and loop count, every schedule", "why_tests_cant": "a deadlock needs one particular interleaving among unboundedly many; a test that does not hit it says nothing", "anchors": ["socketcan_interface/include/socketcan_interface/dispatcher.h", "socketcan_interface/include/socketcan_interface/reader.h: BufferedReader", "socketcan_interface/include/socketcan_interface/asio_base.h, socketcan.h, threading.h, dummy.h", "canopen_master/src/node.cpp, pdo.cpp, sdo.cpp, objdict.cpp", "canopen_402/src/motor.cpp: Motor402", "canopen_chain_node/src/ros_chain.cpp: RosChain"]}
{"id": "C103", "title": "candump shows what is on the bus", "statement": "For each frame and each state of the driver, candump prints exactly one line, in order. The line of a frame tells its kind (standard, extended, error), its identifier and its bytes or that it is a remote frame; the line of a state tells the state of the driver, the error of the device and the error code. The lines determine what was seen. The program ends with 1 on wrong arguments, a plugin that cannot be loaded or a driver that cannot be initialised (then it prints its state), and with 0 when the driver ends.", "quantifier": "every sequence of frames and states, every identifier, kind, length up to 8 and content, every argument list and result of the driver", "why_tests_cant": "the base of the numbers is a state of the output stream that survives from one line to the next and is shared by both listeners, so only all sequences and schedules settle it", "anchors": ["socketcan_interface/src/candump.cpp: print_frame, print_state, main", "socketcan_interface/include/socketcan_interface/interface.h: Frame, State"]}
{"id": "C104", "title": "From a controller's command to the bus and no motion without cause", "statement": "Take a drive whose control word and targets are mapped to a PDO it receives and whose status word and mode display are mapped to a PDO it sends. After every write cycle the last frame sent carries the control word the motor decided on in that cycle. If that frame lets the drive move (halt bit clear), then the drive had reported, in the frames received before the motor last looked, to be enabled and to be in the selected mode, and this mode is homing or was given a target that is not not-a-number through the joint handle; for a mode that forwards its targets the frame carries exactly the last target taken, cut to an integer and limited to the range of the object; in the profiled position mode the frame in which the bit for a new set-point rises carries the last target given, so the drive never takes over an old or half written one. With limits switched on and the controller manager up, that target is the conversion of a command that the joint limits allow. Conversely, with the drive enabled in the selected mode, a command of the handle is in the frame of the same cycle, with the halt bit clear.", "quantifier": "every layout of the PDOs, every history of controller commands, mode and state switching, homing, recovery, halt, frames of the drive, other object writes and read and write cycles in any order", "why_tests_cant": "the chain passes four layers with state of their own (cached control word, accumulated halt bit, pending PDO writes, buffered frames); tests see single histories only", "anchors": ["canopen_402/src/motor.cpp: Motor402::handleRead, handleWrite, setTarget, readState", "canopen_402/include/canopen_402/motor.h: ModeForwardHelper, ModeTargetHelper", "canopen_motor_node/src/handle_layer.cpp: HandleLayer::handleWrite", "canopen_master/src/pdo.cpp: TPDO::sync, RPDO::handleFrame, Buffer::write, Buffer::read", "canopen_master/include/canopen_master/objdict.h: ObjectStorage::Entry::set, set_cached, get"]}
{"id": "C105", "title": "The log of SDO transfers", "statement": "If the server aborts a transfer, the log gets one line that tells the index and sub-index the server named and the meaning of its code as the standard table gives it, and a line that the transfer failed; the line determines the object and the code. Nothing else is logged by an access than this, a segment that does not fit, a frame that could not be processed, or that no answer came. A read that returns logs nothing. A write that returns without a log line was confirmed completely. An access that throws leaves a line in the log.", "quantifier": "every object, value, abort code, every sequence of frames and every point at which the server aborts or falls silent", "why_tests_cant": "the log is written at different depths of the frame handling; that each failure and no success leaves a trace quantifies over all sequences of answers", "anchors": ["canopen_master/src/sdo.cpp: AbortData::text, AbortTransferRequest, SDOClient::processFrame, SDOClient::transmitAndWait, SDOClient::read, SDOClient::write", "socketcan_interface/include/socketcan_interface/logging.h: ROSCANOPEN_ERROR"]}
{"id": "C106", "title": "Bus, driver and master of a chain come from the parameters", "statement": "The chain is set up on exactly the device, driver plug-in and master allocator its bus parameters name (the SocketCAN driver and the master that produces SYNC itself if they name none), with loopback exactly if the parameter is true and with the settings among the bus parameters. Anything missing, unknown or obsolete (master_type) makes the set-up fail with exactly one error line, and no chain exists without an accepted bus; the SYNC layer is made by the accepted master.", "quantifier": "every content of the parameter server (any types), every node namespace and every set of installed plug-ins, whatever loading them results in", "why_tests_cant": "the parameters are an open tree of values of any type and plug-ins can fail in several ways; tests try a few configurations", "anchors": ["canopen_chain_node/src/ros_chain.cpp: RosChain::setup_bus, RosChain::setup", "canopen_chain_node/include/canopen_chain_node/ros_chain.h: ClassAllocator, GuardedClassLoader", "canopen_master/src/master_plugin.cpp: WrapMaster", "socketcan_interface/include/socketcan_interface/xmlrpc_settings.h: XmlRpcSettings::create"]}
{"id": "C107", "title": "The console of a chain node", "statement": "Each service request is announced by one line and ended by one line that tells its answer: an error line exactly if the answer is failure, a warning exactly for a recovery that reported warnings. Requests for objects leave a line exactly if they fail; it names the node and the reason. An error line means that the request did not take effect. The control loop reports errors and warnings of its cycles, each at most once in ten seconds, never without cause, and every such cycle is covered by a line not older than ten seconds.", "quantifier": "every state of the chain, all layers whatever they report, every request, every sequence of cycles with any reports and times", "why_tests_cant": "the line is written by destructors that look at the answer after the handler, and the loop throttles by time; only all histories settle that nothing is lost or told twice", "anchors": ["canopen_chain_node/src/ros_chain.cpp: ResponseLogger, TriggerResponseLogger, RosChain::run, RosChain::handle_init, RosChain::handle_recover, RosChain::handle_halt, RosChain::handle_shutdown, RosChain::handle_get_object, RosChain::handle_set_object"]}
{"id": "C108", "title": "The end of a chain node", "statement": "When the node is destroyed, all layers are halted and shut down, no control loop runs any more and the heartbeat is stopped, whatever requests and cycles there were before.", "quantifier": "every set of layers, every history of service requests, cycles and thread starts", "why_tests_cant": "the destructor can meet the chain in every state a history of requests leaves it in, with threads at any point", "anchors": ["canopen_chain_node/src/ros_chain.cpp: RosChain::~RosChain, RosChain::handleShutdown, RosChain::run"]}
{"id": "C109", "title": "Over the bus an object is the object of the device", "statement": "With a conforming device at the other end of the bus, reading, writing, initialising, resetting and mapping the objects of a node gives the results, and leaves the device with the values, as if the storage worked on the device's memory directly, whatever else happens on the bus during the transfers and whenever the device changes values by itself. For one object: get returns the device's value, set makes the device hold the value and touches no other object, get_cached and set_cached use the last value read or written. Every such access returns after a fixed number of answers of the device. Values have the size of the object's type, texts 1 to 255 bytes.", "quantifier": "every history of uses of any objects and of changes by the device, every legal way of the device to answer, every schedule of answers, reads and other traffic, every value of 1 to 255 bytes", "why_tests_cant": "the property joins storage, client, reader and protocol; histories and schedules are unbounded", "anchors": ["canopen_master/include/canopen_master/canopen.h: SDOClient", "canopen_master/include/canopen_master/objdict.h: ObjectStorage::Data::get, set, set_cached", "canopen_master/src/sdo.cpp: SDOClient::read, SDOClient::write, transmitAndWait", "canopen_master/src/objdict.cpp: ObjectStorage::init_all, ObjectStorage::map, ObjectStorage::reset"]}
{"id": "C110", "title": "Configured PDO parameters reach the device in the order CiA 301 demands", "statement": "A device may refuse to change the mapping of a PDO that is switched on, to change mapping entries unless their number is 0, and to change the identifier of a PDO that is switched on. Starting a node never asks for any of this, whatever else the device refuses, and when the set-up of a PDO with a configured mapping ends normally, the device has the configured identifier, number and entries.", "quantifier": "every dictionary and configuration of up to 512 PDOs in each direction, every state of the device, everything else the device may refuse and every history before", "why_tests_cant": "the order of writes depends on what is configured, on values cached before and on what the device has; only a few configurations can be tried on real devices", "anchors": ["canopen_master/src/pdo.cpp: PDOMapper::init, PDOMapper::PDO::parse_and_set_mapping, check_com_changed, check_map_changed", "canopen_master/src/node.cpp: Node::handleInit", "canopen_master/src/objdict.cpp: ObjectStorage::init, ObjectStorage::init_all"]}
{"id": "C111", "title": "An error anywhere in a chain stops every motor", "statement": "If reading or writing any layer of a running chain fails, or a drive newly reports an internal limit, or a profiled position drive reports a following error, then by the end of that cycle every motor of the chain has been told to stop: enabled ones get a quick stop command, which is sent with the next write, those in fault are left alone, the others stay in their state. Without an error no motor is stopped. The halt service does the same.", "quantifier": "every tree of layers with any number of motors anywhere in it, every behaviour of the other layers, every status of the drives, every state of the motors", "why_tests_cant": "the failing layer may be anywhere, before or after any of the motors, and the combinations of layers, errors and drive states are unbounded", "anchors": ["canopen_402/src/motor.cpp: Motor402::readState, handleRead, handleWrite, handleHalt", "canopen_master/include/canopen_master/layer.h: LayerGroup::call_or_fail, LayerGroup::handleRead, LayerGroup::handleWrite, Layer::halt", "canopen_chain_node/src/ros_chain.cpp: RosChain::run, RosChain::handle_halt"]}
{"id": "C112", "title": "Nodes on one bus do not disturb each other", "statement": "What becomes of a node (its state, its SDO channel, its emergency flag, its received process data) depends only on what is done with this node and on the frames with the identifiers it listens for, never on frames of other devices or on what is done with other nodes; every frame for one of its parts reaches this part. With the pre-defined connection set of CiA 301 nodes with different numbers from 1 to 127 share no identifier. The program survives every frame as long as each node knows its heartbeat interval.", "quantifier": "any number of nodes, every history of frames, of starting and stopping to listen, and of anything done with any node", "why_tests_cant": "the listeners of all nodes are called by one thread through one table; interference would show only for particular mixtures of traffic", "anchors": ["canopen_master/src/node.cpp: Node::handleNMT, Node::handleInit", "canopen_master/src/sdo.cpp: SDOClient::init", "canopen_master/src/emcy.cpp: EMCYHandler::EMCYHandler, handleEMCY", "canopen_master/src/pdo.cpp: RPDO::init, RPDO::handleFrame", "socketcan_interface/include/socketcan_interface/dispatcher.h: FilteredDispatcher", "socketcan_interface/include/socketcan_interface/asio_base.h: AsioDriver::dispatchFrame, run"]}
{"id": "C113", "title": "What a joint shows is what the drive sent last", "statement": "When the objects of a drive are mapped to a process data object, the position, velocity and effort a joint shows are the configured conversions of the integers in the frame received last when the handle looked, or of the values known from the set-up while no frame has been received; a cycle never shows anything older than it began with, other readers of the same objects (as the motor reading its status word) cannot take a value away from it, and without a frame arriving meanwhile all values stem from the same frame. Between cycles nothing changes what is shown.", "quantifier": "every mapping that fits into a frame, every sequence of frames, of reads of others and of steps of the cycle, all conversions", "why_tests_cant": "frames arrive on another thread at any time and every object keeps its own new-data flag; a stale or mixed value appears only with particular timing", "anchors": ["canopen_motor_node/src/handle_layer.cpp: HandleLayer::handleRead, handleInit", "canopen_motor_node/include/canopen_motor_node/handle_layer.h: ObjectVariables", "canopen_motor_node/include/canopen_motor_node/unit_converter.h: UnitConverter", "canopen_master/src/pdo.cpp: RPDO::handleFrame, PDOMapper::Buffer::read", "canopen_master/include/canopen_master/objdict.h: ObjectStorage::Data::get"]}
{"id": "C114", "title": "A node and its device come up together", "statement": "With a device that follows CiA 301, whatever the order and the delays: when the initialisation of a node ends without complaint, the device itself is operational and holds the configured values (without a heartbeat the start command may still be on its way), and the PDOs and values were written while the device was pre-operational after its reset. If the device is up, sends nothing between its boot-up message and the configuration of its heartbeat, and nothing times out or fails, the initialisation succeeds in whatever order the threads and the device go on, and no sequence of steps leads astray.", "quantifier": "every state of the device and of the traffic at the beginning, every interleaving of device, receiving thread and calling thread, every time-out and failure", "why_tests_cant": "device, receiving thread and waiting thread run independently; what goes wrong needs particular orders of a few messages", "anchors": ["canopen_master/src/node.cpp: Node::handleInit, Node::reset_com, Node::start, Node::wait_for, Node::handleNMT, Node::switchState"]}
{"id": "C115", "title": "A commanded target position is adopted by the drive", "statement": "In profiled position mode, with a drive that follows the set-point handshake of CiA 402: the targets the drive adopts are those sent, in order, none twice in a row and each a commanded one; and once no new command is given, the last commanded target is adopted by the drive after a few cycles, once, whatever the delays of control and status words.", "quantifier": "every sequence of commands, every interleaving of write cycles, of the drive looking at frames and reporting its status and of read cycles, every start value of control word, status word and objects", "why_tests_cant": "the handshake needs several cycles and runs over two queues; a lost command shows only if a command comes at a particular point of the handshake of the one before", "anchors": ["canopen_402/include/canopen_402/motor.h: ProfiledPositionMode::start, read, write, ModeTargetHelper::setTarget"]}
{"id": "C116", "title": "The virtual driver and its thread", "statement": "State listeners of the virtual driver always know its state and are told changes only. An initialisation that returns true leaves it ready and connected. A shutdown returns, hands all frames that had arrived to the listeners, in order, and leaves the driver closed, without connection and thread, and nobody is called any more until the next initialisation, which starts without old frames. Sending on a driver that was shut down fails. The destructor returns from every state.", "quantifier": "every interleaving of calls, steps of the thread, time-outs and arriving frames; any number of sessions", "why_tests_cant": "the thread may be delayed at any point, also before its first statement; sessions and frames are unbounded", "anchors": ["socketcan_interface/include/socketcan_interface/dummy.h: DummyInterface::run, shutdown, flush, init, send, setDriverState", "socketcan_interface/include/socketcan_interface/threading.h: ThreadedInterface, StateWaiter"]}
{"id": "C117", "title": "Virtual buses and their names", "statement": "Connecting a virtual interface by name works exactly while a bus of this name exists; interfaces connected by the same name to a bus that was not taken down in between are on the same bus, all others are on different ones.", "quantifier": "every sequence of making and destroying bus objects and of connecting and disconnecting interfaces", "why_tests_cant": "depends on the order of unboundedly many operations on a table shared by the whole process", "anchors": ["socketcan_interface/include/socketcan_interface/dummy.h: DummyBus::DummyBus, ~DummyBus, connect"]}
{"id": "C118", "title": "A fault on the bus stops every motor", "statement": "A bus failure (fatal error frame, failed read or failed write), an emergency message (other than of the device profile), an error control message that is not operational, or more than three heartbeat intervals of silence is known from then on until the node sends another such message, and while it is known the next read cycle of a running chain ends with an error, halts all layers and makes every enabled motor leave its state by a quick stop.", "quantifier": "every chain of layers with any number of nodes and motors, every fault, and everything that arrives, is sent or elapses before and during the cycle", "why_tests_cant": "joins the driver, node guarding, emergency handling, the layer machinery and the motors; arrivals may happen between any two handlers of a cycle", "anchors": ["canopen_master/include/canopen_master/can_layer.h: CANLayer::handleRead, handleWrite", "canopen_master/src/node.cpp: Node::handleNMT, checkHeartbeat, handleRead, handleWrite", "canopen_master/src/emcy.cpp: EMCYHandler::handleEMCY, handleRead", "canopen_402/src/motor.cpp: Motor402::handleHalt, handleWrite"]}
{"id": "C119", "title": "Device information of an EDS file", "statement": "The device information of a dictionary (names, numbers, flags, bit rates, dummy objects, numbers of PDOs) is what the section DeviceInfo of its file says, and what it does not say is 0, false or empty; the numbers of PDOs decide how many PDOs are used.", "quantifier": "every EDS file", "why_tests_cant": "the texts of a file are unbounded and may write numbers in several ways", "anchors": ["canopen_master/src/objdict.cpp: ObjectDict::fromFile, read_optional", "canopen_master/include/canopen_master/objdict.h: DeviceInfo", "canopen_master/src/pdo.cpp: PDOMapper::init"]}
{"id": "C120", "title": "Object services and the devices behind them", "statement": "Whatever get_object and set_object requests are made for the nodes of a chain, the answers and the values on the devices are those of services that read and write the devices' memories directly, although every access goes over SDO while other traffic passes; a number written as a text (without the cached flag) is on the device and is shown in decimal by later reads until somebody changes it; devices that no request names stay as they are.", "quantifier": "every history of requests for any number of nodes, every value, every change made by the devices and every order of frames on the bus", "why_tests_cant": "histories, texts and interleavings with the traffic on the bus are unbounded", "anchors": ["canopen_chain_node/src/ros_chain.cpp: RosChain::handle_get_object, handle_set_object", "canopen_master/src/objdict.cpp: ObjectStorage::getStringReader, getStringWriter", "canopen_master/src/sdo.cpp: SDOClient"]}
{"id": "C121", "title": "Messages from one bridge program to another", "statement": "When several bridge programs on different computers share a CAN bus, a valid message taken from the topic by one of them is published as the same message by every other running program that selects it, exactly once and in the order of the bus; programs publish nothing else than what others or other stations sent.", "quantifier": "every number of programs with any parameters, every history of messages, foreign frames, error reports and interleavings of threads and computers", "why_tests_cant": "the number of programs, the traffic and the interleavings are unbounded", "anchors": ["socketcan_bridge/src/topic_to_socketcan.cpp: TopicToSocketCAN::msgCallback", "socketcan_bridge/src/socketcan_to_topic.cpp: SocketCANToTopic::frameCallback", "socketcan_bridge/src/socketcan_bridge_node.cpp: main", "socketcan_interface/include/socketcan_interface/socketcan.h: SocketCANInterface::enqueue, readFrame"]}
{"id": "C122", "title": "What the answer to an initialisation of a whole chain means", "statement": "If the initialisation of a chain succeeds, the CAN driver is ready, every node was reset, set up and started and is operational, and the drive of every motor reports that operation is enabled. If it fails, all layers are off, the socket is closed, no thread executes the driver, and nobody can send on the bus until the chain is initialised again. If the recovery of a halted chain succeeds, the driver is ready, the nodes are operational and the drives enabled again.", "quantifier": "every tree of layers with any number of nodes, motors and other layers, every history of frames, status words, signals and steps of other threads during the calls", "why_tests_cant": "the number of layers and what devices and other threads do during the calls are unbounded", "anchors": ["canopen_master/include/canopen_master/layer.h: Layer::init, LayerStack, LayerGroup", "canopen_master/include/canopen_master/can_layer.h: CANLayer", "canopen_master/src/node.cpp: Node::handleInit", "canopen_402/src/motor.cpp: Motor402::handleInit", "canopen_chain_node/src/ros_chain.cpp: RosChain::handle_init"]}
{"id": "C123", "title": "The diagnostics of the bus show the error frame", "statement": "After a fatal error frame the diagnostics of the CAN layer show the number of the error and the payload of that frame. Diagnostics are defined in every history, and what they show comes from an error frame that was read.", "quantifier": "every history of frames, steps of the driver and calls of listeners, in every interleaving", "why_tests_cant": "the frames on the bus and the interleavings of the threads are unbounded", "anchors": ["canopen_master/include/canopen_master/can_layer.h: CANLayer::handleFrame, handleDiag, handleInit", "socketcan_interface/include/socketcan_interface/socketcan.h: SocketCANInterface::readFrame", "socketcan_interface/include/socketcan_interface/asio_base.h: AsioDriver::dispatchFrame"]}
{"id": "C124", "title": "Conversions of a joint do not disturb each other", "statement": "A conversion gives the value of its first expression, in which the name of its own command stands for the command written last, the name of an object for the value read last, and any other name for not-a-number until the conversion assigns to it. Its results do not depend on the texts and evaluations of the other conversions of the joint or on their commands, provided that these do not assign to objects; commands stay as they were written unless their own conversion assigns to them; after an initialisation nothing of earlier evaluations is left.", "quantifier": "all expressions, all histories of readings, evaluations, resets and commands", "why_tests_cant": "expressions come from the configuration, values from devices, and histories are unbounded", "anchors": ["canopen_motor_node/include/canopen_motor_node/unit_converter.h: UnitConverter", "canopen_motor_node/include/canopen_motor_node/handle_layer.h: ObjectVariables, HandleLayer::assignVariable", "canopen_motor_node/src/handle_layer.cpp: HandleLayer::HandleLayer, handleRead, handleWrite, handleInit"]}
{"id": "C125", "title": "Master and device agree on the contents of PDOs", "statement": "When the set-up of the PDOs of a node has ended normally, every PDO the master uses has the identifier and format under which the device handles it, and if its mapping is configured in full, the device maps the same objects in the same order and with the same lengths: values written to the mapped objects and sent in one frame are stored by the device in the objects of the same index and sub-index, and a frame with the values of the device's objects is read back from the same objects. Setting up further PDOs does not change this.", "quantifier": "all dictionaries, all histories before the set-up, all values, all devices that follow CiA 301 and may refuse any access", "why_tests_cant": "dictionaries, prior contents and refusals of the device and values are unbounded", "anchors": ["canopen_master/src/pdo.cpp: PDOMapper::PDO::parse_and_set_mapping, PDOMapper::init, RPDO::init, TPDO::init, RPDO::handleFrame, TPDO::sync"]}
{"id": "C126", "title": "Shutting down a chain", "statement": "When the shutdown of a whole chain is answered with no more than a warning, the layers of each stack were brought down in reverse order: every drive reported that switching on is disabled and its motor has no mode selected, then every device was told to stop and its node listens no longer, then the socket was closed and no thread was left in the driver. The chain is as before its first start and can be started again with the same guarantees. Whatever goes wrong, all layers are off and nobody can use the bus once the shutdown has returned.", "quantifier": "all trees of layers, all schedules of driver, receiving and control threads, all answers of devices and drives", "why_tests_cant": "trees and schedules are unbounded, and failures can occur at any step of any layer", "anchors": ["canopen_master/include/canopen_master/layer.h: Layer::shutdown, LayerStack::handleShutdown, LayerGroup::handleShutdown", "canopen_master/include/canopen_master/can_layer.h: CANLayer::handleShutdown", "canopen_master/src/node.cpp: Node::handleShutdown", "canopen_402/src/motor.cpp: Motor402::handleShutdown"]}
{"id": "C127", "title": "PDO set-up over the bus", "statement": "Setting up the PDOs of a node over the bus, with any other traffic and any delays in between, gives exactly the outcome, objects, PDOs and device contents of a set-up that reads and writes the device's memory directly. A device that enforces the rules of CiA 301 for changes of PDO parameters refuses none of the requests, and afterwards the identifiers and mappings on the device are those the node uses. No access hangs when there is a fixed number of exchanges of frames for each.", "quantifier": "all dictionaries, all contents of the device, all histories of set-ups, object accesses and changes on the device, all legal ways the server cuts its answers, all schedules of frames and foreign frames", "why_tests_cant": "the set-up of 1024 possible PDOs makes a long sequence of SDO transfers whose frames interleave with other traffic; tests use one device and one timing", "anchors": ["canopen_master/src/pdo.cpp: PDOMapper::init, parse_and_set_mapping, PDOMapper::RPDO::init, PDOMapper::TPDO::init", "canopen_master/src/sdo.cpp: SDOClient::read, SDOClient::write", "canopen_master/src/objdict.cpp: ObjectStorage"]}
{"id": "C128", "title": "Diagnostics of a motor", "statement": "The diagnostics of a motor tell what the drive said in its last status word: an error exactly if it tells a fault, a quick stop, an active internal limit or something that is no state of CiA 402, a warning exactly if it is not enabled (without being stopped) or has its warning bit set, and nothing exactly if it is enabled and neither bit is set. Before the first status word there is an error.", "quantifier": "all status words and all histories of reads, writes, targets, mode and state switching, initialisation, recovery and halt before and while the report is made", "why_tests_cant": "the report runs in a thread of its own and looks at the motor twice; what it shows for all words and all interleavings is not reached by tests", "anchors": ["canopen_402/src/motor.cpp: Motor402::handleDiag, Motor402::readState", "canopen_402/include/canopen_402/motor.h: State402", "canopen_chain_node/src/ros_chain.cpp: RosChain::report_diagnostics, RosChain::run"]}
{"id": "C129", "title": "Diagnostics of a chain cover all its layers", "statement": "While a chain is initialised and its control thread runs, its diagnostics show the worst that any of its layers says, an exception counting as an error. So no error is shown only if the driver was ready and every device was known to be operational with its heartbeat in time, and all right is shown only if every drive is enabled with neither warning nor internal limit; a drive in a fault, in quick stop, at a limit or in an unknown state makes the chain show an error.", "quantifier": "all trees of layers, all reachable states of chains, all histories of the motors and nodes, all schedules of the threads that go on while the report is made", "why_tests_cant": "trees and histories are unbounded, and the report runs concurrently to the control loop", "anchors": ["canopen_chain_node/src/ros_chain.cpp: RosChain::report_diagnostics, RosChain::run", "canopen_master/include/canopen_master/layer.h: Layer::diag, LayerGroup::handleDiag, LayerStatus::set", "canopen_402/src/motor.cpp: Motor402::handleDiag", "canopen_master/src/node.cpp: Node::handleDiag", "canopen_master/include/canopen_master/can_layer.h: CANLayer::handleDiag"]}
