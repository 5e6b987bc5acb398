import Verif.Model.Setup
import Verif.Model.Settings

/-!
# The bus part of a chain's set-up: driver, master and CAN layer
canopen_chain_node/src/ros_chain.cpp:281-332
-/

namespace Verif.Bus
open Verif Verif.Cfg

/-- result of `createInstance` of a driver (canopen_chain_node/include/canopen_chain_node/ros_chain.h:120-122, used in
canopen_chain_node/src/ros_chain.cpp:298): the instance, a `PluginlibException` with its text or any other exception -/
inductive Loaded (δ : Type) where
  | made (d : δ)
  | failed (t : Text)
  | other

/-- a master (canopen_master/include/canopen_master/canopen.h:311-326): one of the two of canopen_master/src/master_plugin.cpp:134-135 or one of
another package, given by its `getSync` -/
inductive Kind where
  | simple
  | external
  | foreign (g : Sync.Props → Setup.Made)

/-- `getSync` of a master (canopen_master/src/master_plugin.cpp:119-121) -/
def Kind.getSync (junk : Vector Byte 8) : Kind → Sync.Props → Setup.Made
  | .simple => Setup.simpleMaster junk
  | .external => Setup.externalMaster
  | .foreign g => g

/-- result of `allocateInstance` (canopen_chain_node/include/canopen_chain_node/ros_chain.h:129-134, used in
canopen_chain_node/src/ros_chain.cpp:316): a master, a null pointer, a `std::exception` with its text or any other exception -/
inductive Alloc where
  | master (k : Kind)
  | null
  | failed (t : Text)
  | other

/-- the plug-ins that are installed (canopen_chain_node/src/ros_chain.cpp:599-600): drivers by name, masters by name and device -/
structure World (δ : Type) where
  drivers : Text → Loaded δ
  masters : Text → Text → Alloc

/-- the allocators of canopen_master/src/master_plugin.cpp:124-138 (canopen_master/master_plugin.xml); `info` is the text of the exception for
a plug-in that is not there -/
def shippedMasters (info : Text → Text) (name _device : Text) : Alloc :=
  if name = "canopen::SimpleMaster::Allocator".toList then .master .simple
  else if name = "canopen::ExternalMaster::Allocator".toList then .master .external
  else .failed (info name)

/-- `getParam` of a text (library, canopen_chain_node/src/ros_chain.cpp:288, 308): false if there is no such parameter or if it is no text.
`ns` is the path of the node handle. -/
def getText (root : Tree) (ns : List Text) (n : String) : Option Text :=
  match root.at (ns ++ [n.toList]) with
  | some (.str t) => some t
  | _ => none

/-- `getParam` of a `bool` (library, canopen_chain_node/src/ros_chain.cpp:293) -/
def getBool (root : Tree) (ns : List Text) (n : String) : Option Bool :=
  match root.at (ns ++ [n.toList]) with
  | some (.bool b) => some b
  | _ => none

/-- what `setup_bus` leaves behind: `interface_`, `master_` and the arguments of the `CANLayer`
(canopen_chain_node/src/ros_chain.cpp:298, 316, 329; canopen_master/include/canopen_master/can_layer.h:27-28) -/
structure Bus (δ : Type) where
  device : Text
  loopback : Bool
  driver : δ
  master : Kind
  settings : Tree

/-- canopen_chain_node/src/ros_chain.cpp:281-332 `setup_bus` of a node with private namespace `priv`; the second component are the lines
logged as errors.  The registration of the state listener (306) is left out. -/
def setupBus {δ : Type} (w : World δ) (root : Tree) (priv : List Text) : Setup.Res (Bus δ) × List Text :=
  let ns := priv ++ ["bus".toList]
  match getText root ns "device" with
  | none => (.refused, ["Device not set".toList])
  | some device =>
    let loopback := (getBool root ns "loopback").getD false
    match w.drivers ((getText root ns "driver_plugin").getD "can::SocketCANInterface".toList) with
    | .failed t => (.refused, [t])
    | .other => (.escapes, [])
    | .made d =>
      match getText root ns "master_type" with
      | some _ => (.refused, ["please migrate to master allocators".toList])
      | none =>
        match w.masters ((getText root ns "master_allocator").getD "canopen::SimpleMaster::Allocator".toList) device with
        | .failed t => (.refused, [t])
        | .other => (.escapes, [])
        | .null => (.refused, ["Could not allocate master.".toList])
        | .master k => (.ok { device := device, loopback := loopback, driver := d, master := k, settings := create root ns defaultName }, [])

/-- canopen_chain_node/src/ros_chain.cpp:606-634 `setup`: the bus, then the rest with its master -/
def setupChain {δ : Type} (w : World δ) (nodes : Setup.World) (root : Tree) (priv : List Text) (junk : Vector Byte 8) (c : Setup.Config) :
    Setup.Res (Bus δ × Setup.Chain) :=
  (setupBus w root priv).1.bind fun b => (Setup.setup nodes (b.master.getSync junk) junk true c).bind fun ch => .ok (b, ch)

end Verif.Bus
