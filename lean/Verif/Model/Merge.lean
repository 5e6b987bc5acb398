/-!
Model of `MergedXmlRpcStruct` (canopen_chain_node).
-/

namespace Verif.Merge

mutual
/-- `XmlRpc::XmlRpcValue` as far as the merge looks at it: a struct or something else (scalars and arrays are opaque)
(canopen_chain_node/include/canopen_chain_node/ros_chain.h:21-38). -/
inductive XVal where
  | leaf (v : Nat)
  | struct (fs : Fields)
/-- `ValueStruct`, a `std::map` from names to values, as a list of its entries
(canopen_chain_node/include/canopen_chain_node/ros_chain.h:28-29). -/
inductive Fields where
  | nil
  | cons (k : String) (v : XVal) (rest : Fields)
end

/-- `std::map::find` (used by `insert`, canopen_chain_node/include/canopen_chain_node/ros_chain.h:29). -/
def Fields.get? : Fields → String → Option XVal
  | .nil, _ => none
  | .cons k v rest, n => if n = k then some v else rest.get? n

/-- A new entry of the map (canopen_chain_node/include/canopen_chain_node/ros_chain.h:29); the position is irrelevant for lookups. -/
def Fields.append : Fields → String → XVal → Fields
  | .nil, n, x => .cons n x .nil
  | .cons k v rest, n, x => .cons k v (rest.append n x)

/-- Assignment to an existing entry (canopen_chain_node/include/canopen_chain_node/ros_chain.h:32). -/
def Fields.set : Fields → String → XVal → Fields
  | .nil, _, _ => .nil
  | .cons k v rest, n, x => if n = k then .cons k x rest else .cons k v (rest.set n x)

mutual
/-- The merging constructor with `recursive = true`: all entries of `b` in turn
(canopen_chain_node/include/canopen_chain_node/ros_chain.h:25-37). -/
def mergeFields (a : Fields) : Fields → Fields
  | .nil => a
  | .cons k v rest => mergeFields (mergeEntry a k v) rest
/-- One entry: inserted if it is new, merged if both values are structs, else ignored
(canopen_chain_node/include/canopen_chain_node/ros_chain.h:29-33). -/
def mergeEntry (a : Fields) (k : String) : XVal → Fields
  | .leaf x =>
    match a.get? k with
    | none => a.append k (.leaf x)
    | some _ => a
  | .struct bf =>
    match a.get? k with
    | none => a.append k (.struct bf)
    | some (.struct af) => a.set k (.struct (mergeFields af bf))
    | some (.leaf _) => a
end

/-- The merge as used in `setup_node` (canopen_chain_node/src/ros_chain.cpp:481): parameters of the node over the defaults.
`assertStruct` throws for a value that is no struct (`none`). -/
def merge (params defaults : XVal) : Option XVal :=
  match params, defaults with
  | .struct a, .struct b => some (.struct (mergeFields a b))
  | _, _ => none

end Verif.Merge
