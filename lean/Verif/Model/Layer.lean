import Verif.Model.Basic

/-!
# Layers, groups and stacks
canopen_master/include/canopen_master/layer.h

Simplification: calls on one tree of layers run one after the other (the code uses an atomic state and a shared lock on the
member vector; concurrent calls are not modelled here).  Handlers of leaf layers are arbitrary functions.
-/

namespace Verif.Lay
open Verif

/-- canopen_master/include/canopen_master/layer.h:14-16 `LayerStatus::State` (`UNBOUNDED` is the same value as `STALE`) -/
inductive Sev where
  | ok | warn | error | stale
  deriving DecidableEq, Repr

/-- enumerator values, canopen_master/include/canopen_master/layer.h:15 -/
def Sev.toNat : Sev → Nat
  | .ok => 0 | .warn => 1 | .error => 2 | .stale => 3

/-- canopen_master/include/canopen_master/layer.h:12-18 `LayerStatus` -/
structure Status where
  sev : Sev
  reason : Text
  deriving DecidableEq, Repr

/-- canopen_master/include/canopen_master/layer.h:38 -/
def Status.initial : Status := { sev := .ok, reason := [] }

/-- canopen_master/include/canopen_master/layer.h:20-27 `LayerStatus::set` -/
def Status.set (s : Status) (v : Sev) (r : Text) : Status :=
  { sev := if v.toNat > s.sev.toNat then v else s.sev,
    reason := if r ≠ [] then (if s.reason = [] then r else s.reason ++ "; ".toList ++ r) else s.reason }

/-- canopen_master/include/canopen_master/layer.h:35 `bounded<Warn>` -/
def Status.boundedWarn (s : Status) : Bool := s.sev.toNat ≤ Sev.warn.toNat

/-- one call of `warn`, `error` or `stale` (canopen_master/include/canopen_master/layer.h:44-46) -/
inductive Report where
  | warn (r : Text)
  | error (r : Text)
  | stale (r : Text)

/-- canopen_master/include/canopen_master/layer.h:44-46 -/
def Status.report (s : Status) : Report → Status
  | .warn r => s.set .warn r
  | .error r => s.set .error r
  | .stale r => s.set .stale r

/-- canopen_master/include/canopen_master/layer.h:65-73 `LayerState` -/
inductive LayerState where
  | off | init | shutdown | error | halt | recover | ready
  deriving DecidableEq, Repr

/-- enumerator values, canopen_master/include/canopen_master/layer.h:65-73 -/
def LayerState.toNat : LayerState → Nat
  | .off => 0 | .init => 1 | .shutdown => 2 | .error => 3 | .halt => 4 | .recover => 5 | .ready => 6

/-- the virtual handlers, canopen_master/include/canopen_master/layer.h:132-141 -/
inductive Method where
  | read | write | diag | init | shutdown | halt | recover
  deriving DecidableEq, Repr

/-- Handlers of a leaf layer (canopen_master/include/canopen_master/layer.h:132-141): arbitrary functions of the rest of the
program (`σ`), the state argument of read/write and the status so far; they report to the status and may throw a
`std::exception` with a diagnostic text.  Simplification: other exception types and non-termination are excluded. -/
structure Handlers (σ : Type) where
  run : Method → LayerState → σ → Status → σ × List Report × Option Text

/-- everything outside the layer tree: rest of the program, status object of the running call, and the sequence of leaf handler
invocations so far (bookkeeping; canopen_master/include/canopen_master/layer.h:77-123) -/
structure Env (σ : Type) where
  world : σ
  status : Status
  log : List (Nat × Method)

/-- canopen_master/include/canopen_master/layer.h:59-61 `CATCH_LAYER_HANDLER_EXCEPTIONS` around a leaf handler -/
def callHandler {σ : Type} (id : Nat) (h : Handlers σ) (m : Method) (st : LayerState) (e : Env σ) : Env σ :=
  let (w, rs, ex) := h.run m st e.world e.status
  let s := rs.foldl Status.report e.status
  let s := match ex with
    | none => s
    | some t => s.set .error t
  { world := w, status := s, log := e.log ++ [(id, m)] }

/-- A layer (canopen_master/include/canopen_master/layer.h:63-146), a `LayerGroup` (198-231, `stack = false`) or a `LayerStack`
(233-240, `stack = true`).  A leaf also remembers which of its handlers ran. -/
inductive Tree (σ : Type) where
  | leaf (id : Nat) (st : LayerState) (h : Handlers σ) (trace : List Method)
  | group (stack : Bool) (st : LayerState) (ms : List (Tree σ))

/-- canopen_master/include/canopen_master/layer.h:125 `getLayerState` -/
def Tree.state {σ : Type} : Tree σ → LayerState
  | .leaf _ st _ _ => st
  | .group _ st _ => st

variable {σ : Type}

mutual
/-- canopen_master/include/canopen_master/layer.h:96-102 `Layer::shutdown` with 225 (group) or 237 (stack: reverse) -/
def Tree.shutdown : Tree σ → Env σ → Tree σ × Env σ
  | .leaf id st h tr, e =>
    if st ≠ .off then (.leaf id .off h (tr ++ [.shutdown]), callHandler id h .shutdown .shutdown e) else (.leaf id st h tr, e)
  | .group stack st ms, e =>
    if st ≠ .off then
      let r := if stack then shutdownRev ms e else shutdownList ms e
      (.group stack .off r.1, r.2)
    else (.group stack st ms, e)
/-- canopen_master/include/canopen_master/layer.h:157-160,182-192 `call(&Layer::shutdown)`: unbounded, never stops early -/
def shutdownList : List (Tree σ) → Env σ → List (Tree σ) × Env σ
  | [], e => ([], e)
  | t :: ts, e =>
    let r := t.shutdown e
    let r' := shutdownList ts r.2
    (r.1 :: r'.1, r'.2)
/-- canopen_master/include/canopen_master/layer.h:165-168,182-192 `call_rev(&Layer::shutdown)` -/
def shutdownRev : List (Tree σ) → Env σ → List (Tree σ) × Env σ
  | [], e => ([], e)
  | t :: ts, e =>
    let r' := shutdownRev ts e
    let r := t.shutdown r'.2
    (r.1 :: r'.1, r.2)
end

mutual
/-- canopen_master/include/canopen_master/layer.h:103-109 `Layer::halt` with 227 -/
def Tree.halt : Tree σ → Env σ → Tree σ × Env σ
  | .leaf id st h tr, e =>
    if st.toNat > LayerState.halt.toNat then (.leaf id .error h (tr ++ [.halt]), callHandler id h .halt .halt e)
    else (.leaf id st h tr, e)
  | .group stack st ms, e =>
    if st.toNat > LayerState.halt.toNat then
      let r := haltList ms e
      (.group stack .error r.1, r.2)
    else (.group stack st ms, e)
/-- canopen_master/include/canopen_master/layer.h:157-160,182-192 `call(&Layer::halt)` -/
def haltList : List (Tree σ) → Env σ → List (Tree σ) × Env σ
  | [], e => ([], e)
  | t :: ts, e =>
    let r := t.halt e
    let r' := haltList ts r.2
    (r.1 :: r'.1, r'.2)
end

/-- canopen_master/include/canopen_master/layer.h:165-168,182-192 `call_rev(&Layer::halt)` used by 207-213 -/
def haltRev : List (Tree σ) → Env σ → List (Tree σ) × Env σ
  | [], e => ([], e)
  | t :: ts, e =>
    let r' := haltRev ts e
    let r := t.halt r'.2
    (r.1 :: r'.1, r.2)

/-- The tail of `Layer::init` (canopen_master/include/canopen_master/layer.h:92-93): `t` is the layer in state `Init` after its
init handler, or still `Off` if the handler was skipped. -/
def finishInit (t : Tree σ) (e : Env σ) : Tree σ × Env σ :=
  if !e.status.boundedWarn then t.shutdown e
  else match t with
    | .leaf id _ h tr => (.leaf id .ready h tr, e)
    | .group s _ ms => (.group s .ready ms, e)

mutual
/-- canopen_master/include/canopen_master/layer.h:86-95 `Layer::init` with 224 -/
def Tree.init : Tree σ → Env σ → Tree σ × Env σ
  | .leaf id st h tr, e =>
    if st = .off then
      if e.status.boundedWarn then
        finishInit (.leaf id .init h (tr ++ [.init])) (callHandler id h .init .init e)
      else finishInit (.leaf id st h tr) e
    else (.leaf id st h tr, e)
  | .group stack st ms, e =>
    if st = .off then
      if e.status.boundedWarn then
        let r := initList ms e.status.boundedWarn e
        finishInit (.group stack .init r.1) r.2
      else finishInit (.group stack st ms) e
    else (.group stack st ms, e)
/-- canopen_master/include/canopen_master/layer.h:153-156,182-192 `call<Warn>(&Layer::init)`; `ok` is `okay_on_start` -/
def initList : List (Tree σ) → Bool → Env σ → List (Tree σ) × Env σ
  | [], _, e => ([], e)
  | t :: ts, ok, e =>
    let r := t.init e
    if ok && !r.2.status.boundedWarn then (r.1 :: ts, r.2)
    else
      let r' := initList ts ok r.2
      (r.1 :: r'.1, r'.2)
end

/-- The tail of `Layer::recover` (canopen_master/include/canopen_master/layer.h:116-120). -/
def finishRecover (t : Tree σ) (e : Env σ) : Tree σ × Env σ :=
  if !e.status.boundedWarn then t.halt e
  else match t with
    | .leaf id _ h tr => (.leaf id .ready h tr, e)
    | .group s _ ms => (.group s .ready ms, e)

mutual
/-- canopen_master/include/canopen_master/layer.h:110-123 `Layer::recover` with 228 -/
def Tree.recover : Tree σ → Env σ → Tree σ × Env σ
  | .leaf id st h tr, e =>
    if st = .error then
      if e.status.boundedWarn then
        finishRecover (.leaf id .recover h (tr ++ [.recover])) (callHandler id h .recover .recover e)
      else finishRecover (.leaf id st h tr) e
    else (.leaf id st h tr, e)
  | .group stack st ms, e =>
    if st = .error then
      if e.status.boundedWarn then
        let r := recoverList ms e.status.boundedWarn e
        finishRecover (.group stack .recover r.1) r.2
      else finishRecover (.group stack st ms) e
    else (.group stack st ms, e)
/-- canopen_master/include/canopen_master/layer.h:153-156,182-192 `call<Warn>(&Layer::recover)` -/
def recoverList : List (Tree σ) → Bool → Env σ → List (Tree σ) × Env σ
  | [], _, e => ([], e)
  | t :: ts, ok, e =>
    let r := t.recover e
    if ok && !r.2.status.boundedWarn then (r.1 :: ts, r.2)
    else
      let r' := recoverList ts ok r.2
      (r.1 :: r'.1, r'.2)
end

/-- The tail of `call_or_fail` and `call_or_fail_rev` (canopen_master/include/canopen_master/layer.h:202-205,209-212): members
`ms` have been called; on failure halt all members (`rev`: in reverse order) and then the group itself. -/
def failTail (rev stack : Bool) (st : LayerState) (ms : List (Tree σ)) (e : Env σ) : Tree σ × Env σ :=
  if !e.status.boundedWarn then
    let r := if rev then haltRev ms e else haltList ms e
    (Tree.group stack st r.1).halt r.2
  else (.group stack st ms, e)

mutual
/-- canopen_master/include/canopen_master/layer.h:77-79 `Layer::read` with 215-217 -/
def Tree.read : Tree σ → Env σ → Tree σ × Env σ
  | .leaf id st h tr, e =>
    if st.toNat > LayerState.off.toNat then (.leaf id st h (tr ++ [.read]), callHandler id h .read st e) else (.leaf id st h tr, e)
  | .group stack st ms, e =>
    if st.toNat > LayerState.off.toNat then
      let r := readList ms e
      failTail false stack st r.1 r.2
    else (.group stack st ms, e)
/-- canopen_master/include/canopen_master/layer.h:201,157-160,182-192 `call(&Layer::read)`: unbounded, never stops early -/
def readList : List (Tree σ) → Env σ → List (Tree σ) × Env σ
  | [], e => ([], e)
  | t :: ts, e =>
    let r := t.read e
    let r' := readList ts r.2
    (r.1 :: r'.1, r'.2)
end

mutual
/-- canopen_master/include/canopen_master/layer.h:80-82 `Layer::write` with 218-220 (group) or 236 (stack: reverse) -/
def Tree.write : Tree σ → Env σ → Tree σ × Env σ
  | .leaf id st h tr, e =>
    if st.toNat > LayerState.off.toNat then (.leaf id st h (tr ++ [.write]), callHandler id h .write st e) else (.leaf id st h tr, e)
  | .group stack st ms, e =>
    if st.toNat > LayerState.off.toNat then
      let r := if stack then writeRev ms e else writeList ms e
      failTail stack stack st r.1 r.2
    else (.group stack st ms, e)
/-- canopen_master/include/canopen_master/layer.h:201,157-160,182-192 `call(&Layer::write)` -/
def writeList : List (Tree σ) → Env σ → List (Tree σ) × Env σ
  | [], e => ([], e)
  | t :: ts, e =>
    let r := t.write e
    let r' := writeList ts r.2
    (r.1 :: r'.1, r'.2)
/-- canopen_master/include/canopen_master/layer.h:208,165-168,182-192 `call_rev(&Layer::write)` -/
def writeRev : List (Tree σ) → Env σ → List (Tree σ) × Env σ
  | [], e => ([], e)
  | t :: ts, e =>
    let r' := writeRev ts e
    let r := t.write r'.2
    (r.1 :: r'.1, r.2)
end

mutual
/-- canopen_master/include/canopen_master/layer.h:83-85 `Layer::diag` with 222 (a `LayerReport` is a `LayerStatus`; its key/value
pairs are not modelled) -/
def Tree.diag : Tree σ → Env σ → Tree σ × Env σ
  | .leaf id st h tr, e =>
    if st.toNat > LayerState.shutdown.toNat then (.leaf id st h (tr ++ [.diag]), callHandler id h .diag st e)
    else (.leaf id st h tr, e)
  | .group stack st ms, e =>
    if st.toNat > LayerState.shutdown.toNat then
      let r := diagList ms e
      (.group stack st r.1, r.2)
    else (.group stack st ms, e)
/-- canopen_master/include/canopen_master/layer.h:222,157-160,182-192 `call(&Layer::diag)` -/
def diagList : List (Tree σ) → Env σ → List (Tree σ) × Env σ
  | [], e => ([], e)
  | t :: ts, e =>
    let r := t.diag e
    let r' := diagList ts r.2
    (r.1 :: r'.1, r'.2)
end

/-- public methods, canopen_master/include/canopen_master/layer.h:77-123 -/
def Tree.call (t : Tree σ) (m : Method) (e : Env σ) : Tree σ × Env σ :=
  match m with
  | .read => t.read e
  | .write => t.write e
  | .diag => t.diag e
  | .init => t.init e
  | .shutdown => t.shutdown e
  | .halt => t.halt e
  | .recover => t.recover e

/-- a history of calls on one tree, each with its own status object (e.g. canopen_chain_node/src/ros_chain.cpp:134-247) -/
def Tree.run (t : Tree σ) (e : Env σ) : List (Method × Status) → Tree σ × Env σ
  | [] => (t, e)
  | (m, s) :: rest =>
    let r := t.call m { e with status := s }
    r.1.run r.2 rest

end Verif.Lay
