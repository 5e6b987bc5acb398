import Verif.Lemmas.Settings

/-!
# C93: settings
-/

namespace Verif.Props
open Verif Verif.Cfg Verif.Drv Verif.Spec

private def show0 : List (Text × Tree) → Text := fun _ => "?".toList
private def tr : Tree :=
  .struct [("error_mask".toList, .struct [("CAN_ERR_ACK".toList, .bool false)]), ("state_switch_timeout".toList, .int 12),
           ("x".toList, .int (-5))]

/-- A name written as a path finds exactly the value at that path of the tree of parameters. -/
theorem C93_path (ps : List (Text × Tree) → Text) (v : Tree) (p : List Text) (hp : p ≠ []) (hs : ∀ s ∈ p, '/' ∉ s) (r : Text) :
    xmlRepr ps v (joinPath p) = some r ↔ ∃ w, ValueAt v p w ∧ r = w.print ps := by
  unfold xmlRepr
  simp only [Option.map_eq_some_iff]
  have hl := joinPath_length p
  constructor
  · rintro ⟨w, hw, rfl⟩; exact ⟨w, (walk_join p _ v w hp hs hl).1 hw, rfl⟩
  · rintro ⟨w, hw, rfl⟩; exact ⟨w, (walk_join p _ v w hp hs hl).2 hw, rfl⟩

example : ValueAt tr ["error_mask".toList, "CAN_ERR_ACK".toList] (.bool false) :=
  .step (w := .struct [("CAN_ERR_ACK".toList, .bool false)]) rfl (.last rfl)
example : xmlRepr show0 tr "error_mask/CAN_ERR_ACK".toList = some "0".toList := by decide

/-- Settings made for a name relative to a node handle are those below the handle's namespace. -/
theorem C93_create_partial (ps : List (Text × Tree) → Text) (root : Tree) (ns n p : List Text) (hp : p ≠ []) (hs : ∀ s ∈ p, '/' ∉ s)
    (r : Text) : xmlRepr ps (create root ns (.relative n)) (joinPath p) = some r ↔
      ∃ w, ValueAt root (ns ++ n ++ p) w ∧ r = w.print ps := by
  rw [C93_path ps _ p hp hs]
  have : ∀ w, ValueAt (create root ns (.relative n)) p w ↔ ValueAt root (ns ++ n ++ p) w := by
    intro w
    unfold create Name.resolve
    cases h : root.at (ns ++ n) with
    | some v => exact at_valueAt w (ns ++ n) root v p h hp
    | none =>
      constructor
      · intro h'; cases h'
      · intro h'; exact absurd h' (at_none w (ns ++ n) root p h)
  simp only [this]

example : xmlRepr show0 (create (.struct [("node".toList, .struct [("bus".toList, tr)])]) ["node".toList] (.relative ["bus".toList]))
    "state_switch_timeout".toList = some "12".toList := by decide

/-- It is not true that settings made from a node handle are its parameters: with the default name they are taken from
the root of the parameter server, whatever the handle's namespace is. -/
theorem C93_namespace_false :
    (∀ root ns, create root ns defaultName = root) ∧
    xmlRepr show0 (create (.struct [("node".toList, tr)]) ["node".toList] defaultName) "state_switch_timeout".toList = none := by
  exact ⟨fun _ _ => rfl, by decide⟩

/-- What was set last for a name is what is found under it; nothing else is. -/
theorem C93_map (h : List (Text × Val)) (n : Text) :
    SMap.repr (afterSets h) n = (lastSet n h).map Val.print := by
  unfold afterSets; rw [repr_history]; cases lastSet n h <;> rfl

example : SMap.repr (afterSets [("a".toList, Val.unsigned 1), ("b".toList, .bool true), ("a".toList, .unsigned 20)]) "a".toList = some "20".toList := by decide

/-- A missing setting has its default and leaves a variable alone; a present one has the value its text means, or the
access fails. -/
theorem C93_optional {α : Type} (cast : Text → Option α) (st : Settings) (n : Text) (dflt : α) :
    (st n = none → getOptional cast st n dflt = .ok dflt ∧ getInto cast st n dflt = .ok (dflt, false)) ∧
    (∀ r v, st n = some r → cast r = some v → getOptional cast st n dflt = .ok v ∧ getInto cast st n dflt = .ok (v, true)) ∧
    (∀ r, st n = some r → cast r = none →
      getOptional cast st n dflt = .throws .badLexicalCast ∧ getInto cast st n dflt = .throws .badLexicalCast) := by
  refine ⟨?_, ?_, ?_⟩
  · intro h; simp [getOptional, getInto, h]
  · intro r v h hc; simp [getOptional, getInto, h, hc]
  · intro r h hc; simp [getOptional, getInto, h, hc]

example : getOptional lexicalUnsigned (xmlRepr show0 tr) "state_switch_timeout".toList 5 = .ok 12 ∧
    getOptional lexicalUnsigned (xmlRepr show0 tr) "switching_state".toList 5 = .ok 5 ∧
    getOptional lexicalBool (xmlRepr show0 tr) "state_switch_timeout".toList true = .throws .badLexicalCast := by
  decide +kernel

/-- Numbers and switches that were set are read back unchanged. -/
theorem C93_roundtrip (h : List (Text × Val)) (n : Text) :
    (∀ k d, lastSet n h = some (.unsigned k) → k < 2 ^ 32 →
      getOptional lexicalUnsigned (SMap.repr (afterSets h)) n d = .ok k) ∧
    (∀ b d, lastSet n h = some (.bool b) →
      getOptional lexicalBool (SMap.repr (afterSets h)) n d = .ok b) ∧
    (∀ t d, lastSet n h = some (.str t) →
      getOptional some (SMap.repr (afterSets h)) n d = .ok t) := by
  refine ⟨?_, ?_, ?_⟩ <;> intro x d hl
  · intro hx
    simp only [getOptional, C93_map, hl, Option.map_some, Val.print, lexicalUnsigned_toString x hx]
  · simp only [getOptional, C93_map, hl, Option.map_some, Val.print, print_bool]
  · simp only [getOptional, C93_map, hl, Option.map_some, Val.print]

example : lastSet "t".toList [("t".toList, .bool true), ("t".toList, .unsigned 7)] = some (.unsigned 7) := by decide

/-- Integers and booleans of the parameter server arrive as what they are. -/
theorem C93_typed (ps : List (Text × Tree) → Text) :
    (∀ k : Nat, k < 2 ^ 32 → lexicalUnsigned ((Tree.int k).print ps) = some k) ∧
    (∀ b, lexicalBool ((Tree.bool b).print ps) = some b) ∧ (∀ b, lexicalUnsigned ((Tree.bool b).print ps) = some (if b then 1 else 0)) := by
  refine ⟨fun k h => lexicalUnsigned_toString k h, fun b => print_bool b, ?_⟩
  intro b; cases b <;> rfl

example : lexicalUnsigned ((Tree.int 4000000000).print show0) = some 4000000000 := by decide +kernel

/-- A text is accepted as an unsigned number exactly if it is a decimal number of 32 bits; a minus sign is accepted as
well and negates modulo 2^32. -/
theorem C93_unsigned (s : Text) (n : Nat) :
    lexicalUnsigned s = some n ↔ DecimalText s n ∨ ∃ m, MinusText s m ∧ n = (2 ^ 32 - m) % 2 ^ 32 := lexicalUnsigned_iff s n

example : DecimalText "+0042".toList 42 := ⟨true, 2, by decide, by decide⟩
example : lexicalUnsigned "4294967296".toList = none ∧ lexicalUnsigned "0x10".toList = none ∧ lexicalUnsigned "".toList = none := by
  decide +kernel

/-- It is not true that negative values are refused where an unsigned number is expected: a time limit of -5 s becomes
more than 136 years. -/
theorem C93_negative_false :
    motorSettings (xmlRepr show0 (.struct [("state_switch_timeout".toList, .int (-5))])) = .ok ⟨5, true, 4294967291⟩ := by
  decide +kernel

/-- A text is accepted as a switch exactly if it is `0` or `1`, up to zeros and sign. -/
theorem C93_bool (s : Text) (b : Bool) : lexicalBool s = some b ↔ BoolText s b := lexicalBool_iff s b

example : BoolText "0".toList false ∧ lexicalBool "true".toList = none :=
  ⟨⟨[], 0, by decide, Or.inl rfl⟩, by decide⟩

/-- A motor is constructed exactly if its settings mean something, and with these: the state in which modes are switched
(operation enabled unless given), mode monitoring (on unless given) and time limit (5 s unless given). -/
theorem C93_motor (st : Settings) (m : MotorSettings) :
    motorSettings st = .ok m ↔
      Setting (fun s n => DecimalText s n ∨ ∃ k, MinusText s k ∧ n = (2 ^ 32 - k) % 2 ^ 32) st "switching_state".toList 5 m.switchingState ∧
      Setting BoolText st "monitor_mode".toList true m.monitorMode ∧
      Setting (fun s n => DecimalText s n ∨ ∃ k, MinusText s k ∧ n = (2 ^ 32 - k) % 2 ^ 32) st "state_switch_timeout".toList 5 m.timeout := by
  have key : ∀ {α : Type} (cast : Text → Option α) (means : Text → α → Prop) (hc : ∀ s v, cast s = some v ↔ means s v)
      (n : Text) (d v : α), getOptional cast st n d = .ok v ↔ Setting means st n d v := by
    intro α cast means hc n d v
    unfold getOptional Setting
    cases st n with
    | none => simp [eq_comm]
    | some r =>
      cases h : cast r with
      | none =>
        simp only [reduceCtorEq, false_and, false_or, Option.some.injEq, exists_eq_left', ← hc, h]
      | some w =>
        simp only [reduceCtorEq, false_and, false_or, Option.some.injEq, exists_eq_left', ← hc, h, Outcome.ok.injEq]
  rw [← key lexicalUnsigned _ lexicalUnsigned_iff, ← key lexicalBool _ lexicalBool_iff, ← key lexicalUnsigned _ lexicalUnsigned_iff]
  obtain ⟨a, b, c⟩ := m
  unfold motorSettings
  repeat' split
  all_goals simp_all

example : motorSettings noSettings = .ok ⟨5, true, 5⟩ := by decide
example : motorSettings (xmlRepr show0 tr) = .ok ⟨5, true, 12⟩ := by decide +kernel

end Verif.Props
