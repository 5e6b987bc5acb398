import Verif.Spec.ChainBus
import Verif.Lemmas.Setup

/-!
# C106 Bus, driver and master of a chain
-/

set_option linter.unusedVariables false

namespace Verif.Props
open Verif Verif.Spec Verif.Cfg Verif.Bus

private theorem text_some {root : Tree} {priv : List Text} {n : String} {t : Text} :
    getText root (priv ++ ["bus".toList]) n = some t ↔ ParamIs root (busPath priv n) (.str t) := by
  unfold getText ParamIs busPath
  rw [List.append_assoc]
  show (match root.at (priv ++ ["bus".toList, n.toList]) with | some (.str t) => some t | _ => none) = some t ↔ _
  cases h : root.at (priv ++ ["bus".toList, n.toList]) with
  | none => simp
  | some v => cases v <;> simp

private theorem text_none {root : Tree} {priv : List Text} {n : String} :
    getText root (priv ++ ["bus".toList]) n = none ↔ ∀ t, ¬ ParamIs root (busPath priv n) (.str t) := by
  constructor
  · intro h t ht
    rw [text_some.2 ht] at h
    cases h
  · intro h
    cases h' : getText root (priv ++ ["bus".toList]) n with
    | none => rfl
    | some t => exact absurd (text_some.1 h') (h t)

private theorem text_getD {root : Tree} {priv : List Text} {n : String} {dflt t : Text} :
    (getText root (priv ++ ["bus".toList]) n).getD dflt = t ↔ TextParam root (busPath priv n) dflt t := by
  unfold TextParam
  cases h : getText root (priv ++ ["bus".toList]) n with
  | none =>
    have hn := text_none.1 h
    simp only [Option.getD_none]
    exact ⟨fun e => .inr ⟨hn, e.symm⟩, fun o => o.elim (fun p => absurd p (hn t)) (fun p => p.2.symm)⟩
  | some u =>
    have hu := text_some.1 h
    simp only [Option.getD_some]
    constructor
    · rintro rfl; exact .inl hu
    · rintro (p | ⟨p, -⟩)
      · have := text_some.2 p
        rw [h] at this
        exact Option.some.inj this
      · exact absurd hu (p u)

private theorem bool_getD {root : Tree} {priv : List Text} :
    (getBool root (priv ++ ["bus".toList]) "loopback").getD false = true ↔ ParamIs root (busPath priv "loopback") (.bool true) := by
  unfold getBool ParamIs busPath
  rw [List.append_assoc]
  show ((match root.at (priv ++ ["bus".toList, "loopback".toList]) with | some (.bool b) => some b | _ => none) : Option Bool).getD false = true ↔ _
  cases h : root.at (priv ++ ["bus".toList, "loopback".toList]) with
  | none => simp
  | some v => cases v <;> simp

/-- C106.  For every content of the parameter server and every set of plug-ins: the bus is accepted exactly if there is a text `device`, the
driver named by `driver_plugin` can be made, there is no text `master_type` and the allocator named by `master_allocator` gives a master
for that device.  Then the CAN layer gets that device, loopback exactly if the parameter is `true`, and that driver; nothing is logged as error. -/
theorem C106_accepted_partial {δ : Type} (w : World δ) (root : Tree) (priv : List Text) (b : Bus.Bus δ) (l : List Text) :
    setupBus w root priv = (.ok b, l) ↔
      ParamIs root (busPath priv "device") (.str b.device) ∧
      (∃ p, TextParam root (busPath priv "driver_plugin") "can::SocketCANInterface".toList p ∧ w.drivers p = .made b.driver) ∧
      (∀ t, ¬ ParamIs root (busPath priv "master_type") (.str t)) ∧
      (∃ p, TextParam root (busPath priv "master_allocator") "canopen::SimpleMaster::Allocator".toList p ∧
        w.masters p b.device = .master b.master) ∧
      (b.loopback = true ↔ ParamIs root (busPath priv "loopback") (.bool true)) ∧ b.settings = root ∧ l = [] := by
  unfold setupBus
  dsimp only
  constructor
  · intro h
    cases hd : getText root (priv ++ ["bus".toList]) "device" with
    | none => rw [hd] at h; cases h
    | some dev =>
      rw [hd] at h
      dsimp only at h
      cases hv : w.drivers ((getText root (priv ++ ["bus".toList]) "driver_plugin").getD "can::SocketCANInterface".toList) with
      | failed t => rw [hv] at h; cases h
      | other => rw [hv] at h; cases h
      | made d =>
        rw [hv] at h
        dsimp only at h
        cases ht : getText root (priv ++ ["bus".toList]) "master_type" with
        | some t => rw [ht] at h; cases h
        | none =>
          rw [ht] at h
          dsimp only at h
          cases hm : w.masters ((getText root (priv ++ ["bus".toList]) "master_allocator").getD "canopen::SimpleMaster::Allocator".toList) dev with
          | failed t => rw [hm] at h; cases h
          | other => rw [hm] at h; cases h
          | null => rw [hm] at h; cases h
          | master k =>
            rw [hm] at h
            cases h
            exact ⟨text_some.1 hd, ⟨_, text_getD.1 rfl, hv⟩, text_none.1 ht, ⟨_, text_getD.1 rfl, hm⟩, bool_getD, rfl, rfl⟩
  · rintro ⟨h1, ⟨p, hp, hv⟩, ht, ⟨q, hq, hm⟩, hl, hs, rfl⟩
    rw [text_some.2 h1]
    dsimp only
    rw [text_getD.2 hp, hv]
    dsimp only
    rw [text_none.2 ht]
    dsimp only
    rw [text_getD.2 hq, hm]
    dsimp only
    have hlb : (getBool root (priv ++ ["bus".toList]) "loopback").getD false = b.loopback := by
      have := hl.trans bool_getD.symm
      cases hb : b.loopback <;> cases hg : (getBool root (priv ++ ["bus".toList]) "loopback").getD false <;> simp_all
    rw [hlb]
    cases b
    dsimp only at hs ⊢
    rw [hs]
    rfl

/-- C106.  A bus that is refused is reported by exactly one line; the set-up is left by an exception only if a plug-in throws something
that is no plug-in error (drivers) or no `std::exception` (masters). -/
theorem C106_refused {δ : Type} (w : World δ) (root : Tree) (priv : List Text) :
    ((setupBus w root priv).1 = .refused → ∃ t, (setupBus w root priv).2 = [t]) ∧
    ((setupBus w root priv).1 = .escapes → (∃ p, w.drivers p = .other) ∨ ∃ p d, w.masters p d = .other) ∧
    (setupBus w root priv).1 ≠ .ub ∧
    (getText root (priv ++ ["bus".toList]) "device" = none → setupBus w root priv = (.refused, ["Device not set".toList])) := by
  unfold setupBus
  dsimp only
  cases hd : getText root (priv ++ ["bus".toList]) "device" with
  | none => simp
  | some dev =>
    dsimp only
    cases hv : w.drivers ((getText root (priv ++ ["bus".toList]) "driver_plugin").getD "can::SocketCANInterface".toList) with
    | failed t => simp
    | other => simp; exact .inl ⟨_, hv⟩
    | made d =>
      dsimp only
      cases ht : getText root (priv ++ ["bus".toList]) "master_type" with
      | some t => simp
      | none =>
        dsimp only
        cases hm : w.masters ((getText root (priv ++ ["bus".toList]) "master_allocator").getD "canopen::SimpleMaster::Allocator".toList) dev with
        | failed t => simp
        | other => simp; exact .inr ⟨_, _, hm⟩
        | null => simp
        | master k => simp

/-- sample plug-ins and parameters: the driver of socketcan_interface, the masters of canopen_master -/
def busWorld : World Nat := ⟨fun n => if n = "can::SocketCANInterface".toList then .made 7 else .failed n, shippedMasters id⟩
def busParams (fs : List (String × Tree)) : Tree :=
  .struct [("node".toList, .struct [("bus".toList, .struct (fs.map fun p => (p.1.toList, p.2)))])]

example : ∃ b, setupBus busWorld (busParams [("device", .str "can0".toList), ("loopback", .bool true),
    ("master_allocator", .str "canopen::ExternalMaster::Allocator".toList)]) ["node".toList] = (.ok b, []) ∧ b.loopback = true ∧ b.device = "can0".toList :=
  ⟨_, rfl, rfl, rfl⟩
example : setupBus busWorld (busParams [("device", .str "can0".toList), ("master_type", .str "x".toList)]) ["node".toList] =
    (.refused, ["please migrate to master allocators".toList]) := rfl
example : setupBus busWorld (busParams [("device", .str "can0".toList), ("driver_plugin", .str "x".toList)]) ["node".toList] = (.refused, ["x".toList]) := rfl

/-- C106.  With the masters of canopen_master, a device and nothing else: the SocketCAN driver, no loopback and the master that produces SYNC
itself; with the name of the other allocator, the master that waits for SYNC; any other name is refused. -/
theorem C106_shipped {δ : Type} (drivers : Text → Loaded δ) (info : Text → Text) (d : δ) (hd : drivers "can::SocketCANInterface".toList = .made d)
    (root : Tree) (priv : List Text) (device : Text) (h1 : ParamIs root (busPath priv "device") (.str device))
    (h2 : ∀ t, ¬ ParamIs root (busPath priv "driver_plugin") (.str t)) (h3 : ∀ t, ¬ ParamIs root (busPath priv "master_type") (.str t)) :
    ((∀ t, ¬ ParamIs root (busPath priv "master_allocator") (.str t)) → ∃ lo,
      setupBus ⟨drivers, shippedMasters info⟩ root priv = (.ok ⟨device, lo, d, .simple, root⟩, []) ∧
      (lo = true ↔ ParamIs root (busPath priv "loopback") (.bool true))) ∧
    (∀ a, ParamIs root (busPath priv "master_allocator") (.str a) →
      (∃ b, setupBus ⟨drivers, shippedMasters info⟩ root priv = (.ok b, []) ∧
        (b.master = .simple ∧ a = "canopen::SimpleMaster::Allocator".toList ∨ b.master = .external ∧ a = "canopen::ExternalMaster::Allocator".toList)) ∨
      (a ≠ "canopen::SimpleMaster::Allocator".toList ∧ a ≠ "canopen::ExternalMaster::Allocator".toList ∧
        setupBus ⟨drivers, shippedMasters info⟩ root priv = (.refused, [info a]))) := by
  refine ⟨fun ha => ⟨_, (C106_accepted_partial _ _ _ _ _).2 ⟨h1, ⟨_, .inr ⟨h2, rfl⟩, hd⟩, h3, ⟨_, .inr ⟨ha, rfl⟩, rfl⟩, bool_getD, rfl, rfl⟩, bool_getD⟩, ?_⟩
  intro a ha
  by_cases e1 : a = "canopen::SimpleMaster::Allocator".toList
  · left
    refine ⟨⟨device, _, d, .simple, root⟩, (C106_accepted_partial _ _ _ _ _).2 ⟨h1, ⟨_, .inr ⟨h2, rfl⟩, hd⟩, h3, ⟨a, .inl ha, ?_⟩, bool_getD, rfl, rfl⟩, .inl ⟨rfl, e1⟩⟩
    subst e1; rfl
  · by_cases e2 : a = "canopen::ExternalMaster::Allocator".toList
    · left
      refine ⟨⟨device, _, d, .external, root⟩, (C106_accepted_partial _ _ _ _ _).2 ⟨h1, ⟨_, .inr ⟨h2, rfl⟩, hd⟩, h3, ⟨a, .inl ha, ?_⟩, bool_getD, rfl, rfl⟩, .inr ⟨rfl, e2⟩⟩
      subst e2; rfl
    · right
      refine ⟨e1, e2, ?_⟩
      unfold setupBus
      dsimp only
      rw [text_some.2 h1]
      dsimp only
      rw [text_none.2 h2, Option.getD_none, hd]
      dsimp only
      rw [text_none.2 h3]
      dsimp only
      rw [text_some.2 ha, Option.getD_some]
      simp only [shippedMasters, e1, e2, if_false]

example : setupBus busWorld (busParams [("device", .str "can1".toList)]) ["node".toList] =
    (.ok ⟨"can1".toList, false, 7, .simple, busParams [("device", .str "can1".toList)]⟩, []) := rfl
example : setupBus busWorld (busParams [("device", .str "can1".toList), ("master_allocator", .str "m".toList)]) ["node".toList] =
    (.refused, ["m".toList]) := rfl

/-- C106.  A chain is set up only on an accepted bus; its first layer is the CAN layer, its SYNC layer is made by the accepted master. -/
theorem C106_chain {δ : Type} (w : World δ) (nodes : Setup.World) (root : Tree) (priv : List Text) (junk : Vector Byte 8) (c : Setup.Config)
    (b : Bus.Bus δ) (ch : Setup.Chain) (h : setupChain w nodes root priv junk c = .ok (b, ch)) :
    setupBus w root priv = (.ok b, []) ∧ ch.members.head? = some .can ∧
    (∀ p, ch.sync = some p → b.master.getSync junk p = .sync) ∧ (ch.sync.isSome ↔ Setup.Member.sync ∈ ch.members) := by
  unfold setupChain at h
  rw [Setup.bind_ok] at h
  obtain ⟨b', hb, h⟩ := h
  rw [Setup.bind_ok] at h
  obtain ⟨ch', hch, h⟩ := h
  cases h
  have hbus : setupBus w root priv = (.ok b, []) := by
    have e : setupBus w root priv = (.ok b, (setupBus w root priv).2) := by rw [← hb]
    have := ((C106_accepted_partial w root priv b _).1 e).2.2.2.2.2.2
    rw [e, this]
  refine ⟨hbus, ?_⟩
  unfold Setup.setup at hch
  simp only [Bool.not_true, Bool.false_eq_true, if_false, Setup.bind_ok, Setup.Res.ok.injEq] at hch
  obtain ⟨s, hs, hb', hhb, n, hn, rfl⟩ := hch
  refine ⟨by simp, ?_, ?_⟩
  · intro p hp
    dsimp only at hp
    unfold Setup.setupSync at hs
    dsimp only at hs
    repeat' (split at hs)
    all_goals first
      | (cases hs; done)
      | (cases hs; cases hp; assumption)
      | (cases hs; cases hp)
  · cases s.sync <;> simp

/-- C106, not every parameter is honoured: values of another type than expected are ignored silently. -/
theorem C106_types_false :
    setupBus busWorld (busParams [("device", .str "can0".toList), ("loopback", .int 1), ("driver_plugin", .int 5), ("master_type", .int 3),
      ("master_allocator", .bool true)]) ["node".toList] =
    (.ok ⟨"can0".toList, false, 7, .simple, busParams [("device", .str "can0".toList), ("loopback", .int 1), ("driver_plugin", .int 5), ("master_type", .int 3),
      ("master_allocator", .bool true)]⟩, []) := rfl

/-- C106, the settings of the bus are not used: an error class deselected among the bus parameters stays selected in the masks of the driver, one
deselected at the root of the parameter server does not. -/
theorem C106_settings_false :
    let off : Tree := .struct [("CAN_ERR_LOSTARB".toList, .bool false)]
    let r1 := busParams [("device", .str "can0".toList), ("error_mask", off)]
    let r2 : Tree := .struct [("error_mask".toList, off), ("node".toList, .struct [("bus".toList, .struct [("device".toList, .str "can0".toList)])])]
    ∃ b1 b2, setupBus busWorld r1 ["node".toList] = (.ok b1, []) ∧ setupBus busWorld r2 ["node".toList] = (.ok b2, []) ∧
      (match Drv.masks (xmlRepr (fun _ => []) b1.settings) with | .ok m => decide (m.1 &&& Drv.ErrClass.lostarb.bit ≠ 0#32) | _ => false) = true ∧
      (match Drv.masks (xmlRepr (fun _ => []) b2.settings) with | .ok m => decide (m.1 &&& Drv.ErrClass.lostarb.bit ≠ 0#32) | _ => true) = false :=
  ⟨_, _, rfl, rfl, by decide +kernel, by decide +kernel⟩

end Verif.Props
