import Verif.Lemmas.Setup
import Verif.Props.Storage

/-! # C88: a chain is set up as its parameters say -/

set_option linter.unusedSimpArgs false

namespace Verif.Props
open Verif Verif.Setup Verif.Merge Verif.Spec Verif.Spec.Setup

/-- no payload -/
def noPayload : Vector Byte 8 := Vector.replicate 8 0#8

/-- **C88** SYNC and update rate, for parameters in the range of their C++ types (interval below 65536 ms, no negative overflow): the set-up
succeeds exactly if the interval is not negative, there is an interval or an update period other than 0, and the counter overflow is 0 (no counter) or
2 … 240.  Then cycles run at the given period, and SYNC messages are identifier 0x80 with the given period and overflow, none without an
interval.  Missing: other values, see `C88_sync_false`. -/
theorem C88_sync_partial (junk : Vector Byte 8) (interval update overflow : Option Int) (hi : interval.getD 0 < 65536) (ho : 0 ≤ overflow.getD 0)
    (s : SyncSetup) :
    setupSync (simpleMaster junk) interval update overflow = .ok s ↔
      (interval.getD 0 = 0 ∧ update.getD 0 ≠ 0 ∧ s.updateMs = update.getD 0 ∧ s.sync = none) ∨
      (0 < interval.getD 0 ∧ (overflow.getD 0 = 0 ∨ (2 ≤ overflow.getD 0 ∧ overflow.getD 0 ≤ 240)) ∧ s.updateMs = interval.getD 0 ∧
        ∃ p, s.sync = some p ∧ p.header = Header.msg 0x80 ∧ (p.period.toNat : Int) = interval.getD 0 ∧ (p.overflow.toNat : Int) = overflow.getD 0) := by
  unfold setupSync
  generalize interval.getD 0 = i at *
  generalize overflow.getD 0 = o at *
  generalize update.getD 0 = u
  obtain ⟨us, sy⟩ := s
  dsimp only
  by_cases h1 : i < 0
  · rw [if_pos h1]
    constructor
    · intro h
      cases h
    · rintro (⟨h, _⟩ | ⟨h, _⟩) <;> omega
  rw [if_neg h1]
  by_cases h2 : i = 0
  · subst h2
    simp only [if_true]
    by_cases h3 : u = 0
    · simp [h3]
    · simp [h3, eq_comm]
  · simp only [if_neg h2]
    by_cases h3 : o = 1 ∨ o > 240
    · rw [if_pos h3]
      constructor
      · intro h
        cases h
      · rintro (⟨h, _⟩ | ⟨_, h, _⟩) <;> omega
    · rw [if_neg h3]
      have hp : ((BitVec.ofInt 16 i).toNat : Int) = i := by
        rw [BitVec.toNat_ofInt]
        omega
      have hv : ((BitVec.ofInt 8 o).toNat : Int) = o := by
        rw [BitVec.toNat_ofInt]
        omega
      have hc : ¬ (BitVec.ofInt 8 o = 1 ∨ (BitVec.ofInt 8 o).toNat > 240) := by
        rintro (h | h)
        · rw [h] at hv
          simp at hv
          omega
        · omega
      have hm : simpleMaster junk { header := Header.msg 0x80, period := BitVec.ofInt 16 i, overflow := BitVec.ofInt 8 o } = .sync := by
        unfold simpleMaster Sync.Simple.create
        dsimp only
        rw [if_neg hc]
        split <;> rfl
      rw [hm]
      simp only [Res.ok.injEq, SyncSetup.mk.injEq]
      constructor
      · rintro ⟨rfl, rfl⟩
        exact Or.inr ⟨by omega, by omega, rfl, _, rfl, rfl, hp, hv⟩
      · rintro (⟨h, _⟩ | ⟨_, _, hu, p, rfl, q1, q2, q3⟩)
        · omega
        · refine ⟨hu.symm, ?_⟩
          obtain ⟨a, b, c⟩ := p
          dsimp only at q1 q2 q3
          have e1 : BitVec.ofInt 16 i = b := BitVec.eq_of_toNat_eq (by omega)
          have e2 : BitVec.ofInt 8 o = c := BitVec.eq_of_toNat_eq (by omega)
          rw [e1, e2, q1]

example : (some 10 : Option Int).getD 0 < 65536 ∧
    setupSync (simpleMaster noPayload) (some 10) none (some 20) =
      .ok ⟨10, some { header := Header.msg 0x80, period := 10#16, overflow := 20#8 }⟩ ∧
    setupSync (simpleMaster noPayload) none (some 50) none = .ok ⟨50, none⟩ := ⟨by decide, rfl, rfl⟩

/-- **C88 fails** outside: an interval of 65536 ms gives SYNC messages with period 0; an overflow of −16 is taken as 240; an overflow of −1 throws; a
negative update period is accepted. -/
theorem C88_sync_false :
    setupSync (simpleMaster noPayload) (some 65536) none none =
      .ok ⟨65536, some { header := Header.msg 0x80, period := 0#16, overflow := 0#8 }⟩ ∧
    setupSync (simpleMaster noPayload) (some 10) none (some (-16)) =
      .ok ⟨10, some { header := Header.msg 0x80, period := 10#16, overflow := 240#8 }⟩ ∧
    setupSync (simpleMaster noPayload) (some 10) none (some (-1)) = .escapes ∧
    setupSync (simpleMaster noPayload) none (some (-5)) none = .ok ⟨-5, none⟩ := ⟨rfl, rfl, rfl, rfl⟩

/-- **C88** Heartbeat, for rates that are numbers: without both parameters none is sent and the set-up goes on; otherwise it goes on exactly if the rate is
positive and the text denotes a valid frame, and this frame is sent at this rate.  Missing: NaN, see `C88_heartbeat_false`. -/
theorem C88_heartbeat_partial (junk : Vector Byte 8) (msg : Option Text) (rate : Option M402.Dbl) (hr : rate ≠ some .nan)
    (h : Option (Frame × M402.Dbl)) :
    setupHeartbeat junk msg rate = .ok h ↔
      (msg = none ∧ rate = none ∧ h = none) ∨
      ∃ r, rate = some r ∧ (r = .posInf ∨ ∃ q, r = .fin q ∧ 0 < q) ∧ (Txt.toframe junk (msg.getD [])).isValid = true ∧
        h = some (Txt.toframe junk (msg.getD []), r) := by
  unfold setupHeartbeat
  cases rate with
  | none =>
    cases msg with
    | none =>
      simp only [Option.isNone_none, and_self, if_true, Res.ok.injEq, true_and, reduceCtorEq, false_and, exists_false, or_false]
      exact eq_comm
    | some m =>
      have : notPositive ((none : Option M402.Dbl).getD (.fin 0)) = true := by decide
      simp only [Option.isNone_some, Bool.false_eq_true, false_and, if_false, this, if_true, reduceCtorEq, exists_false, or_false]
  | some r =>
    simp only [Option.isNone_some, Bool.false_eq_true, and_false, if_false, Option.getD_some, reduceCtorEq, false_and, false_or, Option.some.injEq,
      exists_eq_left']
    by_cases hp : notPositive r = true
    · rw [if_pos hp]
      constructor
      · intro h
        cases h
      · rintro ⟨h1, _⟩
        rcases h1 with rfl | ⟨q, rfl, hq⟩
        · simp [notPositive] at hp
        · simp only [notPositive, decide_eq_true_eq] at hp
          exact absurd hq (Rat.not_lt.2 hp)
    · rw [if_neg hp]
      have hpos : r = .posInf ∨ ∃ q, r = .fin q ∧ 0 < q := by
        cases r with
        | nan => exact absurd rfl hr
        | posInf => exact Or.inl rfl
        | negInf => simp [notPositive] at hp
        | fin q => exact Or.inr ⟨q, rfl, by simpa [notPositive, Rat.not_le] using hp⟩
      by_cases hv : (Txt.toframe junk (msg.getD [])).isValid = true
      · rw [if_pos hv]
        simp only [Res.ok.injEq]
        exact ⟨fun e => ⟨hpos, hv, e.symm⟩, fun e => e.2.2.symm⟩
      · rw [if_neg hv]
        constructor
        · intro h
          cases h
        · rintro ⟨_, h, _⟩
          exact absurd h hv

example : (some (M402.Dbl.fin 100) ≠ some .nan) ∧
    setupHeartbeat noPayload (some "77f#05".toList) (some (.fin 100)) =
      .ok (some ({ Header.msg 0x77f with data := Vector.replicate 8 0#8 |>.set 0 5#8, dlc := 1 }, .fin 100)) := by
  refine ⟨by simp, rfl⟩

/-- **C88 fails** for a rate that is not a number: the heartbeat is started. -/
theorem C88_heartbeat_false : ∃ f, setupHeartbeat noPayload (some "77f#05".toList) (some .nan) = .ok (some (f, .nan)) := ⟨_, rfl⟩

/-- **C88** A `!` in the name of a listed object marks it; what follows is ignored, the rest is the object. -/
theorem C88_object_name (t r : Text) (h : '!' ∉ t) : parseObjectName t = (t, false) ∧ parseObjectName (t ++ '!' :: r) = (t, true) := by
  refine ⟨by unfold parseObjectName; rw [if_neg h], ?_⟩
  unfold parseObjectName
  rw [if_pos (by simp)]
  congr 1
  induction t with
  | nil => rfl
  | cons c t ih =>
    simp only [List.mem_cons, not_or] at h
    have : c ≠ '!' := fun e => h.1 e.symm
    simp only [List.cons_append, List.takeWhile_cons, ne_eq, this, not_false_eq_true, decide_true, if_true, List.cons.injEq, true_and]
    exact ih h.2

example : '!' ∉ "6041sub1".toList ∧ parseObjectName "6041sub1!".toList = ("6041sub1".toList, true) := by decide +kernel

/-- **C88** A node is accepted exactly if there is a node that follows its parameters, and it is that node: its number is the parameter "id" taken
as a byte, its name and description are those of the merged parameters, its diagnostics and publishers are exactly those listed. -/
theorem C88_node (w : World) (params defaults : XVal) (name : Nat) (n : NodeSetup) :
    setupNode w params name defaults = .ok n ↔ Follows w defaults (name, params) n := by
  unfold Follows Merged
  unfold setupNode
  cases hi : idOf w params with
  | none =>
    constructor
    · intro h
      cases h
    · rintro ⟨m, _, ⟨x, i, h1, h2, _⟩, _⟩
      have := (idOf_some w params i).2 ⟨x, h1, h2⟩
      rw [hi] at this
      cases this
  | some i =>
    obtain ⟨x, hx1, hx2⟩ := (idOf_some w params i).1 hi
    cases hm : merge params defaults with
    | none =>
      constructor
      · intro h
        cases h
      · rintro ⟨m, h, _⟩
        cases h
    | some v =>
      obtain ⟨m, rfl⟩ := merge_struct _ _ _ hm
      simp only [bind_ok, overlay_ok, overlays_withName]
      constructor
      · rintro ⟨ov, hov, h⟩
        cases hs : stringOf w (withName m (.leaf name)) "eds_file" with
        | none =>
          simp [hs] at h
        | some eds =>
          simp only [hs] at h
          have hpath : Path w m (inPackage w (withName m (.leaf name)) eds) := by
            rw [← path_withName w m (.leaf name)]
            exact ⟨eds, (stringOf_some _ _ _ _).1 hs, (inPackage_path _ _ _ _).1 rfl⟩
          cases hl : w.load (inPackage w (withName m (.leaf name)) eds) ov with
          | throws => simp [hl] at h
          | null => simp [hl] at h
          | dict d =>
            simp only [hl, bind_ok] at h
            obtain ⟨l0, h0, l1, h1, l2, h2, h⟩ := h
            cases hn : stringOf w (withName m (.leaf name)) "name" with
            | none => simp [hn] at h
            | some nn =>
              simp only [hn, bind_ok, Res.ok.injEq] at h
              obtain ⟨ps, hps, rfl⟩ := h
              rw [optional_ok] at h0 h1 h2 hps
              obtain ⟨k0, a0, b0⟩ := h0
              obtain ⟨k1, a1, b1⟩ := h1
              obtain ⟨k2, a2, b2⟩ := h2
              obtain ⟨kp, ap, bp⟩ := hps
              rw [listed_withName w m _ _ (by decide)] at a0 a1 a2 ap
              refine ⟨m, rfl, ⟨x, i, hx1, hx2, rfl⟩, (name_stringOf w m name nn).1 hn, ⟨ov, _, hov, hpath, hl⟩,
                ⟨k0, k1, k2, a0, a1, a2, ?_⟩, kp, ap, ?_⟩
              · rw [pointwise_split]
                refine ⟨_, _, rfl, ?_, ?_⟩
                · rw [pointwise_split]
                  refine ⟨_, _, rfl, ?_, ?_⟩
                  · rw [pointwise_mapped]
                    exact (pointwise_iff (fun a b => addLog_ok w d _ 0 a _ rfl rfl b) _ _).1 b0
                  · rw [pointwise_mapped]
                    exact (pointwise_iff (fun a b => addLog_ok w d _ 1 a _ rfl rfl b) _ _).1 b1
                · rw [pointwise_mapped]
                  exact (pointwise_iff (fun a b => addLog_ok w d _ 2 a _ rfl rfl b) _ _).1 b2
              · exact (pointwise_iff (fun a b => addPub_ok w d _ nn a _ rfl rfl rfl b) _ _).1 bp
      · rintro ⟨m', hm', ⟨x', i', q1, q2, hid⟩, hname, ⟨ov, path, hov, hpath, hl⟩, ⟨k0, k1, k2, a0, a1, a2, hlog⟩, kp, ap, hpub⟩
        cases hm'
        rw [hx1] at q1
        cases q1
        rw [hx2] at q2
        cases q2
        rw [← path_withName w m (.leaf name)] at hpath
        obtain ⟨eds, he, hp⟩ := hpath
        have he' := (stringOf_some _ _ _ _).2 he
        have hp' := (inPackage_path _ _ _ _).2 hp
        have hn := (name_stringOf w m name n.name).2 hname
        refine ⟨ov, hov, ?_⟩
        simp only [he', hp', hl, bind_ok]
        rw [pointwise_split] at hlog
        obtain ⟨m01, m2, e1, h01, h2⟩ := hlog
        rw [pointwise_split] at h01
        obtain ⟨m0, m1, e2, h0, h1⟩ := h01
        rw [pointwise_mapped] at h0 h1 h2
        refine ⟨m0, ?_, m1, ?_, m2, ?_, ?_⟩
        · rw [optional_ok]
          exact ⟨k0, (listed_withName w m _ _ (by decide) _).2 a0,
            (pointwise_iff (fun a b => addLog_ok w n.dict _ 0 a n rfl hid b) _ _).2 h0⟩
        · rw [optional_ok]
          exact ⟨k1, (listed_withName w m _ _ (by decide) _).2 a1,
            (pointwise_iff (fun a b => addLog_ok w n.dict _ 1 a n rfl hid b) _ _).2 h1⟩
        · rw [optional_ok]
          exact ⟨k2, (listed_withName w m _ _ (by decide) _).2 a2,
            (pointwise_iff (fun a b => addLog_ok w n.dict _ 2 a n rfl hid b) _ _).2 h2⟩
        · simp only [hn, bind_ok]
          refine ⟨n.pubs, ?_, ?_⟩
          · rw [optional_ok]
            exact ⟨kp, (listed_withName w m _ _ (by decide) _).2 ap,
              (pointwise_iff (fun a b => addPub_ok w n.dict _ _ a n rfl hid rfl b) _ _).2 hpub⟩
          · obtain ⟨a, b, c, d, e⟩ := n
            dsimp only at hid e1 e2 ⊢
            subst hid e1 e2
            rfl

/-- a world with one description file and some opaque values -/
def exampleWorld : World where
  leaf := fun n => [.str "arm", .int 5, .str "arm.eds", .list [some "1000!", some "6081"], .int 257, .int 1, .str "leg", .other].getD n .other
  load := fun p _ => if p = "arm.eds" then .dict exampleDict else .throws
  pkgPath := fun _ => none
  join := fun a b => a ++ "/" ++ b
  mem := exampleMem

/-- parameters of a node of the world: its number and the lists of objects -/
def exampleParams (id : Nat) : XVal := .struct (.cons "id" (.leaf id) (.cons "log" (.leaf 3) (.cons "publish" (.leaf 3) .nil)))

/-- the common parameters -/
def exampleDefaults : XVal := .struct (.cons "eds_file" (.leaf 2) .nil)

example : ∃ n, setupNode exampleWorld (exampleParams 1) 0 exampleDefaults = .ok n ∧ n.id = 5#8 ∧ n.logs.length = 2 ∧ n.pubs.length = 2 := by
  refine ⟨_, rfl, rfl, rfl, rfl⟩

theorem setupAll_ok (w : World) (defaults : XVal) (l : List (Res Nat × XVal)) (c0 c : Setup.Nodes) :
    setupAll w defaults l c0 = .ok c ↔ ∃ as ns, Pointwise (fun (p : Res Nat × XVal) (a : Nat × XVal) => p = (.ok a.1, a.2)) l as ∧
      Pointwise (Follows w defaults) as ns ∧ c = ns.foldl Setup.Nodes.add c0 := by
  induction l generalizing c0 with
  | nil =>
    simp only [setupAll, Res.ok.injEq]
    constructor
    · rintro rfl
      exact ⟨[], [], trivial, trivial, rfl⟩
    · rintro ⟨as, ns, h1, h2, h3⟩
      cases as with
      | cons _ _ => exact h1.elim
      | nil => cases ns with
        | cons _ _ => exact h2.elim
        | nil => exact h3.symm
  | cons p l ih =>
    obtain ⟨rn, v⟩ := p
    simp only [setupAll, bind_ok, ih, C88_node]
    constructor
    · rintro ⟨n, rfl, s, hs, as, ns, h1, h2, h3⟩
      exact ⟨(n, v) :: as, s :: ns, ⟨rfl, h1⟩, ⟨hs, h2⟩, h3⟩
    · rintro ⟨as, ns, h1, h2, h3⟩
      cases as with
      | nil => exact h1.elim
      | cons a as => cases ns with
        | nil => exact h2.elim
        | cons n ns =>
          have := h1.1
          simp only [Prod.mk.injEq] at this
          obtain ⟨e1, e2⟩ := this
          refine ⟨a.1, e1, n, ?_, as, ns, h1.2, h2.2, h3⟩
          rw [e2]
          exact h2.1

theorem added_nodes (ns : List NodeSetup) (c : Setup.Nodes) : (ns.foldl Setup.Nodes.add c).nodes = c.nodes ++ ns := by
  induction ns generalizing c with
  | nil => simp
  | cons n ns ih => simp [ih, Setup.Nodes.add]

theorem added_find (ns : List NodeSetup) (c : Setup.Nodes) (x : String) :
    (ns.foldl Setup.Nodes.add c).find x = (c.find x).or (ns.find? fun n => n.name = x) := by
  induction ns generalizing c with
  | nil => simp
  | cons n ns ih =>
    rw [List.foldl_cons, ih]
    have key : (c.add n).find x = (c.find x).or (if n.name = x then some n else none) := by
      unfold Setup.Nodes.find Setup.Nodes.add
      dsimp only
      by_cases hs : (c.lookup.find? fun p => p.1 = n.name).isSome
      · rw [if_pos hs]
        by_cases hx : n.name = x
        · subst hx
          obtain ⟨y, hy⟩ := Option.isSome_iff_exists.1 hs
          simp [hy]
        · simp [hx]
      · rw [if_neg hs, List.find?_append]
        by_cases hx : n.name = x
        · subst hx
          have : (c.lookup.find? fun p => p.1 = n.name) = none := by
            cases hq : c.lookup.find? fun p => p.1 = n.name with
            | none => rfl
            | some y =>
              rw [hq] at hs
              exact absurd rfl hs
          simp [this]
        · cases hq : c.lookup.find? fun p => p.1 = x <;> simp [hx]
    rw [key]
    by_cases hx : n.name = x
    · simp [hx]
    · simp [hx]

theorem asked_iff (w : World) (p : NodesParam) (as : List (Nat × XVal)) (l : List (Res Nat × XVal))
    (h : (∃ a, p = .array a ∧ l = a.map fun v => (arrayName w v, v)) ∨ ∃ a, p = .struct a ∧ l = a.map fun q => (.ok q.1, q.2)) :
    Pointwise (fun (p : Res Nat × XVal) (a : Nat × XVal) => p = (.ok a.1, a.2)) l as ↔ Asked w p as := by
  rcases h with ⟨a, rfl, rfl⟩ | ⟨a, rfl, rfl⟩
  · unfold Asked
    rw [pointwise_mapped]
    apply pointwise_iff
    intro v q
    obtain ⟨n, u⟩ := q
    simp only [Prod.mk.injEq]
    cases v with
    | leaf _ => simp [arrayName, Spec.Merge.at?]
    | struct fs =>
      cases hg : fs.get? "name" with
      | none => simp [arrayName, Spec.Merge.at?, hg]
      | some v =>
        cases v with
        | struct _ => simp [arrayName, Spec.Merge.at?, hg]
        | leaf x =>
          cases hx : w.leaf x with
          | str s =>
            simp only [arrayName, Spec.Merge.at?, hg, hx, Res.ok.injEq, Option.some.injEq, XVal.leaf.injEq]
            constructor
            · rintro ⟨rfl, rfl⟩
              exact ⟨rfl, rfl, s, hx⟩
            · rintro ⟨rfl, rfl, _⟩
              exact ⟨rfl, rfl⟩
          | int _ | list _ | other =>
            simp only [arrayName, Spec.Merge.at?, hg, hx, reduceCtorEq, false_and, Option.some.injEq, XVal.leaf.injEq, false_iff, not_and,
              not_exists]
            rintro rfl rfl s h
            rw [hx] at h
            cases h
  · unfold Asked
    rw [pointwise_mapped]
    induction a generalizing as with
    | nil => cases as <;> simp [Pointwise]
    | cons b a ih =>
      cases as with
      | nil => simp [Pointwise]
      | cons c as =>
        have e := ih as
        simp only [Pointwise, List.cons.injEq, Prod.mk.injEq, Res.ok.injEq] at e ⊢
        constructor
        · rintro ⟨⟨h1, h2⟩, h3⟩
          exact ⟨(Prod.ext h1 h2).symm, e.1 h3⟩
        · rintro ⟨rfl, h⟩
          exact ⟨⟨rfl, rfl⟩, e.2 h⟩

/-- **C88** All nodes: the set-up succeeds exactly if the nodes are given as an array of named elements or as a struct, and each of them is acceptable;
then the chain has one node for each, in this order, and a name leads to the first node of this name. -/
theorem C88_nodes (w : World) (p : NodesParam) (defaults : XVal) :
    (∀ c, setupNodes w p defaults = .ok c → ∃ as, Asked w p as ∧ Pointwise (Follows w defaults) as c.nodes) ∧
    (∀ as ns, Asked w p as → Pointwise (Follows w defaults) as ns → ∃ c, setupNodes w p defaults = .ok c ∧ c.nodes = ns) ∧
    ∀ c, setupNodes w p defaults = .ok c → ∀ x, c.find x = c.nodes.find? fun n => n.name = x := by
  have main : ∀ l, ((∃ a, p = .array a ∧ l = a.map fun v => (arrayName w v, v)) ∨ ∃ a, p = .struct a ∧ l = a.map fun q => (.ok q.1, q.2)) →
      setupNodes w p defaults = setupAll w defaults l ⟨[], []⟩ := by
    rintro l (⟨a, rfl, rfl⟩ | ⟨a, rfl, rfl⟩) <;> rfl
  have shape : (∃ l, (∃ a, p = .array a ∧ l = a.map fun v => (arrayName w v, v)) ∨ ∃ a, p = .struct a ∧ l = a.map fun q => ((.ok q.1 : Res Nat), q.2)) ∨
      setupNodes w p defaults = .ub ∧ ∀ as, ¬ Asked w p as := by
    cases p with
    | absent => exact Or.inr ⟨rfl, fun _ h => h⟩
    | other => exact Or.inr ⟨rfl, fun _ h => h⟩
    | array a => exact Or.inl ⟨_, Or.inl ⟨a, rfl, rfl⟩⟩
    | struct a => exact Or.inl ⟨_, Or.inr ⟨a, rfl, rfl⟩⟩
  rcases shape with ⟨l, hl⟩ | ⟨hu, hn⟩
  · rw [main l hl]
    refine ⟨?_, ?_, ?_⟩
    · intro c hc
      obtain ⟨as, ns, h1, h2, rfl⟩ := (setupAll_ok w defaults l _ c).1 hc
      refine ⟨as, (asked_iff w p as l hl).1 h1, ?_⟩
      rw [added_nodes]
      exact h2
    · intro as ns h1 h2
      exact ⟨_, (setupAll_ok w defaults l _ _).2 ⟨as, ns, (asked_iff w p as l hl).2 h1, h2, rfl⟩, by rw [added_nodes]; rfl⟩
    · intro c hc x
      obtain ⟨as, ns, h1, h2, rfl⟩ := (setupAll_ok w defaults l _ c).1 hc
      rw [added_nodes, added_find]
      rfl
  · refine ⟨?_, fun as _ h => absurd h (hn as), ?_⟩ <;>
      (intro c hc; rw [hu] at hc; cases hc)

/-- two nodes given as a struct -/
def twoNodes : NodesParam := .struct [(0, exampleParams 1), (6, exampleParams 5)]

example : ∃ c, setupNodes exampleWorld twoNodes exampleDefaults = .ok c ∧ c.nodes.length = 2 ∧ (c.find "leg").map (·.id) = some 1#8 := by
  refine ⟨_, rfl, rfl, rfl⟩

/-- **C88** Nodes with different names can all be addressed by their names. -/
theorem C88_addressable (w : World) (p : NodesParam) (defaults : XVal) (c : Setup.Nodes) (h : setupNodes w p defaults = .ok c)
    (hd : c.nodes.Pairwise fun a b => a.name ≠ b.name) (n : NodeSetup) (hn : n ∈ c.nodes) : c.find n.name = some n := by
  rw [(C88_nodes w p defaults).2.2 c h]
  generalize c.nodes = l at hd hn
  induction l with
  | nil => cases hn
  | cons a l ih =>
    rw [List.pairwise_cons] at hd
    rcases List.mem_cons.1 hn with rfl | hm
    · simp
    · rw [List.find?_cons]
      simp only [hd.1 n hm, decide_false]
      exact ih hd.2 hm

example : ∃ c, setupNodes exampleWorld twoNodes exampleDefaults = .ok c ∧ (c.nodes.Pairwise fun a b => a.name ≠ b.name) := by
  refine ⟨_, rfl, ?_⟩
  show List.Pairwise _ [_, _]
  simp only [List.pairwise_cons, List.mem_cons, List.not_mem_nil, or_false, forall_eq, false_imp_iff, implies_true, List.Pairwise.nil, and_true]
  show "arm" ≠ "leg"
  decide

/-- **C88 fails** for numbers of nodes: 257 is accepted and means node 1, also if another node has the number 1. -/
theorem C88_ids_false : ∃ c, setupNodes exampleWorld (.struct [(0, exampleParams 4), (6, exampleParams 5)]) exampleDefaults = .ok c ∧
    c.nodes.map (·.id) = [1#8, 1#8] := ⟨_, rfl, rfl⟩

/-- **C88** Numbers 0 … 255 are kept; so are 1 … 127, the numbers CANopen allows. -/
theorem C88_id_kept (w : World) (params defaults : XVal) (name : Nat) (n : NodeSetup) (h : setupNode w params name defaults = .ok n) (x : Nat) (i : Int)
    (hx : Spec.Merge.at? params ["id"] = some (.leaf x)) (hi : w.leaf x = .int i) (h0 : 0 ≤ i) (h1 : i < 256) : (n.id.toNat : Int) = i := by
  obtain ⟨m, _, ⟨x', i', q1, q2, q3⟩, _⟩ := (C88_node w params defaults name n).1 h
  rw [hx] at q1
  cases q1
  rw [hi] at q2
  cases q2
  rw [q3, BitVec.toNat_ofInt]
  omega

example : Spec.Merge.at? (exampleParams 1) ["id"] = some (.leaf 1) ∧ exampleWorld.leaf 1 = .int 5 := ⟨rfl, rfl⟩

/-- **C88 fails** for names: a name among the common parameters overrides the keys of all nodes; both nodes run, only the first can be addressed, and
not by its key. -/
theorem C88_names_false : ∃ c, setupNodes exampleWorld twoNodes (.struct (.cons "name" (.leaf 0) (.cons "eds_file" (.leaf 2) .nil))) = .ok c ∧
    c.nodes.map (·.name) = ["arm", "arm"] ∧ (c.find "arm").map (·.id) = some 5#8 ∧ (c.find "leg").isNone := ⟨_, rfl, rfl, rfl, rfl⟩

/-- **C88 fails** without nodes: undefined behaviour instead of a refusal. -/
theorem C88_no_nodes_false (w : World) (defaults : XVal) : setupNodes w .absent defaults = .ub := rfl

/-- **C88 fails** for a missing description file: an exception leaves the set-up. -/
theorem C88_no_file_false : setupNode exampleWorld (exampleParams 1) 0 (.struct .nil) = .escapes := rfl

/-- **C88** The order of the layers: the bus first, then SYNC (exactly if an interval is given), then the nodes, then the emergency handlers.  The
nodes, the heartbeat and the rates are those of the parts. -/
theorem C88_order (w : World) (g : Sync.Props → Made) (junk : Vector Byte 8) (bus : Bool) (c : Config) (ch : Setup.Chain) (h : setup w g junk bus c = .ok ch) :
    bus = true ∧ ch.members = (if 0 < c.interval.getD 0 then [.can, .sync, .nodes, .emcy] else [.can, .nodes, .emcy]) ∧
    setupSync g c.interval c.update c.overflow = .ok ⟨ch.updateMs, ch.sync⟩ ∧ setupHeartbeat junk c.msg c.rate = .ok ch.heartbeat ∧
    setupNodes w c.nodes c.defaults = .ok ch.nodes := by
  unfold setup at h
  cases bus with
  | false => simp at h
  | true =>
    simp only [Bool.not_true, Bool.false_eq_true, if_false, bind_ok, Res.ok.injEq] at h
    obtain ⟨s, hs, hb, hhb, n, hn, rfl⟩ := h
    refine ⟨rfl, ?_, hs, hhb, hn⟩
    have : s.sync.isSome = true ↔ 0 < c.interval.getD 0 := by
      unfold setupSync at hs
      generalize c.interval.getD 0 = i at *
      generalize c.overflow.getD 0 = o at *
      generalize c.update.getD 0 = u at *
      dsimp only at hs
      by_cases h1 : i < 0
      · simp [h1] at hs
      by_cases h2 : i = 0
      · subst h2
        simp only [if_true] at hs
        by_cases h3 : u = 0
        · simp [h3] at hs
        · simp [h3] at hs
          subst hs
          simp
      · simp only [h1, h2, if_false] at hs
        by_cases h3 : o = 1 ∨ o > 240
        · simp [h3] at hs
        · rw [if_neg h3] at hs
          revert hs
          cases g _ with
          | throws => simp
          | null => simp
          | sync =>
            intro hs
            cases hs
            simp
            omega
    dsimp only
    by_cases hp : 0 < c.interval.getD 0
    · rw [if_pos (this.2 hp), if_pos hp]
      rfl
    · rw [if_neg (fun q => hp (this.1 q)), if_neg hp]
      rfl

example : ∃ ch, setup exampleWorld (simpleMaster noPayload) noPayload true ⟨some 10, none, none, none, none, twoNodes, exampleDefaults⟩ = .ok ch ∧
    ch.members = [.can, .sync, .nodes, .emcy] := ⟨_, rfl, rfl⟩

/-- **C88** Publishing: as long as no object fails to be read, each cycle publishes one message for each listed object, in order; the first that fails
ends the publishing of the cycle. -/
theorem C88_publish {σ μ : Type} (fs : List (σ → σ × Option μ)) (s : σ) :
    ((publishAll fs s).2.2 = true → (publishAll fs s).2.1.length = fs.length) ∧
    ((publishAll fs s).2.2 = false → ∃ g f r s', fs = g ++ f :: r ∧ publishAll g s = (s', (publishAll fs s).2.1, true) ∧
      (f s').2 = none ∧ (publishAll fs s).1 = (f s').1) := by
  induction fs generalizing s with
  | nil => simp [publishAll]
  | cons f fs ih =>
    cases hf : f s with
    | mk s' o =>
      cases o with
      | none =>
        simp only [publishAll, hf]
        refine ⟨fun h => (nomatch h), fun _ => ⟨[], f, fs, s, rfl, rfl, by rw [hf], by rw [hf]⟩⟩
      | some m =>
        simp only [publishAll, hf, List.length_cons, Nat.add_right_cancel_iff]
        refine ⟨(ih s').1, fun h => ?_⟩
        obtain ⟨g, f', r, t, rfl, h2, h3, h4⟩ := (ih s').2 h
        refine ⟨f :: g, f', r, t, rfl, ?_, h3, h4⟩
        simp only [publishAll, hf, h2]

example : publishAll [fun (n : Nat) => (n + 1, some n), fun n => (n + 1, some (n * 10))] 3 = (5, [3, 40], true) := rfl

/-- **C88 fails** for publishing: an object that cannot be read keeps all objects listed after it from being published, in every cycle. -/
theorem C88_publish_false : publishAll [fun (n : Nat) => (n + 1, none), fun n => (n + 1, some n)] 3 = (4, [], false) := rfl

end Verif.Props
