import Verif.Lemmas.SdoChannel
import Verif.Lemmas.Storage
import Verif.Spec.StorageBus

/-!
# Lemmas for C109: the storage uses its delegates only through their results
-/

set_option linter.unusedSimpArgs false

namespace Verif.Spec.Wire
open Verif Verif.OD Verif.Sdo Verif.Chan Verif.Spec Verif.Spec.Sdo Verif.Spec.Chan

/-! ## a property of the world that accesses keep -/

section
variable {W : Type} (bus : Bus W) (B : W → Prop) (hr : ∀ d e b w, B w → B (bus.read d e b w).1) (hw : ∀ d e v w, B w → B (bus.write d e v w).1)

include hr in
theorem keep_callRead (d : Data) (c : Ctx W) (h : B c.w) : B (d.callRead bus c).2.1.w := hr _ _ _ _ h

include hw in
theorem keep_callWrite (d : Data) (c : Ctx W) (h : B c.w) : B (d.callWrite bus c).1.w := hw _ _ _ _ h

include hr in
theorem keep_get (cached : Bool) (d : Data) (c : Ctx W) (h : B c.w) : B (d.get bus cached c).2.1.w := by
  have := keep_callRead bus B hr d.allocate c h
  unfold Data.get
  grind

include hw in
theorem keep_storeWrite (d : Data) (c : Ctx W) (v : List Byte) (h : B c.w) : B (d.storeWrite bus c v).2.1.w := by
  unfold Data.storeWrite
  cases d.store v with
  | none => exact h
  | some d' =>
    have := keep_callWrite bus B hw d' c h
    dsimp only
    grind

include hw in
theorem keep_set (v : List Byte) (d : Data) (c : Ctx W) (h : B c.w) : B (d.set bus v c).2.1.w := by
  have := keep_storeWrite bus B hw d c v h
  unfold Data.set
  grind

include hw in
theorem keep_setCached (v : List Byte) (d : Data) (c : Ctx W) (h : B c.w) : B (d.setCached bus v c).2.1.w := by
  have := keep_storeWrite bus B hw d c v h
  unfold Data.setCached
  grind

include hw in
theorem keep_init (mem : Mem) (d : Data) (c : Ctx W) (h : B c.w) : B (d.init bus mem c).2.1.w := by
  unfold Data.init
  cases d.entry.initVal with
  | none => exact h
  | empty t => exact h
  | val p =>
    have := keep_callWrite bus B hw { d with buffer := p.bytes mem, valid := true } c h
    dsimp only
    grind

include hr hw in
theorem keep_forceWrite (d : Data) (c : Ctx W) (h : B c.w) : B (d.forceWrite bus c).2.1.w := by
  have h1 := keep_callRead bus B hr d c h
  have h2 := keep_callWrite bus B hw d c h
  have h3 : ∀ d' : Data, B (d'.callWrite bus (d.callRead bus c).2.1).1.w := fun d' => keep_callWrite bus B hw d' _ h1
  unfold Data.forceWrite
  grind

include hw in
theorem keep_initNolock (mem : Mem) (s : Storage) (k : Key) (e : Entry) (c : Ctx W) (h : B c.w) : B (s.initNolock bus mem k e c).2.1.w := by
  unfold Storage.initNolock
  cases e.initVal with
  | none => exact h
  | empty t => exact h
  | val p => exact keep_init bus B hw mem _ c h

include hw in
theorem keep_initAllFrom (mem : Mem) (l : Dict) (s : Storage) (c : Ctx W) (h : B c.w) : B (Storage.initAllFrom bus mem l s c).2.1.w := by
  induction l generalizing s c with
  | nil => exact h
  | cons x l ih =>
    obtain ⟨k, e⟩ := x
    have h1 := keep_initNolock bus B hw mem s k e c h
    unfold Storage.initAllFrom
    dsimp only
    cases (s.initNolock bus mem k e c).2.2 with
    | ok _ => exact ih _ _ h1
    | throws _ => exact h1
    | ub => exact h1

include hr hw in
theorem keep_mapKey (mem : Mem) (s : Storage) (k : Key) (e : Entry) (r w : Option Nat) (c : Ctx W) (h : B c.w) :
    B (s.mapKey bus mem k e r w c).2.1.w := by
  have h1 : ∀ d : Data, B (d.forceWrite bus c).2.1.w := fun d => keep_forceWrite bus B hr hw d c h
  unfold Storage.mapKey
  grind

include hr hw in
theorem keep_map (mem : Mem) (s : Storage) (i : BitVec 16) (sub : BitVec 8) (r w : Option Nat) (c : Ctx W) (h : B c.w) :
    B (s.map bus mem i sub r w c).2.1.w := by
  have h1 := fun k e => keep_mapKey bus B hr hw mem s k e r w c h
  unfold Storage.map
  grind

include hr hw in
theorem keep_step (mem : Mem) (s : Storage) (c : Ctx W) (o : SOp) (h : B c.w) : B (s.step bus mem c o).2.1.w := by
  cases o with
  | «open» k ty => exact h
  | get k cached =>
    have := fun d => keep_get bus B hr cached d c h
    simp only [Storage.step]
    grind
  | set k v =>
    have := fun d => keep_set bus B hw v d c h
    simp only [Storage.step]
    grind
  | setCached k v =>
    have := fun d => keep_setCached bus B hw v d c h
    simp only [Storage.step]
    grind
  | init k =>
    have := fun e => keep_initNolock bus B hw mem s k e c h
    simp only [Storage.step, Storage.init]
    grind
  | initAll => exact keep_initAllFrom bus B hw mem s.dict s c h
  | reset => exact h
  | map i sub r w => exact keep_map bus B hr hw mem s i sub r w c h

end

/-! ## two worlds whose delegates give the same results, unless something goes wrong -/

section
variable {W V : Type} (bus : Bus W) (bus' : Bus V) (B : W → Prop) (B' : V → Prop) (G : W → V → Prop)
  (hr : ∀ d e b w, B w → B (bus.read d e b w).1) (hw : ∀ d e v w, B w → B (bus.write d e v w).1)
  (hr' : ∀ d e b w, B' w → B' (bus'.read d e b w).1) (hw' : ∀ d e v w, B' w → B' (bus'.write d e v w).1)
  (gr : ∀ d e b w v, G w v → B (bus.read d e b w).1 ∨ B' (bus'.read d e b v).1 ∨
    (G (bus.read d e b w).1 (bus'.read d e b v).1 ∧ (bus.read d e b w).2 = (bus'.read d e b v).2))
  (gw : ∀ d e b w v, G w v → B (bus.write d e b w).1 ∨ B' (bus'.write d e b v).1 ∨
    (G (bus.write d e b w).1 (bus'.write d e b v).1 ∧ (bus.write d e b w).2 = (bus'.write d e b v).2))

/-- the same so far -/
def Twin (c : Ctx W) (c' : Ctx V) : Prop := G c.w c'.w ∧ c.log = c'.log

/-- something went wrong on one side, or the results are the same -/
def Alike {α β : Type} (x : α × Ctx W × β) (y : α × Ctx V × β) : Prop :=
  B x.2.1.w ∨ B' y.2.1.w ∨ (x.1 = y.1 ∧ Twin G x.2.1 y.2.1 ∧ x.2.2 = y.2.2)

include gr in
theorem alike_callRead (d : Data) {c : Ctx W} {c' : Ctx V} (h : Twin G c c') : Alike B B' G (d.callRead bus c) (d.callRead bus' c') := by
  have := gr d.rd d.entry d.buffer c.w c'.w h.1
  have hl := h.2
  unfold Alike Twin Data.callRead
  grind

include gw in
theorem alike_callWrite (d : Data) {c : Ctx W} {c' : Ctx V} (h : Twin G c c') :
    B (d.callWrite bus c).1.w ∨ B' (d.callWrite bus' c').1.w ∨
      (Twin G (d.callWrite bus c).1 (d.callWrite bus' c').1 ∧ (d.callWrite bus c).2 = (d.callWrite bus' c').2) := by
  have := gw d.wr d.entry d.buffer c.w c'.w h.1
  have hl := h.2
  unfold Twin Data.callWrite
  grind

include gr in
theorem alike_get (cached : Bool) (d : Data) {c : Ctx W} {c' : Ctx V} (h : Twin G c c') : Alike B B' G (d.get bus cached c) (d.get bus' cached c') := by
  have := alike_callRead bus bus' B B' G gr d.allocate h
  unfold Alike at *
  unfold Data.get
  grind

include gw in
theorem alike_storeWrite (d : Data) (v : List Byte) {c : Ctx W} {c' : Ctx V} (h : Twin G c c') :
    Alike B B' G (d.storeWrite bus c v) (d.storeWrite bus' c' v) := by
  unfold Alike
  unfold Data.storeWrite
  cases d.store v with
  | none => grind
  | some d' =>
    have := alike_callWrite bus bus' B B' G gw d' h
    dsimp only
    grind

include gw in
theorem alike_set (v : List Byte) (d : Data) {c : Ctx W} {c' : Ctx V} (h : Twin G c c') : Alike B B' G (d.set bus v c) (d.set bus' v c') := by
  have := alike_storeWrite bus bus' B B' G gw d v h
  unfold Alike at *
  unfold Data.set
  grind

include gw in
theorem alike_setCached (v : List Byte) (d : Data) {c : Ctx W} {c' : Ctx V} (h : Twin G c c') :
    Alike B B' G (d.setCached bus v c) (d.setCached bus' v c') := by
  have := alike_storeWrite bus bus' B B' G gw d v h
  unfold Alike at *
  unfold Data.setCached
  grind

include gw in
theorem alike_init (mem : Mem) (d : Data) {c : Ctx W} {c' : Ctx V} (h : Twin G c c') : Alike B B' G (d.init bus mem c) (d.init bus' mem c') := by
  unfold Data.init
  cases d.entry.initVal with
  | none => exact Or.inr (Or.inr ⟨rfl, h, rfl⟩)
  | empty t => exact Or.inr (Or.inr ⟨rfl, h, rfl⟩)
  | val p =>
    have := alike_callWrite bus bus' B B' G gw { d with buffer := p.bytes mem, valid := true } h
    unfold Alike at *
    dsimp only
    grind

include hw hw' gr gw in
theorem alike_forceWrite (d : Data) {c : Ctx W} {c' : Ctx V} (h : Twin G c c') : Alike B B' G (d.forceWrite bus c) (d.forceWrite bus' c') := by
  by_cases hc : (!d.valid && d.entry.readable) = true
  · rcases alike_callRead bus bus' B B' G gr d h with h1 | h1 | ⟨h1, h2, h3⟩
    · left
      have h3 : ∀ d' : Data, B (d'.callWrite bus (d.callRead bus c).2.1).1.w := fun d' => keep_callWrite bus B hw d' _ h1
      unfold Data.forceWrite
      grind
    · right; left
      have h3 : ∀ d' : Data, B' (d'.callWrite bus' (d.callRead bus' c').2.1).1.w := fun d' => keep_callWrite bus' B' hw' d' _ h1
      unfold Data.forceWrite
      grind
    · have h4 := fun d' : Data => alike_callWrite bus bus' B B' G gw d' h2
      unfold Alike at *
      unfold Data.forceWrite
      simp only [hc, if_true, h1, h3]
      generalize d.callRead bus c = x at *
      generalize d.callRead bus' c' = y at *
      cases hy : y.2.2 with
      | some e => exact Or.inr (Or.inr ⟨rfl, h2, rfl⟩)
      | none =>
        have := h4 { y.1 with valid := true }
        dsimp only
        simp only [if_true]
        grind
  · have h4 := alike_callWrite bus bus' B B' G gw d h
    unfold Alike at *
    unfold Data.forceWrite
    simp only [hc]
    simp only [Bool.false_eq_true, if_false]
    grind

include gw in
theorem alike_initNolock (mem : Mem) (s : Storage) (k : Key) (e : Entry) {c : Ctx W} {c' : Ctx V} (h : Twin G c c') :
    Alike B B' G (s.initNolock bus mem k e c) (s.initNolock bus' mem k e c') := by
  unfold Storage.initNolock
  cases e.initVal with
  | none => exact Or.inr (Or.inr ⟨rfl, h, rfl⟩)
  | empty t => exact Or.inr (Or.inr ⟨rfl, h, rfl⟩)
  | val p =>
    have := alike_init bus bus' B B' G gw mem ((s.data k).getD (Data.new e p.ty)) h
    unfold Alike at *
    dsimp only
    grind

include hw hw' gw in
theorem alike_initAllFrom (mem : Mem) (l : Dict) (s : Storage) {c : Ctx W} {c' : Ctx V} (h : Twin G c c') :
    Alike B B' G (Storage.initAllFrom bus mem l s c) (Storage.initAllFrom bus' mem l s c') := by
  induction l generalizing s c c' with
  | nil => exact Or.inr (Or.inr ⟨rfl, h, rfl⟩)
  | cons x l ih =>
    obtain ⟨k, e⟩ := x
    rcases alike_initNolock bus bus' B B' G gw mem s k e h with h1 | h1 | ⟨h1, h2, h3⟩
    · left
      have h3 := fun s' => keep_initAllFrom bus B hw mem l s' _ h1
      unfold Storage.initAllFrom
      dsimp only
      cases (s.initNolock bus mem k e c).2.2 with
      | ok _ => exact h3 _
      | throws _ => exact h1
      | ub => exact h1
    · right; left
      have h3 := fun s' => keep_initAllFrom bus' B' hw' mem l s' _ h1
      unfold Storage.initAllFrom
      dsimp only
      cases (s.initNolock bus' mem k e c').2.2 with
      | ok _ => exact h3 _
      | throws _ => exact h1
      | ub => exact h1
    · have := ih (s.initNolock bus' mem k e c').1 h2
      unfold Alike at *
      unfold Storage.initAllFrom
      simp only [h1, h3]
      cases (s.initNolock bus' mem k e c').2.2 with
      | ok _ => exact this
      | throws _ => exact Or.inr (Or.inr ⟨rfl, h2, rfl⟩)
      | ub => exact Or.inr (Or.inr ⟨rfl, h2, rfl⟩)

include hw hw' gr gw in
theorem alike_mapKey (mem : Mem) (s : Storage) (k : Key) (e : Entry) (r w : Option Nat) {c : Ctx W} {c' : Ctx V} (h : Twin G c c') :
    Alike B B' G (s.mapKey bus mem k e r w c) (s.mapKey bus' mem k e r w c') := by
  have h1 := fun d : Data => alike_forceWrite bus bus' B B' G hw hw' gr gw d h
  unfold Alike at *
  unfold Storage.mapKey
  dsimp only
  split
  · exact Or.inr (Or.inr ⟨rfl, h, rfl⟩)
  · exact Or.inr (Or.inr ⟨rfl, h, rfl⟩)
  · rename_i d _
    cases r with
    | none =>
      cases w with
      | none => exact Or.inr (Or.inr ⟨rfl, h, rfl⟩)
      | some w =>
        have := h1 (d.setDelegates .dev (.pdo w))
        dsimp only
        grind
    | some r =>
      cases w with
      | none => exact Or.inr (Or.inr ⟨rfl, h, rfl⟩)
      | some w =>
        have := h1 (d.setDelegates .dev (.pdo w))
        dsimp only
        grind

include hw hw' gr gw in
theorem alike_map (mem : Mem) (s : Storage) (i : BitVec 16) (sub : BitVec 8) (r w : Option Nat) {c : Ctx W} {c' : Ctx V} (h : Twin G c c') :
    Alike B B' G (s.map bus mem i sub r w c) (s.map bus' mem i sub r w c') := by
  have h1 := fun k e => alike_mapKey bus bus' B B' G hw hw' gr gw mem s k e r w h
  unfold Alike at *
  unfold Storage.map
  grind

include hw hw' gr gw in
theorem alike_step (mem : Mem) (s : Storage) (o : SOp) {c : Ctx W} {c' : Ctx V} (h : Twin G c c') :
    Alike B B' G (s.step bus mem c o) (s.step bus' mem c' o) := by
  cases o with
  | «open» k ty => exact Or.inr (Or.inr ⟨rfl, h, rfl⟩)
  | get k cached =>
    have := fun d => alike_get bus bus' B B' G gr cached d h
    unfold Alike at *
    simp only [Storage.step]
    grind
  | set k v =>
    have := fun d => alike_set bus bus' B B' G gw v d h
    unfold Alike at *
    simp only [Storage.step]
    grind
  | setCached k v =>
    have := fun d => alike_setCached bus bus' B B' G gw v d h
    unfold Alike at *
    simp only [Storage.step]
    grind
  | init k =>
    have := fun e => alike_initNolock bus bus' B B' G gw mem s k e h
    unfold Alike at *
    simp only [Storage.step, Storage.init]
    grind
  | initAll =>
    have := alike_initAllFrom bus bus' B B' G hw hw' gw mem s.dict s h
    unfold Alike at *
    simp only [Storage.step, Storage.initAll]
    grind
  | reset => exact Or.inr (Or.inr ⟨rfl, h, rfl⟩)
  | map i sub r w =>
    have := alike_map bus bus' B B' G hw hw' gr gw mem s i sub r w h
    unfold Alike at *
    simp only [Storage.step]
    grind

end

/-! ## one access over the bus -/

variable {P : Type}

theorem calls_mid (cfg : Config) (sid : Header) (mid : List LEv) (l : Link) : (l.run cfg sid (mid.filter during)).calls = l.calls := by
  induction mid generalizing l with
  | nil => rfl
  | cons e mid ih =>
    cases hd : during e with
    | false => simp only [List.filter_cons, hd, Bool.false_eq_true, if_false]; exact ih l
    | true =>
      simp only [List.filter_cons, hd, if_true]
      refine (ih (l.step cfg sid e)).trans ?_
      cases e with
      | serve => simp only [Link.step]; grind
      | take => rfl
      | foreign f => simp only [Link.step]; grind
      | call _ _ _ => cases hd
      | leave => cases hd

theorem access_ok (cfg : Config) (hcfg : cfg.Legal) (sid : Header) (w : Wire P) (store : Obj → List Byte) (hw : Ready sid w store)
    (o : Obj) (data : List Byte) (up : Bool) (hs : supported cfg store o data up = true) :
    ((w.access cfg sid o data up).1.hung = true ∧ ((⟨w.ch, w.server, w.ch.client.sent.length, [], []⟩ : Link).run cfg sid
      (.call o data up :: (w.plan.headD []).filter during ++ [.leave])).results = []) ∨
    ((w.access cfg sid o data up).2 = some (.ok (if up then store o else [])) ∧
      Ready sid (w.access cfg sid o data up).1 (after store (o, data, up)) ∧ (w.access cfg sid o data up).1.other = w.other ∧
      (w.access cfg sid o data up).1.hung = w.hung) := by
  have hi : LInv cfg sid store ⟨w.ch, w.server, w.ch.client.sent.length, [], []⟩ :=
    ⟨hw.listens, hw.one, fun _ => Or.inl ⟨hw.idle, hw.empty, hw.disabled, rfl, rfl, hw.holds⟩⟩
  have hl := linv_run cfg hcfg sid store (.call o data up :: (w.plan.headD []).filter during ++ [.leave]) _ hi
  have hc : ((⟨w.ch, w.server, w.ch.client.sent.length, [], []⟩ : Link).run cfg sid
      (.call o data up :: (w.plan.headD []).filter during ++ [.leave])).calls = [(o, data, up)] := by
    have h1 : ∀ (l : Link) (a b : List LEv), l.run cfg sid (a ++ b) = (l.run cfg sid a).run cfg sid b := by
      intro l a b; simp [Link.run]
    rw [h1]
    show ((Link.run cfg sid (Link.step cfg sid _ (.call o data up)) ((w.plan.headD []).filter during))).calls = _
    rw [calls_mid]
    simp [Link.step, hw.idle]
  unfold Wire.access
  dsimp only
  generalize (⟨w.ch, w.server, w.ch.client.sent.length, [], []⟩ : Link).run cfg sid
      (.call o data up :: (w.plan.headD []).filter during ++ [.leave]) = l at *
  have hp : Proper cfg store l.calls := by
    rw [hc]
    unfold supported at hs
    cases up <;> simpa [Proper] using hs
  rcases hl.now hp with hr | hb
  · right
    have hres := hr.res
    rw [hc] at hres
    simp only [replay, answer] at hres
    rw [hres]
    refine ⟨rfl, ⟨hl.lst, hr.run, hr.buf, hr.off, hl.len, ?_⟩, rfl, rfl⟩
    have := hr.store
    rw [hc] at this
    exact this
  · left
    obtain ⟨pre, k, d, u, t, c', s', e1, e2, -⟩ := hb.ex
    rw [hc] at e1
    have hpre : pre = [] := by
      have := congrArg List.length e1
      simp at this
      exact this
    rw [hpre] at e2
    simp only [replay] at e2
    rw [e2]
    exact ⟨rfl, rfl⟩

theorem access_hung (cfg : Config) (sid : Header) (w : Wire P) (o : Obj) (data : List Byte) (up : Bool) (h : w.hung = true) :
    (w.access cfg sid o data up).1.hung = true := by
  unfold Wire.access
  dsimp only
  split
  · exact h
  · rfl

/-! ## the two ways to look at the node -/

/-- the bus and the memory tell the same -/
def Match (sid : Header) (w : Wire P) (v : Memory P) : Prop := Ready sid w v.store ∧ v.fair = true ∧ w.other = v.other

theorem wired_read_hung (cfg : Config) (sid : Header) (other : Bus P) (d : Dlg) (e : Entry) (b : List Byte) (w : Wire P) (h : w.hung = true) :
    ((wired cfg sid other).read d e b w).1.hung = true := by
  have := access_hung cfg sid w (objOf e) b true h
  unfold wired
  cases d with
  | dev => dsimp only; split <;> exact this
  | pdo n => exact h

theorem wired_write_hung (cfg : Config) (sid : Header) (other : Bus P) (d : Dlg) (e : Entry) (b : List Byte) (w : Wire P) (h : w.hung = true) :
    ((wired cfg sid other).write d e b w).1.hung = true := by
  have := access_hung cfg sid w (objOf e) b false h
  unfold wired
  cases d with
  | dev => dsimp only; split <;> exact this
  | pdo n => exact h

theorem direct_read_unfair (cfg : Config) (other : Bus P) (d : Dlg) (e : Entry) (b : List Byte) (w : Memory P) (h : w.fair = false) :
    ((direct cfg other).read d e b w).1.fair = false := by
  unfold direct
  cases d with
  | dev => simp [h]
  | pdo n => exact h

theorem direct_write_unfair (cfg : Config) (other : Bus P) (d : Dlg) (e : Entry) (b : List Byte) (w : Memory P) (h : w.fair = false) :
    ((direct cfg other).write d e b w).1.fair = false := by
  unfold direct
  cases d with
  | dev => simp [h]
  | pdo n => exact h

theorem match_read (cfg : Config) (hcfg : cfg.Legal) (sid : Header) (other : Bus P) (d : Dlg) (e : Entry) (b : List Byte) (w : Wire P) (v : Memory P)
    (h : Match sid w v) : ((wired cfg sid other).read d e b w).1.hung = true ∨ ((direct cfg other).read d e b v).1.fair = false ∨
      (Match sid ((wired cfg sid other).read d e b w).1 ((direct cfg other).read d e b v).1 ∧
        ((wired cfg sid other).read d e b w).2 = ((direct cfg other).read d e b v).2) := by
  obtain ⟨h1, h2, h3⟩ := h
  cases d with
  | dev =>
    cases hs : supported cfg v.store (objOf e) b true with
    | false => right; left; simp [direct, hs]
    | true =>
      rcases access_ok cfg hcfg sid w v.store h1 (objOf e) b true hs with ⟨ha, -⟩ | ⟨a1, a2, a3, a4⟩
      · left
        simp only [wired]
        split <;> exact ha
      · right; right
        simp only [wired, direct, a1, if_true, hs, h2, Bool.and_self]
        exact ⟨⟨a2, rfl, a3.trans h3⟩, trivial⟩
  | pdo n =>
    right; right
    simp only [wired, direct, h3]
    exact ⟨⟨⟨h1.listens, h1.idle, h1.empty, h1.disabled, h1.one, h1.holds⟩, h2, rfl⟩, trivial⟩

theorem match_write (cfg : Config) (hcfg : cfg.Legal) (sid : Header) (other : Bus P) (d : Dlg) (e : Entry) (b : List Byte) (w : Wire P) (v : Memory P)
    (h : Match sid w v) : ((wired cfg sid other).write d e b w).1.hung = true ∨ ((direct cfg other).write d e b v).1.fair = false ∨
      (Match sid ((wired cfg sid other).write d e b w).1 ((direct cfg other).write d e b v).1 ∧
        ((wired cfg sid other).write d e b w).2 = ((direct cfg other).write d e b v).2) := by
  obtain ⟨h1, h2, h3⟩ := h
  cases d with
  | dev =>
    cases hs : supported cfg v.store (objOf e) b false with
    | false => right; left; simp [direct, hs]
    | true =>
      rcases access_ok cfg hcfg sid w v.store h1 (objOf e) b false hs with ⟨ha, -⟩ | ⟨a1, a2, a3, a4⟩
      · left
        simp only [wired]
        split <;> exact ha
      · right; right
        simp only [wired, direct, a1, if_true, hs, h2, Bool.and_self]
        exact ⟨⟨a2, rfl, a3.trans h3⟩, trivial⟩
  | pdo n =>
    right; right
    simp only [wired, direct, h3]
    exact ⟨⟨⟨h1.listens, h1.idle, h1.empty, h1.disabled, h1.one, h1.holds⟩, h2, rfl⟩, trivial⟩

/-- the two histories stay alike -/
def Agree (sid : Header) {α β : Type} (x : α × Ctx (Wire P) × β) (y : α × Ctx (Memory P) × β) : Prop :=
  Alike (fun w : Wire P => w.hung = true) (fun v : Memory P => v.fair = false) (Match sid) x y

theorem agree_act (cfg : Config) (hcfg : cfg.Legal) (sid : Header) (other : Bus P) (mem : Mem) (s : Storage) (a : Act) {c : Ctx (Wire P)}
    {c' : Ctx (Memory P)} (h : Twin (Match sid) c c') : Agree sid (stepWired cfg sid other mem s c a) (stepDirect cfg other mem s c' a) := by
  cases a with
  | use o =>
    have := alike_step (wired cfg sid other) (direct cfg other) (fun w : Wire P => w.hung = true) (fun v : Memory P => v.fair = false) (Match sid)
      (wired_write_hung cfg sid other) (direct_write_unfair cfg other) (match_read cfg hcfg sid other) (match_write cfg hcfg sid other) mem s o h
    unfold Agree Alike at *
    simp only [stepWired, stepDirect]
    grind
  | deviceChanges o v =>
    obtain ⟨⟨h1, h2, h3⟩, h4⟩ := h
    refine Or.inr (Or.inr ⟨rfl, ⟨⟨⟨h1.listens, h1.idle, h1.empty, h1.disabled, h1.one, ?_⟩, h2, h3⟩, h4⟩, rfl⟩)
    simp only [stepWired, stepDirect, h1.holds]

theorem hung_run (cfg : Config) (sid : Header) (other : Bus P) (mem : Mem) (as : List Act) (s : Storage) (c : Ctx (Wire P)) (h : c.w.hung = true) :
    (runWired cfg sid other mem s c as).2.1.w.hung = true := by
  induction as generalizing s c with
  | nil => exact h
  | cons a as ih =>
    refine ih _ _ ?_
    cases a with
    | use o =>
      exact keep_step (wired cfg sid other) (fun w : Wire P => w.hung = true) (wired_read_hung cfg sid other) (wired_write_hung cfg sid other) mem s c o h
    | deviceChanges o v => exact h

theorem unfair_run (cfg : Config) (other : Bus P) (mem : Mem) (as : List Act) (s : Storage) (c : Ctx (Memory P)) (h : c.w.fair = false) :
    (runDirect cfg other mem s c as).2.1.w.fair = false := by
  induction as generalizing s c with
  | nil => exact h
  | cons a as ih =>
    refine ih _ _ ?_
    cases a with
    | use o =>
      exact keep_step (direct cfg other) (fun w : Memory P => w.fair = false) (direct_read_unfair cfg other) (direct_write_unfair cfg other) mem s c o h
    | deviceChanges o v => exact h

theorem agree_run (cfg : Config) (hcfg : cfg.Legal) (sid : Header) (other : Bus P) (mem : Mem) (as : List Act) (s : Storage) {c : Ctx (Wire P)}
    {c' : Ctx (Memory P)} (h : Twin (Match sid) c c') : Agree sid (runWired cfg sid other mem s c as) (runDirect cfg other mem s c' as) := by
  induction as generalizing s c c' with
  | nil => exact Or.inr (Or.inr ⟨rfl, h, rfl⟩)
  | cons a as ih =>
    rcases agree_act cfg hcfg sid other mem s a h with h1 | h1 | ⟨h1, h2, h3⟩
    · exact Or.inl (hung_run cfg sid other mem as _ _ h1)
    · exact Or.inr (Or.inl (unfair_run cfg other mem as _ _ h1))
    · have := ih (stepDirect cfg other mem s c' a).1 h2
      unfold Agree Alike at *
      simp only [runWired, runDirect, h1, h3]
      grind

/-! ## one handle -/

section
variable (cfg : Config) (hcfg : cfg.Legal) (sid : Header) (o : Obj) (ty : Ty) (base : Obj → List Byte)

/-- the delegates of one object, for accesses of the right size -/
noncomputable def guarded {W : Type} (cfg : Config) (o : Obj) (ty : Ty) (bus : Bus W) : Bus W where
  read := fun d e b w => open Classical in
    if d = .dev ∧ objOf e = o ∧ (ty = .string → b = []) ∧ (ty ≠ .string → b.length = ty.size) then bus.read d e b w else (w, b, none)
  write := fun d e v w => open Classical in if d = .dev ∧ objOf e = o ∧ Transferable cfg ty v then bus.write d e v w else (w, none)

/-- delegates for PDOs that are not used -/
def noPdo : Bus Unit := { read := fun _ _ b w => (w, b, none), write := fun _ _ _ w => (w, none) }

/-- the device holds the value; its other objects are unchanged -/
def Holds (cfg : Config) (sid : Header) (o : Obj) (ty : Ty) (base : Obj → List Byte) (w : Wire Unit) (v : List Byte) : Prop :=
  Ready sid w (fun o' => if o' = o then v else base o') ∧ Transferable cfg ty v

include hcfg in
theorem holds_read (d : Dlg) (e : Entry) (b : List Byte) (w : Wire Unit) (v : List Byte) (h : Holds cfg sid o ty base w v) :
    ((guarded cfg o ty (wired cfg sid noPdo)).read d e b w).1.hung = true ∨ False ∨
      (Holds cfg sid o ty base ((guarded cfg o ty (wired cfg sid noPdo)).read d e b w).1 ((guarded cfg o ty goodBus).read d e b v).1 ∧
        ((guarded cfg o ty (wired cfg sid noPdo)).read d e b w).2 = ((guarded cfg o ty goodBus).read d e b v).2) := by
  simp only [guarded]
  by_cases hc : d = .dev ∧ objOf e = o ∧ (ty = .string → b = []) ∧ (ty ≠ .string → b.length = ty.size)
  · rw [if_pos hc, if_pos hc]
    obtain ⟨rfl, rfl, h1, h2⟩ := hc
    obtain ⟨g1, g2, g3, g4, g5⟩ := h
    have hs : supported cfg (fun o' => if o' = objOf e then v else base o') (objOf e) b true = true := by
      by_cases ht : ty = .string
      · simp [supported, g3, g4, h1 ht, g5 ht]
      · have := g2 ht
        simp [supported, h2 ht, this]
        omega
    rcases access_ok cfg hcfg sid w _ g1 (objOf e) b true hs with ⟨ha, -⟩ | ⟨a1, a2, a3, a4⟩
    · left
      simp only [wired]
      split <;> exact ha
    · right; right
      simp only [wired, goodBus, a1, if_true]
      exact ⟨⟨a2, g2, g3, g4, g5⟩, trivial⟩
  · rw [if_neg hc, if_neg hc]
    exact Or.inr (Or.inr ⟨h, rfl⟩)

include hcfg in
theorem holds_write (d : Dlg) (e : Entry) (b : List Byte) (w : Wire Unit) (v : List Byte) (h : Holds cfg sid o ty base w v) :
    ((guarded cfg o ty (wired cfg sid noPdo)).write d e b w).1.hung = true ∨ False ∨
      (Holds cfg sid o ty base ((guarded cfg o ty (wired cfg sid noPdo)).write d e b w).1 ((guarded cfg o ty goodBus).write d e b v).1 ∧
        ((guarded cfg o ty (wired cfg sid noPdo)).write d e b w).2 = ((guarded cfg o ty goodBus).write d e b v).2) := by
  simp only [guarded]
  by_cases hc : d = .dev ∧ objOf e = o ∧ Transferable cfg ty b
  · rw [if_pos hc, if_pos hc]
    obtain ⟨rfl, rfl, h1⟩ := hc
    obtain ⟨g1, g2⟩ := h
    have hs : supported cfg (fun o' => if o' = objOf e then v else base o') (objOf e) b false = true := by
      simp [supported, h1.2.1, h1.2.2.1]
    rcases access_ok cfg hcfg sid w _ g1 (objOf e) b false hs with ⟨ha, -⟩ | ⟨a1, a2, a3, a4⟩
    · left
      simp only [wired]
      split <;> exact ha
    · right; right
      simp only [wired, goodBus, a1, if_true]
      refine ⟨⟨?_, h1⟩, trivial⟩
      have : after (fun o' => if o' = objOf e then v else base o') (objOf e, b, false) = fun o' => if o' = objOf e then b else base o' := by
        funext o'
        simp only [after, Bool.false_eq_true, if_false]
        grind
      rw [← this]
      exact a2
  · rw [if_neg hc, if_neg hc]
    exact Or.inr (Or.inr ⟨h, rfl⟩)

theorem guarded_get {W : Type} (bus : Bus W) (d : Data) (cached : Bool) (c : Ctx W) (h1 : d.rd = .dev) (h2 : SizedFor d.ty d.buffer) :
    d.get (guarded cfg (objOf d.entry) d.ty bus) cached c = d.get bus cached c := by
  have ha := allocate_facts d
  have hb : (d.ty = .string → d.allocate.buffer = []) ∧ (d.ty ≠ .string → d.allocate.buffer.length = d.ty.size) := by
    constructor
    · intro h; simp [Data.allocate, h]
    · intro h
      have := h2 h
      unfold Data.allocate
      simp only [h, if_false]
      split
      · simp [Txt.resize, this]
      · exact this
  have : d.allocate.callRead (guarded cfg (objOf d.entry) d.ty bus) c = d.allocate.callRead bus c := by
    have he : objOf d.allocate.entry = objOf d.entry := by rw [allocate_entry]
    have hrd : d.allocate.rd = .dev := by rw [← h1]; unfold Data.allocate; grind
    unfold Data.callRead
    simp only [guarded, hrd, he]
    rw [if_pos ⟨trivial, trivial, hb.1, hb.2⟩]
  unfold Data.get
  rw [this]

theorem guarded_storeWrite {W : Type} (bus : Bus W) (d : Data) (v : List Byte) (c : Ctx W) (h1 : d.wr = .dev) (h2 : SizedFor d.ty d.buffer)
    (hv : Transferable cfg d.ty v) : d.storeWrite (guarded cfg (objOf d.entry) d.ty bus) c v = d.storeWrite bus c v := by
  unfold Data.storeWrite
  rw [store_sized h2 hv.1]
  simp only [Data.callWrite, guarded, h1]
  rw [if_pos ⟨rfl, rfl, hv⟩]

/-- what stays true of a handle over the bus -/
structure Handle (cfg : Config) (sid : Header) (e : Entry) (ty : Ty) (base : Obj → List Byte) (d : Data) (c : Ctx (Wire Unit)) (c' : Ctx (List Byte)) (s : ObjState) :
    Prop where
  entry : d.entry = e
  type : d.ty = ty
  rel : Rel d c' s
  twin : Twin (Holds cfg sid (objOf e) ty base) c c'

include hcfg in
theorem handle_step (e : Entry) (d : Data) (c : Ctx (Wire Unit)) (c' : Ctx (List Byte)) (s : ObjState) (h : Handle cfg sid e ty base d c c' s) (ev : ObjEvent)
    (hev : EventTransferable cfg ty ev) :
    (evWired cfg sid d c ev).2.1.w.hung = true ∨
    (Handle cfg sid e ty base (evWired cfg sid d c ev).1 (evWired cfg sid d c ev).2.1 (evStep d c' ev).2.1 (s.step (rightsOf d.entry) ev).1 ∧
      (evWired cfg sid d c ev).1 = (evStep d c' ev).1 ∧ (evWired cfg sid d c ev).2.2 = (evStep d c' ev).2.2) := by
  obtain ⟨rfl, rfl, hrel, htw⟩ := h
  have hs : EventSized d.ty ev := by
    cases ev with
    | set v => exact hev.1
    | setCached v => exact hev.1
    | deviceChanges v => exact hev.1
    | _ => trivial
  obtain ⟨r1, r2, r3, r4, r5⟩ := evStep_ok hrel ev hs
  have gr := holds_read cfg hcfg sid (objOf d.entry) d.ty base
  have gw := holds_write cfg hcfg sid (objOf d.entry) d.ty base
  have done : ∀ (x : Data × Ctx (Wire Unit) × Option HRes), (x.2.1.w.hung = true ∨ False ∨ (x.1 = (evStep d c' ev).1 ∧
      Twin (Holds cfg sid (objOf d.entry) d.ty base) x.2.1 (evStep d c' ev).2.1 ∧ x.2.2 = (evStep d c' ev).2.2)) →
      x.2.1.w.hung = true ∨ (Handle cfg sid d.entry d.ty base x.1 x.2.1 (evStep d c' ev).2.1 (s.step (rightsOf d.entry) ev).1 ∧
        x.1 = (evStep d c' ev).1 ∧ x.2.2 = (evStep d c' ev).2.2) := by
    intro x hx
    rcases hx with hx | hx | ⟨h1, h2, h3⟩
    · exact Or.inl hx
    · exact hx.elim
    · exact Or.inr ⟨⟨by rw [h1, r3], by rw [h1, r2], by rw [h1]; exact r1, h2⟩, h1, h3⟩
  have hget : ∀ cached, Alike (fun w : Wire Unit => w.hung = true) (fun _ => False) (Holds cfg sid (objOf d.entry) d.ty base)
      (d.get (wired cfg sid noPdo) cached c) (d.get goodBus cached c') := by
    intro cached
    rw [← guarded_get cfg (wired cfg sid noPdo) d cached c hrel.rd hrel.sized, ← guarded_get cfg goodBus d cached c' hrel.rd hrel.sized]
    exact alike_get _ _ _ _ _ gr cached d htw
  have hstore : ∀ v, Transferable cfg d.ty v → Alike (fun w : Wire Unit => w.hung = true) (fun _ => False) (Holds cfg sid (objOf d.entry) d.ty base)
      (d.storeWrite (wired cfg sid noPdo) c v) (d.storeWrite goodBus c' v) := by
    intro v hv
    rw [← guarded_storeWrite cfg (wired cfg sid noPdo) d v c hrel.wr hrel.sized hv, ← guarded_storeWrite cfg goodBus d v c' hrel.wr hrel.sized hv]
    exact alike_storeWrite _ _ _ _ _ gw d v htw
  cases ev with
  | get =>
    apply done
    have := hget false
    unfold Alike at this
    show (d.get (wired cfg sid noPdo) false c).2.1.w.hung = true ∨ False ∨ ((d.get (wired cfg sid noPdo) false c).1 = (d.get goodBus false c').1 ∧
      Twin _ (d.get (wired cfg sid noPdo) false c).2.1 (d.get goodBus false c').2.1 ∧
      some (HRes.value (d.get (wired cfg sid noPdo) false c).2.2) = some (.value (d.get goodBus false c').2.2))
    grind
  | getCached =>
    apply done
    have := hget true
    unfold Alike at this
    show (d.get (wired cfg sid noPdo) true c).2.1.w.hung = true ∨ False ∨ ((d.get (wired cfg sid noPdo) true c).1 = (d.get goodBus true c').1 ∧
      Twin _ (d.get (wired cfg sid noPdo) true c).2.1 (d.get goodBus true c').2.1 ∧
      some (HRes.value (d.get (wired cfg sid noPdo) true c).2.2) = some (.value (d.get goodBus true c').2.2))
    grind
  | set v =>
    apply done
    have hst := hstore v hev
    have : Alike (fun w : Wire Unit => w.hung = true) (fun _ => False) (Holds cfg sid (objOf d.entry) d.ty base)
        (d.set (wired cfg sid noPdo) v c) (d.set goodBus v c') := by
      unfold Alike at *
      unfold Data.set
      grind
    unfold Alike at this
    show (d.set (wired cfg sid noPdo) v c).2.1.w.hung = true ∨ False ∨ ((d.set (wired cfg sid noPdo) v c).1 = (d.set goodBus v c').1 ∧
      Twin _ (d.set (wired cfg sid noPdo) v c).2.1 (d.set goodBus v c').2.1 ∧
      some (HRes.unit (d.set (wired cfg sid noPdo) v c).2.2) = some (.unit (d.set goodBus v c').2.2))
    grind
  | setCached v =>
    apply done
    have hst := hstore v hev
    have : Alike (fun w : Wire Unit => w.hung = true) (fun _ => False) (Holds cfg sid (objOf d.entry) d.ty base)
        (d.setCached (wired cfg sid noPdo) v c) (d.setCached goodBus v c') := by
      unfold Alike at *
      unfold Data.setCached
      grind
    unfold Alike at this
    rcases this with h | h | ⟨h1, h2, h3⟩
    · exact Or.inl h
    · exact h.elim
    · refine Or.inr (Or.inr ⟨h1, h2, ?_⟩)
      show some (HRes.flag (match (d.setCached (wired cfg sid noPdo) v c).2.2 with | .ok _ => .ok true | .throws _ => .ok false | .ub => .ub)) =
        some (.flag (match (d.setCached goodBus v c').2.2 with | .ok _ => .ok true | .throws _ => .ok false | .ub => .ub))
      rw [h3]
  | deviceChanges v =>
    apply done
    obtain ⟨⟨g1, g2⟩, g3⟩ := htw
    refine Or.inr (Or.inr ⟨rfl, ⟨⟨⟨g1.listens, g1.idle, g1.empty, g1.disabled, g1.one, ?_⟩, hev⟩, g3⟩, rfl⟩)
    funext o'
    simp only [evWired, evStep, g1.holds]
    grind

theorem evWired_hung (d : Data) (c : Ctx (Wire Unit)) (ev : ObjEvent) (h : c.w.hung = true) : (evWired cfg sid d c ev).2.1.w.hung = true := by
  have kr := wired_read_hung cfg sid noPdo
  have kw := wired_write_hung cfg sid noPdo
  cases ev with
  | get => exact keep_get (wired cfg sid noPdo) (fun w : Wire Unit => w.hung = true) kr false d c h
  | getCached => exact keep_get (wired cfg sid noPdo) (fun w : Wire Unit => w.hung = true) kr true d c h
  | set v => exact keep_set (wired cfg sid noPdo) (fun w : Wire Unit => w.hung = true) kw v d c h
  | setCached v => exact keep_setCached (wired cfg sid noPdo) (fun w : Wire Unit => w.hung = true) kw v d c h
  | deviceChanges v => exact h

theorem evRunWired_hung (es : List ObjEvent) (d : Data) (c : Ctx (Wire Unit)) (h : c.w.hung = true) : (evRunWired cfg sid d c es).2.1.w.hung = true := by
  induction es generalizing d c with
  | nil => exact h
  | cons ev es ih => exact ih _ _ (evWired_hung cfg sid d c ev h)

include hcfg in
theorem handle_run (e : Entry) (es : List ObjEvent) (hev : ∀ ev ∈ es, EventTransferable cfg ty ev) (d : Data) (c : Ctx (Wire Unit)) (c' : Ctx (List Byte))
    (s : ObjState) (h : Handle cfg sid e ty base d c c' s) :
    (evRunWired cfg sid d c es).2.1.w.hung = true ∨
    ((∃ s', Handle cfg sid e ty base (evRunWired cfg sid d c es).1 (evRunWired cfg sid d c es).2.1 (evRun d c' es).2.1 s') ∧
      (evRunWired cfg sid d c es).2.2 = (evRun d c' es).2.2) := by
  induction es generalizing d c c' s with
  | nil => exact Or.inr ⟨⟨s, h⟩, rfl⟩
  | cons ev es ih =>
    rcases handle_step cfg hcfg sid ty base e d c c' s h ev (hev ev (by simp)) with h1 | ⟨h1, h2, h3⟩
    · exact Or.inl (evRunWired_hung cfg sid es _ _ h1)
    · have := ih (fun x hx => hev x (by simp [hx])) _ _ _ _ h1
      rcases this with h4 | ⟨h4, h5⟩
      · exact Or.inl h4
      · right
        rw [h2] at h4 h5
        simp only [evRunWired, evRun]
        rw [h2, h3]
        exact ⟨h4, by rw [h5]⟩

end

end Verif.Spec.Wire
