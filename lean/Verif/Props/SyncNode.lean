import Verif.Spec.SyncNode
import Verif.Lemmas.SyncNode
import Verif.Lemmas.Settings
import Verif.Props.Master

/-!
# C97: the programs that produce SYNC
-/

set_option linter.unusedSimpArgs false

namespace Verif.Props
open Verif Verif.Lay Verif.SyncN Verif.Spec.SyncN Verif.Spec.Master

private def jk : Vector Byte 8 := Vector.replicate 8 0

/-! ## Configuration -/

/-- C97.  The node starts exactly if there is a positive interval, a device, and an overflow that is neither 1 nor more than 240; the nodes it cares for
are those given as monitored, or else all but those given as ignored.  Identifier, period and counter are the given ones (0x80 and no counter without), if
the period fits into 16 bits and the overflow is not negative. -/
theorem C97_node (p : Params) (junk : Vector Byte 8) :
    ((configure p junk).isSome = true ↔ (∃ ms, p.interval = some ms ∧ 0 < ms) ∧ (∃ d, p.device = some d) ∧ p.overflow.getD 0 ≠ 1 ∧ p.overflow.getD 0 ≤ 240) ∧
    ∀ c, configure p junk = some c →
      (∀ m, p.monitored = some m → c.monitored = m ∧ c.ignored = []) ∧
      (p.monitored = none → ∀ i, p.ignored = some i → c.monitored = [] ∧ c.ignored = i) ∧
      (p.monitored = none → p.ignored = none → p.heartbeat = none → c.monitored = [] ∧ c.ignored = []) ∧
      (∀ ms, p.interval = some ms → ms < 65536 → (c.props.period.toNat : Int) = ms) ∧
      (0 ≤ p.overflow.getD 0 → (c.props.overflow.toNat : Int) = p.overflow.getD 0) ∧
      (0 ≤ p.syncId.getD 0x80 → p.syncId.getD 0x80 < 2048 →
        (c.props.header.id.toNat : Int) = p.syncId.getD 0x80 ∧ c.props.header.isExtended = false ∧ c.props.header.isRtr = false ∧ c.props.header.isError = false) := by
  unfold configure
  cases hi : p.interval with
  | none => simp
  | some ms =>
    dsimp only
    by_cases h1 : ms ≤ 0
    · rw [if_pos h1]
      refine ⟨⟨(fun h => nomatch h), ?_⟩, (fun c h => nomatch h)⟩
      rintro ⟨⟨m, hm, hp⟩, -⟩
      cases hm
      omega
    · rw [if_neg h1]
      by_cases h2 : p.overflow.getD 0 = 1 ∨ p.overflow.getD 0 > 240
      · rw [if_pos h2]
        refine ⟨⟨(fun h => nomatch h), ?_⟩, (fun c h => nomatch h)⟩
        rintro ⟨-, -, h3, h4⟩
        omega
      · rw [if_neg h2]
        cases hd : p.device with
        | none => simp
        | some d =>
          simp only [Option.isNone_some, Bool.false_eq_true, if_false, Option.isSome_some, true_iff]
          refine ⟨⟨⟨ms, rfl, by omega⟩, ⟨d, rfl⟩, by omega, by omega⟩, ?_⟩
          intro c hc
          cases hc
          unfold nodeSets
          refine ⟨?_, ?_, ?_, ?_, ?_, ?_⟩
          · intro m hm; rw [hm]; exact ⟨rfl, rfl⟩
          · intro hm i hi; rw [hm, hi]; exact ⟨rfl, rfl⟩
          · intro hm hi hh; rw [hm, hi, hh]; exact ⟨rfl, rfl⟩
          · intro ms' hms hlt
            cases hms
            simp only [props, BitVec.toNat_ofInt]
            omega
          · intro ho
            simp only [props, BitVec.toNat_ofInt]
            omega
          · intro h0 hlt
            refine ⟨?_, rfl, rfl, rfl⟩
            simp only [props, Header.msg, Header.mk', BitVec.toNat_setWidth, BitVec.toNat_ofInt]
            omega

private def p97 : Params :=
  { interval := some 10, overflow := some 3, device := some "can0".toList, syncId := none, monitored := none, heartbeat := some "77f#05".toList, ignored := none }

example : (configure p97 jk).isSome = true := rfl

/-- C97, the node's own heartbeat: if it is a heartbeat message of node `k`, node `k` does not start SYNC. -/
theorem C97_own_heartbeat_partial (p : Params) (junk : Vector Byte 8) (c : Config) (hc : configure p junk = some c) (hm : p.monitored = none)
    (hi : p.ignored = none) (msg : Text) (hh : p.heartbeat = some msg) (k : Nat) (hk : k < 128) (hf : (Txt.toframe junk msg).isValid = true)
    (hid : (Txt.toframe junk msg).id.toNat = 0x700 + k) : ¬ Cares c k := by
  have hs : c.ignored = (nodeSets p junk).2 := by
    unfold configure at hc
    cases hi : p.interval with
    | none => rw [hi] at hc; cases hc
    | some ms =>
      rw [hi] at hc
      dsimp only at hc
      split at hc
      · cases hc
      · split at hc
        · cases hc
        · split at hc
          · cases hc
          · cases hc; rfl
  have hid' : (Txt.toframe junk msg).id = BitVec.ofNat 29 (0x700 + k) := by
    apply BitVec.eq_of_toNat_eq
    rw [hid, BitVec.toNat_ofNat, Nat.mod_eq_of_lt (by omega)]
  have hbits : ∀ k : Fin 128, BitVec.ofNat 29 (0x700 + k.val) &&& ~~~ (127 : BitVec 29) = 0x700 ∧ (BitVec.ofNat 29 (0x700 + k.val) &&& 127).toNat = k.val := by decide +kernel
  obtain ⟨b1, b2⟩ := hbits ⟨k, hk⟩
  dsimp only at b1 b2
  intro h
  apply h.1
  rw [hs]
  unfold nodeSets
  rw [hm, hi, hh]
  dsimp only
  rw [hid', if_pos ⟨hf, b1⟩, b2]
  simp

example : ∃ c, configure p97 jk = some c ∧ (Txt.toframe jk "77f#05".toList).isValid = true ∧ (Txt.toframe jk "77f#05".toList).id.toNat = 0x700 + 127 ∧ Cares c 5 := by
  refine ⟨_, rfl, by decide +kernel, by decide +kernel, ?_, .inl rfl⟩
  show (5 : Int) ∉ (nodeSets p97 jk).2
  decide +kernel

/-- C97 fails: with a list of ignored nodes the node's own heartbeat is not ignored any more. -/
theorem C97_own_heartbeat_false : ∃ (p : Params) (c : Config) (k : Nat) (msg : Text), configure p jk = some c ∧ p.heartbeat = some msg ∧
    (Txt.toframe jk msg).isValid = true ∧ (Txt.toframe jk msg).id.toNat = 0x700 + k ∧ k < 128 ∧ p.monitored = none ∧ p.ignored = some [5] ∧ Cares c k := by
  refine ⟨{ p97 with ignored := some [5] }, _, 127, "77f#05".toList, rfl, rfl, by decide +kernel, by decide +kernel, by decide, rfl, rfl, ?_, .inl rfl⟩
  show (127 : Int) ∉ [5]
  decide

private theorem canId_facts (h : Header) : (Bcm.canId h).toNat % 2 ^ 31 = h.id.toNat ∧ ((Bcm.canId h).toNat / 2 ^ 31 = 1 ↔ h.isExtended = true) := by
  have hlt : h.id.toNat < 2 ^ 29 := h.id.isLt
  have hw : (h.id.setWidth 32).toNat = h.id.toNat := by
    rw [BitVec.toNat_setWidth, Nat.mod_eq_of_lt (by omega)]
  unfold Bcm.canId
  cases h.isExtended with
  | false =>
    have e : h.id.setWidth 32 ||| (if false = true then 0x80000000#32 else 0) = h.id.setWidth 32 := by simp
    rw [e, hw]
    refine ⟨Nat.mod_eq_of_lt (by omega), ?_⟩
    rw [Nat.div_eq_of_lt (by omega)]
    simp
  | true =>
    have e : (h.id.setWidth 32 ||| (if true = true then 0x80000000#32 else 0)).toNat = h.id.toNat + 2 ^ 31 := by
      rw [if_pos rfl]
      have : h.id.setWidth 32 ||| 0x80000000#32 = h.id.setWidth 32 + 0x80000000#32 := by
        symm
        apply BitVec.add_eq_or_of_and_eq_zero
        apply BitVec.eq_of_getLsbD_eq
        intro i hi
        simp only [BitVec.getLsbD_and, BitVec.getLsbD_setWidth, BitVec.getLsbD_zero]
        by_cases hi' : i < 29
        · have : (0x80000000#32).getLsbD i = false := by
            have hall : ∀ i : Fin 29, (0x80000000#32).getLsbD i.val = false := by decide
            exact hall ⟨i, hi'⟩
          simp [this]
        · rw [BitVec.getLsbD_of_ge h.id i (by omega)]; simp
      rw [this, BitVec.toNat_add, hw]
      have : (0x80000000#32).toNat = 2 ^ 31 := by decide
      rw [this, Nat.mod_eq_of_lt (by omega)]
    rw [e]
    refine ⟨by rw [Nat.add_mod_right]; exact Nat.mod_eq_of_lt (by omega), ?_⟩
    rw [Nat.add_div_right _ (by omega), Nat.div_eq_of_lt (by omega)]
    simp

/-- C97 (missing: intervals beyond 65535 ms and negative overflows, `C97_interval_false`, `C97_overflow_false`).  The job given to the kernel has the
configured identifier, period and counters. -/
theorem C97_job_partial (h : Header) (ms o : Nat) (junk : Vector Byte 8) (m i : List Int) (hms : ms < 65536) (ho : o ≤ 240) :
    IsJob h ms o (Bcm.txSetup (props h ms o).period.toNat h (Config.create ⟨props h ms o, m, i⟩ junk).syncFrames) := by
  have hp : (props h ms o).period.toNat = ms := by
    simp only [props, BitVec.ofInt_natCast, BitVec.toNat_ofNat]
    exact Nat.mod_eq_of_lt hms
  have hov : (props h ms o).overflow.toNat = o := by
    simp only [props, BitVec.ofInt_natCast, BitVec.toNat_ofNat]
    exact Nat.mod_eq_of_lt (by omega)
  refine ⟨canId_facts h, ?_, ?_⟩
  · simp only [Bcm.txSetup, hp]
    omega
  · have hf := C48_frames (props h ms o) junk (m.map nodeNo) (i.map nodeNo)
    have e : (Bcm.txSetup (props h ms o).period.toNat h (Config.create ⟨props h ms o, m, i⟩ junk).syncFrames).frames =
      if (props h ms o).overflow = 0 then [(0, [])] else (List.range (props h ms o).overflow.toNat).map fun i => (1, [BitVec.ofNat 8 (i + 1)]) := hf
    rw [e, hov]
    split
    · rename_i h0
      rw [if_pos]
      apply BitVec.eq_of_toNat_eq
      rw [hov, h0]; rfl
    · rename_i h0
      rw [if_neg (by intro hz; rw [hz] at hov; exact h0 hov.symm)]
      refine ⟨by simp, ?_⟩
      intro i hi
      simp only [List.length_map, List.length_range] at hi
      refine ⟨BitVec.ofNat 8 (i + 1), by simp, ?_⟩
      rw [BitVec.toNat_ofNat, Nat.mod_eq_of_lt (by omega)]

example : (10 : Nat) < 65536 ∧ (3 : Nat) ≤ 240 ∧ ∃ c, configure p97 jk = some c ∧ c.props.period = 10 ∧ c.props.overflow = 3 ∧ c.props.header.id = 0x80 := ⟨by decide, by decide, _, rfl, rfl, rfl, rfl⟩

/-- C97 fails: an interval of 65536 ms is accepted and becomes none. -/
theorem C97_interval_false : ∃ (p : Params) (c : Config), p.interval = some 65536 ∧ configure p jk = some c ∧ c.props.period = 0 :=
  ⟨{ p97 with interval := some 65536 }, _, rfl, rfl, rfl⟩

/-- C97 fails: a negative overflow is accepted and becomes one that is out of range. -/
theorem C97_overflow_false : ∃ (p : Params) (c : Config), p.overflow = some (-1) ∧ configure p jk = some c ∧ c.props.overflow.toNat = 255 :=
  ⟨{ p97 with overflow := some (-1) }, _, rfl, rfl, rfl⟩

/-- C97 fails: a SYNC identifier that is no standard identifier is accepted. -/
theorem C97_identifier_false : ∃ (p : Params) (c : Config), configure p jk = some c ∧ c.props.header.isValid = false :=
  ⟨{ p97 with syncId := some 0x800 }, _, rfl, rfl⟩

/-! ## The command line -/

private theorem digits_val (s : Text) (a : Nat) (h : ∀ c ∈ s, c.isDigit = true) : digits s a = Cfg.val a s := by
  induction s generalizing a with
  | nil => rfl
  | cons c s ih =>
    simp only [digits, h c (by simp), if_true]
    rw [ih _ (fun d hd => h d (by simp [hd]))]
    rfl

private theorem digits_toString (n : Nat) : digits (toString n).toList 0 = n := by
  rw [Cfg.toString_toList, digits_val _ _ (Cfg.toDigits_val n).2.1, (Cfg.toDigits_val n).1]

private theorem head_digit (n : Nat) : ∃ c t, (toString n).toList = c :: t ∧ c.isDigit = true := by
  rw [Cfg.toString_toList]
  obtain ⟨-, h2, h3⟩ := Cfg.toDigits_val n
  cases h : Nat.toDigits 10 n with
  | nil => exact absurd h h3
  | cons c t => exact ⟨c, t, rfl, h2 c (by simp [h])⟩

private theorem digit_not (c : Char) (h : c.isDigit = true) : Txt.isSpace c = false ∧ c ≠ '-' ∧ c ≠ '+' := by
  have h1 : 48 ≤ c.toNat ∧ c.toNat ≤ 57 := by
    simp only [Char.isDigit, Bool.and_eq_true, decide_eq_true_eq] at h
    exact ⟨h.1, h.2⟩
  have hne : ∀ d : Char, d.toNat < 48 → c ≠ d := by
    rintro d hd rfl; omega
  refine ⟨?_, hne _ (by decide), hne _ (by decide)⟩
  simp only [Txt.isSpace, Bool.or_eq_false_iff, decide_eq_false_iff_not]
  exact ⟨⟨⟨⟨⟨hne _ (by decide), hne _ (by decide)⟩, hne _ (by decide)⟩, by omega⟩, by omega⟩, hne _ (by decide)⟩

private theorem atoi_nat (n : Nat) (h : n ≤ 2147483647) : atoi (toString n).toList = some (n : Int) := by
  obtain ⟨c, t, e, hc⟩ := head_digit n
  obtain ⟨h1, h2, h3⟩ := digit_not c hc
  have hd : (toString n).toList.dropWhile Txt.isSpace = (toString n).toList := by rw [e]; simp [List.dropWhile, h1]
  have hs : Txt.takeSign (toString n).toList = (false, (toString n).toList) := by
    rw [e]
    unfold Txt.takeSign
    split
    · rename_i he; injection he with he _; exact absurd he h2
    · rename_i he; injection he with he _; exact absurd he h3
    · rfl
  unfold atoi
  rw [hd, hs]
  dsimp only
  rw [digits_toString]
  simp only [Bool.false_eq_true, if_false]
  rw [if_pos (by omega)]

private theorem atoi_id (q : Bool × Nat) (h : q.2 ≤ 2147483647) : atoi (idArg q) = some (if q.1 then (q.2 : Int) else -(q.2 : Int)) := by
  obtain ⟨b, n⟩ := q
  cases b with
  | true =>
    have hd : (idArg (true, n)).dropWhile Txt.isSpace = '+' :: (toString n).toList := rfl
    have hs : Txt.takeSign ('+' :: (toString n).toList) = (false, (toString n).toList) := rfl
    unfold atoi
    rw [hd, hs]
    dsimp only
    rw [digits_toString]
    simp only [Bool.false_eq_true, if_false, if_true]
    dsimp only at h
    rw [if_pos (by omega)]
  | false =>
    have hd : (idArg (false, n)).dropWhile Txt.isSpace = '-' :: (toString n).toList := rfl
    have hs : Txt.takeSign ('-' :: (toString n).toList) = (true, (toString n).toList) := rfl
    unfold atoi
    rw [hd, hs]
    dsimp only
    rw [digits_toString]
    simp only [Bool.false_eq_true, if_false, if_true]
    dsimp only at h
    rw [if_pos (by omega)]

private theorem idArg_dashes (q : Bool × Nat) : (idArg q).take 2 ≠ ['-', '-'] := by
  obtain ⟨b, n⟩ := q
  obtain ⟨c, t, e, hc⟩ := head_digit n
  obtain ⟨-, h2, -⟩ := digit_not c hc
  intro h
  simp only [idArg, e, List.take_succ_cons, List.take_zero, List.cons.injEq] at h
  exact h2 h.2.1

private theorem overflowArg_id (q : Bool × Nat) (rest : List Text) : overflowArg (idArg q :: rest) = some (some (0, idArg q :: rest)) := by
  obtain ⟨b, n⟩ := q
  unfold overflowArg
  dsimp only
  rw [if_neg]
  cases b <;> simp [idArg]

private theorem overflowArg_ids (qs : List (Bool × Nat)) (q : Bool × Nat) (rest : List Text) :
    overflowArg (qs.map idArg ++ idArg q :: rest) = some (some (0, qs.map idArg ++ idArg q :: rest)) := by
  cases qs with
  | nil => exact overflowArg_id q rest
  | cons q' qs => exact overflowArg_id q' _

private theorem ids_ok (qs : List (Bool × Nat)) (hq : ∀ q ∈ qs, 0 < q.2 ∧ q.2 < 128) (rest : List Text) (hr : ∀ a as, rest = a :: as → a.take 2 = ['-', '-']) (m i : List Int) :
    ids (qs.map idArg ++ rest) m i =
      some (some (m ++ (qs.filter (·.1)).map (fun q => (q.2 : Int)), i ++ (qs.filter (!·.1)).map (fun q => (q.2 : Int)))) := by
  induction qs generalizing m i with
  | nil =>
    cases rest with
    | nil => simp [ids]
    | cons a as => simp [ids, hr a as rfl]
  | cons q qs ih =>
    obtain ⟨h1, h2⟩ := hq q (by simp)
    have ih' := ih (fun q h => hq q (by simp [h]))
    simp only [List.map_cons, List.cons_append, ids, if_neg (idArg_dashes q), atoi_id q (by omega)]
    obtain ⟨b, n⟩ := q
    dsimp only at h1 h2 ⊢
    cases b with
    | true =>
      simp only [if_true]
      rw [if_pos (by omega), ih']
      simp
    | false =>
      simp only [Bool.false_eq_true, if_false]
      rw [if_neg (by omega), if_pos (by omega), ih']
      simp

/-- C97.  The tool takes its arguments as they are meant: device, period, header, an optional overflow, then the nodes, up to the end or to an argument
that begins with two dashes. -/
theorem C97_tool (device header : Text) (ms : Nat) (overflow : Option Nat) (qs : List (Bool × Nat)) (rest : List Text)
    (hh : (Txt.toheader header).isValid = true) (hms : ms < 65536) (ho : ∀ o, overflow = some o → o ≠ 1 ∧ o ≤ 240) (hq : ∀ q ∈ qs, 0 < q.2 ∧ q.2 < 128)
    (hr : ∀ a as, rest = a :: as → a.take 2 = ['-', '-']) :
    ∃ c, parseArgs (device :: (toString ms).toList :: header :: ((overflow.map fun o => (toString o).toList).toList ++ (qs.map idArg ++ rest))) = .ok device c ∧
      c.props = props (Txt.toheader header) ms (overflow.getD 0) ∧
      (∀ k : Nat, Cares c k ↔ (false, k) ∉ qs ∧ ((∀ q ∈ qs, q.1 = false) ∨ (true, k) ∈ qs)) := by
  have hov : overflowArg ((overflow.map fun o => (toString o).toList).toList ++ (qs.map idArg ++ rest)) = some (some (((overflow.getD 0 : Nat) : Int), qs.map idArg ++ rest)) := by
    cases overflow with
    | none =>
      simp only [Option.map_none, Option.toList_none, List.nil_append, Option.getD_none]
      cases qs with
      | nil =>
        cases rest with
        | nil => rfl
        | cons a as =>
          have := hr a as rfl
          cases a with
          | nil => simp at this
          | cons x a =>
            simp only [List.take_succ_cons, List.cons.injEq] at this
            simp [overflowArg, this.1]
      | cons q qs =>
        exact overflowArg_id q _
    | some o =>
      obtain ⟨h1, h2⟩ := ho o rfl
      simp only [Option.map_some, Option.toList_some, List.cons_append, List.nil_append, Option.getD_some, overflowArg]
      obtain ⟨c, t, e, hc⟩ := head_digit o
      obtain ⟨-, d2, d3⟩ := digit_not c hc
      rw [if_pos (by rw [e]; simp [d2, d3]), atoi_nat o (by omega)]
      dsimp only
      rw [if_neg (by omega)]
  refine ⟨{ props := props (Txt.toheader header) ms (overflow.getD 0 : Nat), monitored := (qs.filter (·.1)).map (fun q => (q.2 : Int)),
            ignored := (qs.filter (!·.1)).map (fun q => (q.2 : Int)) }, ?_, ?_, ?_⟩
  · simp only [parseArgs, atoi_nat ms (by omega), hh, Bool.not_true, Bool.false_eq_true, if_false, hov, ids_ok qs hq rest hr, List.nil_append]
  · rfl
  · intro k
    have h1 : (k : Int) ∈ (qs.filter (!·.1)).map (fun q => (q.2 : Int)) ↔ (false, k) ∈ qs := by
      simp only [List.mem_map, List.mem_filter]
      constructor
      · rintro ⟨⟨b, n⟩, ⟨h1, h2⟩, h3⟩
        have : n = k := by exact_mod_cast h3
        cases b
        · rwa [this] at h1
        · cases h2
      · intro h; exact ⟨_, ⟨h, rfl⟩, rfl⟩
    have h2 : (k : Int) ∈ (qs.filter (·.1)).map (fun q => (q.2 : Int)) ↔ (true, k) ∈ qs := by
      simp only [List.mem_map, List.mem_filter]
      constructor
      · rintro ⟨⟨b, n⟩, ⟨h1, h2⟩, h3⟩
        have : n = k := by exact_mod_cast h3
        cases b
        · cases h2
        · rwa [this] at h1
      · intro h; exact ⟨_, ⟨h, rfl⟩, rfl⟩
    have h3 : (qs.filter (·.1)).map (fun q => (q.2 : Int)) = [] ↔ ∀ q ∈ qs, q.1 = false := by
      rw [List.map_eq_nil_iff, List.filter_eq_nil_iff]
      simp
    unfold Cares
    dsimp only
    rw [h1, h2, h3]

example : (∀ q ∈ [(true, 5), (false, 7)], 0 < q.2 ∧ q.2 < 128) ∧ (Txt.toheader "80".toList).isValid = true ∧
    ["can0".toList, (toString 10).toList, "80".toList, (toString 3).toList, "+5".toList, "-7".toList, "--x".toList] =
      "can0".toList :: (toString 10).toList :: "80".toList :: (((some 3).map fun o => (toString o).toList).toList ++ ([(true, 5), (false, 7)].map idArg ++ ["--x".toList])) := by
  refine ⟨by decide, by decide +kernel, by decide +kernel⟩

private theorem ids_bad (qs : List (Bool × Nat)) (hq : ∀ q ∈ qs, 0 < q.2 ∧ q.2 < 128) (b : Bool) (n : Nat) (hn : n = 0 ∨ 128 ≤ n) (hn' : n ≤ 2147483647)
    (rest : List Text) (m i : List Int) : ids (qs.map idArg ++ idArg (b, n) :: rest) m i = some none := by
  induction qs generalizing m i with
  | nil =>
    simp only [List.map_nil, List.nil_append, ids, if_neg (idArg_dashes (b, n)), atoi_id (b, n) hn']
    cases b with
    | true => simp only [if_true]; rw [if_neg (by omega), if_neg (by omega)]
    | false => simp only [Bool.false_eq_true, if_false]; rw [if_neg (by omega), if_neg (by omega)]
  | cons q qs ih =>
    obtain ⟨h1, h2⟩ := hq q (by simp)
    have ih' := ih (fun q h => hq q (by simp [h]))
    simp only [List.map_cons, List.cons_append, ids, if_neg (idArg_dashes q), atoi_id q (by omega)]
    obtain ⟨b', n'⟩ := q
    dsimp only at h1 h2 ⊢
    cases b' with
    | true => simp only [if_true]; rw [if_pos (by omega), ih']
    | false => simp only [Bool.false_eq_true, if_false]; rw [if_neg (by omega), if_pos (by omega), ih']

/-- C97.  A node number out of range is refused wherever it stands among good ones; so is an overflow of 1 or above 240, and a header that is not valid. -/
theorem C97_tool_refuses (device header : Text) (ms n : Nat) (b : Bool) (qs : List (Bool × Nat)) (rest : List Text) (hms : ms < 65536)
    (hq : ∀ q ∈ qs, 0 < q.2 ∧ q.2 < 128) (hn' : n ≤ 2147483647) :
    ((n = 0 ∨ 128 ≤ n) → parseArgs (device :: (toString ms).toList :: header :: (qs.map idArg ++ idArg (b, n) :: rest)) = .refused) ∧
    ((n = 1 ∨ 240 < n) → parseArgs (device :: (toString ms).toList :: header :: (toString n).toList :: rest) = .refused) ∧
    ((Txt.toheader header).isValid = false → parseArgs (device :: (toString ms).toList :: header :: rest) = .refused) := by
  simp only [parseArgs, atoi_nat ms (by omega)]
  refine ⟨fun hn => ?_, fun hn => ?_, fun hh => ?_⟩
  · split
    · rfl
    · rw [overflowArg_ids]
      dsimp only
      rw [ids_bad qs hq b n hn hn']
  · split
    · rfl
    · obtain ⟨c, t, e, hc⟩ := head_digit n
      obtain ⟨-, d2, d3⟩ := digit_not c hc
      have : overflowArg ((toString n).toList :: rest) = some none := by
        simp only [overflowArg]
        rw [if_pos (by rw [e]; simp [d2, d3]), atoi_nat n hn']
        dsimp only
        rw [if_pos (by omega)]
      rw [this]
  · rw [hh]; rfl

example : ((128 : Nat) = 0 ∨ 128 ≤ 128) ∧ ((241 : Nat) = 1 ∨ 240 < 241) ∧ (Txt.toheader "800".toList).isValid = false ∧ ∀ q ∈ [(true, 5), (false, 7)], 0 < q.2 ∧ q.2 < 128 := by
  decide +kernel

/-- C97, undefined behaviour: among good arguments a node number is beyond what the language defines exactly if it is no `int`, that is above 2147483647 or
below -2147483648. -/
theorem C97_tool_ub (device header : Text) (ms n : Nat) (b : Bool) (qs : List (Bool × Nat)) (rest : List Text) (hh : (Txt.toheader header).isValid = true)
    (hms : ms < 65536) (hq : ∀ q ∈ qs, 0 < q.2 ∧ q.2 < 128) (hn : n = 0 ∨ 128 ≤ n) :
    (parseArgs (device :: (toString ms).toList :: header :: (qs.map idArg ++ idArg (b, n) :: rest)) = .ub ↔
      (if b then 2147483647 < n else 2147483648 < n)) := by
  have key : ∀ (qs : List (Bool × Nat)) (m i : List Int), (∀ q ∈ qs, 0 < q.2 ∧ q.2 < 128) →
      ids (qs.map idArg ++ idArg (b, n) :: rest) m i = if (if b then 2147483647 < n else 2147483648 < n) then none else some none := by
    intro qs
    induction qs with
    | nil =>
      intro m i _
      simp only [List.map_nil, List.nil_append, ids, if_neg (idArg_dashes (b, n))]
      cases b with
      | true =>
        have hd : (idArg (true, n)).dropWhile Txt.isSpace = '+' :: (toString n).toList := rfl
        have hs : Txt.takeSign ('+' :: (toString n).toList) = (false, (toString n).toList) := rfl
        unfold atoi
        rw [hd, hs]
        dsimp only
        rw [digits_toString]
        simp only [Bool.false_eq_true, if_false, if_true]
        by_cases h : 2147483647 < n
        · rw [if_neg (by omega), if_pos h]
        · rw [if_pos (by omega), if_neg h]
          dsimp only
          rw [if_neg (by omega), if_neg (by omega)]
      | false =>
        have hd : (idArg (false, n)).dropWhile Txt.isSpace = '-' :: (toString n).toList := rfl
        have hs : Txt.takeSign ('-' :: (toString n).toList) = (true, (toString n).toList) := rfl
        unfold atoi
        rw [hd, hs]
        dsimp only
        rw [digits_toString]
        simp only [Bool.false_eq_true, if_false, if_true]
        by_cases h : 2147483648 < n
        · rw [if_neg (by omega), if_pos h]
        · rw [if_pos (by omega), if_neg h]
          dsimp only
          rw [if_neg (by omega), if_neg (by omega)]
    | cons q qs ih =>
      intro m i hq
      obtain ⟨h1, h2⟩ := hq q (by simp)
      have ih' := fun m i => ih m i (fun q h => hq q (by simp [h]))
      simp only [List.map_cons, List.cons_append, ids, if_neg (idArg_dashes q), atoi_id q (by omega)]
      obtain ⟨b', n'⟩ := q
      dsimp only at h1 h2 ⊢
      cases b' with
      | true => simp only [if_true]; rw [if_pos (by omega), ih']
      | false => simp only [Bool.false_eq_true, if_false]; rw [if_neg (by omega), if_pos (by omega), ih']
  simp only [parseArgs, atoi_nat ms (by omega), hh, Bool.not_true, Bool.false_eq_true, if_false, overflowArg_ids]
  rw [key qs [] [] hq]
  by_cases h : (if b then 2147483647 < n else 2147483648 < n)
  · rw [if_pos h]; simp [h]
  · rw [if_neg h]; simp [h]

example : (Txt.toheader "80".toList).isValid = true ∧ (10 : Nat) < 65536 ∧ (∀ q ∈ [(true, 5), (false, 7)], 0 < q.2 ∧ q.2 < 128) ∧
    ((2147483648 : Nat) = 0 ∨ 128 ≤ 2147483648) ∧ idArg (false, 2147483648) = "-2147483648".toList := by
  refine ⟨by decide +kernel, by decide, by decide, by decide, by decide +kernel⟩

/-- C97 fails: the tool accepts a period that is negative or no number; SYNC is then sent with a period of 65531 ms or without a pause. -/
theorem C97_tool_period_false :
    (∃ c, parseArgs ["can0".toList, "-5".toList, "80".toList] = .ok "can0".toList c ∧ c.props.period.toNat = 65531) ∧
    (∃ c, parseArgs ["can0".toList, "fast".toList, "80".toList] = .ok "can0".toList c ∧ c.props.period.toNat = 0) :=
  ⟨⟨_, rfl, by decide⟩, ⟨_, rfl, by decide⟩⟩

/-! ## The node at work -/

private theorem shape_allIn (s : LayerState) (t0 t1 : List Method) (b : Bcm.State) : AllIn s ⟨shape s t0 t1, b⟩ := ⟨_, _, rfl, rfl, rfl⟩

/-- the settings of a SYNC layer, and that it runs no other job than the configured one -/
private structure Keeps (b0 b : Bcm.State) : Prop where
  same : b.ignored = b0.ignored ∧ b.monitored = b0.monitored ∧ b.header = b0.header ∧ b.syncFrames = b0.syncFrames ∧ b.period = b0.period
  job : ∀ j, b.job = some j → j = Bcm.txSetup b0.period b0.header b0.syncFrames

private theorem keeps_toggle {b0 b : Bcm.State} (h : Keeps b0 b) (ok : Bool) : Keeps b0 (b.toggle ok) := by
  obtain ⟨⟨h1, h2, h3, h4, h5⟩, h6⟩ := h
  unfold Bcm.State.toggle Bcm.State.stopTX Bcm.State.startTX
  dsimp only
  repeat' split
  all_goals (refine ⟨⟨h1, h2, h3, h4, h5⟩, ?_⟩)
  all_goals first
    | exact h6
    | (intro j hj; cases hj)
  all_goals simp only [h3, h4, h5]

private theorem keeps_frame {b0 b : Bcm.State} (h : Keeps b0 b) (f : Frame) (ok : Bool) : Keeps b0 (b.step (.frame f ok)) := by
  unfold Bcm.State.step Bcm.State.handleFrame
  dsimp only
  repeat' split
  all_goals first
    | exact h
    | (apply keeps_toggle; exact ⟨h.same, h.job⟩)

private theorem keeps_feed {b0 : Bcm.State} (fs : List (Frame × Bool)) : ∀ {b : Bcm.State}, Keeps b0 b → Keeps b0 (feed fs b) := by
  induction fs with
  | nil => intro b h; exact h
  | cons q fs ih => intro b h; exact ih (keeps_frame h q.1 q.2)

private theorem keeps_init {b0 b : Bcm.State} (h : Keeps b0 b) (x y : Bool) : Keeps b0 (b.handleInit x y) := by
  unfold Bcm.State.handleInit
  dsimp only
  repeat' split
  all_goals exact ⟨h.same, by intro j hj; cases hj⟩

private theorem keeps_shutdown {b0 b : Bcm.State} (h : Keeps b0 b) : Keeps b0 b.handleShutdown := ⟨h.same, by intro j hj; cases hj⟩

private theorem keeps_halt {b0 b : Bcm.State} (h : Keeps b0 b) : Keeps b0 b.handleHalt := by
  unfold Bcm.State.handleHalt Bcm.State.stopTX
  dsimp only
  repeat' split
  all_goals first
    | exact h
    | exact ⟨h.same, by intro j hj; cases hj⟩
    | exact ⟨h.same, h.job⟩

/-- the invariant of the node -/
private structure NInv (b0 : Bcm.State) (n : Node) : Prop where
  st : ∃ s t0 t1, n.stack = shape s t0 t1 ∧ ((s = .off ∧ n.bcm.listening = false ∧ n.bcm.job = none) ∨ s = .ready ∨ s = .error)
  keeps : Keeps b0 n.bcm

private theorem recovered_spec {b0 : Bcm.State} (w : World) (h : Keeps b0 w.bcm) :
    ((recovered w).1 = .ready ∨ (recovered w).1 = .error) ∧ Keeps b0 (recovered w).2 := by
  have h2 : Keeps b0 w.next.next.bcm := keeps_feed _ (keeps_feed _ h)
  unfold recovered
  split
  · split
    · exact ⟨.inl rfl, keeps_init (keeps_shutdown h2) true (w.answers 1).filter⟩
    · exact ⟨.inr rfl, keeps_halt (keeps_init (keeps_shutdown h2) _ _)⟩
  · exact ⟨.inr rfl, h2⟩

private theorem ninv_report {b0 : Bcm.State} {n : Node} (h : NInv b0 n) (a : Nat → Answer) :
    NInv b0 (n.report a).1 ∧ ((n.report a).1.stack.state = .off → n.stack.state = .off) := by
  obtain ⟨⟨s, t0, t1, hs, hc⟩, hk⟩ := h
  obtain ⟨stack, b⟩ := n
  dsimp only at hs hc hk ⊢
  subst hs
  rcases hc with ⟨rfl, hl, hj⟩ | hrs
  · obtain ⟨u0, u1, e⟩ := report_off t0 t1 b hl a
    rw [e]
    refine ⟨?_, fun _ => rfl⟩
    dsimp only
    split
    · split
      · exact ⟨⟨.ready, u0, u1, rfl, .inr (.inl rfl)⟩, keeps_init hk true (a 1).filter⟩
      · exact ⟨⟨.off, u0, u1, rfl, .inl ⟨rfl, rfl, rfl⟩⟩, keeps_shutdown (keeps_init hk _ _)⟩
    · exact ⟨⟨.off, u0, u1, rfl, .inl ⟨rfl, hl, hj⟩⟩, hk⟩
  · have hne : ∀ s u0 u1 b', (s = LayerState.ready ∨ s = .error) → ((⟨shape s u0 u1, b'⟩ : Node).stack.state = .off → (shape s t0 t1).state = .off) := by
      rintro s u0 u1 b' (rfl | rfl) h <;> cases h
    cases h0 : (a 0).ready with
    | true =>
      cases h2 : (a 2).ready with
      | true =>
        obtain ⟨u0, u1, e⟩ := report_healthy s hrs t0 t1 b a h0 h2
        rw [e]
        refine ⟨⟨⟨s, u0, u1, rfl, .inr hrs⟩, keeps_feed _ hk⟩, ?_⟩
        rcases hrs with rfl | rfl <;> intro h <;> cases h
      | false =>
        rcases hrs with rfl | rfl
        · obtain ⟨u0, u1, st, -, e⟩ := report_late_ready t0 t1 b a h0 h2
          rw [e]
          exact ⟨⟨⟨_, u0, u1, rfl, .inr (.inl rfl)⟩, keeps_feed _ hk⟩, fun h => by cases h⟩
        · obtain ⟨u0, u1, st, -, e⟩ := report_bad_error t0 t1 b a (by rw [h0, h2]; rfl)
          obtain ⟨r1, r2⟩ := recovered_spec (b0 := b0) ⟨feed (framesOf a 0 4) b, fun n => a (n + 4)⟩ (keeps_feed _ hk)
          rw [e]
          refine ⟨⟨⟨_, u0, u1, rfl, .inr r1⟩, r2⟩, fun h => ?_⟩
          have h' : (recovered ⟨feed (framesOf a 0 4) b, fun n => a (n + 4)⟩).1 = .off := h
          rw [h'] at r1
          rcases r1 with r1 | r1 <;> cases r1
    | false =>
      rcases hrs with rfl | rfl
      · obtain ⟨u0, u1, st, -, e⟩ := report_bad_ready t0 t1 b a h0
        obtain ⟨r1, r2⟩ := recovered_spec (b0 := b0) ⟨feed (framesOf a 4 2) (feed (framesOf a 0 4) b).handleHalt, fun n => a (n + 6)⟩ (keeps_feed _ (keeps_halt (keeps_feed _ hk)))
        rw [e]
        refine ⟨⟨⟨_, u0, u1, rfl, .inr r1⟩, r2⟩, fun h => ?_⟩
        have h' : (recovered ⟨feed (framesOf a 4 2) (feed (framesOf a 0 4) b).handleHalt, fun n => a (n + 6)⟩).1 = .off := h
        rw [h'] at r1
        rcases r1 with r1 | r1 <;> cases r1
      · obtain ⟨u0, u1, st, -, e⟩ := report_bad_error t0 t1 b a (by rw [h0]; rfl)
        obtain ⟨r1, r2⟩ := recovered_spec (b0 := b0) ⟨feed (framesOf a 0 4) b, fun n => a (n + 4)⟩ (keeps_feed _ hk)
        rw [e]
        refine ⟨⟨⟨_, u0, u1, rfl, .inr r1⟩, r2⟩, fun h => ?_⟩
        have h' : (recovered ⟨feed (framesOf a 0 4) b, fun n => a (n + 4)⟩).1 = .off := h
        rw [h'] at r1
        rcases r1 with r1 | r1 <;> cases r1

private theorem ninv_step {b0 : Bcm.State} {n : Node} (h : NInv b0 n) (e : Ev) :
    NInv b0 (n.step e) ∧ ((n.step e).stack.state = .off → n.stack.state = .off) := by
  cases e with
  | report a => exact ninv_report h a
  | frame f ok =>
    refine ⟨⟨?_, keeps_frame h.keeps f ok⟩, fun h => h⟩
    obtain ⟨s, t0, t1, hs, hc⟩ := h.st
    refine ⟨s, t0, t1, hs, ?_⟩
    rcases hc with ⟨rfl, hl, hj⟩ | hc
    · refine .inl ⟨rfl, ?_⟩
      have : n.bcm.step (.frame f ok) = n.bcm := by simp [Bcm.State.step, hl]
      simp only [Node.step, this]
      exact ⟨hl, hj⟩
    · exact .inr hc

private theorem ninv_run {b0 : Bcm.State} (es : List Ev) : ∀ {n : Node}, NInv b0 n → NInv b0 (n.run es) ∧ ((n.run es).stack.state = .off → n.stack.state = .off) := by
  induction es with
  | nil => intro n h; exact ⟨h, fun h => h⟩
  | cons e es ih =>
    intro n h
    obtain ⟨h1, h2⟩ := ninv_step h e
    obtain ⟨h3, h4⟩ := ih h1
    exact ⟨h3, fun h => h2 (h4 h)⟩

private theorem ninv_start (c : Config) (junk : Vector Byte 8) : NInv (c.create junk) (Node.start c junk) :=
  ⟨⟨.off, [], [], rfl, .inl ⟨rfl, rfl, rfl⟩⟩, ⟨⟨rfl, rfl, rfl, rfl, rfl⟩, by intro j hj; cases hj⟩⟩

private theorem run_append (es fs : List Ev) (n : Node) : n.run (es ++ fs) = (n.run es).run fs := by
  induction es generalizing n with
  | nil => rfl
  | cons e es ih => exact ih _

/-- C97.  Whatever happens, bus, SYNC layer and stack are off, ready or in error together; before they were brought up nothing is transmitted; no other
SYNC than the configured one is transmitted; once up, the node never falls back to being off. -/
theorem C97_states (c : Config) (junk : Vector Byte 8) (es fs : List Ev) :
    (∃ s, AllIn s ((Node.start c junk).run es) ∧ ((s = .off ∧ ((Node.start c junk).run es).bcm.job = none) ∨ s = .ready ∨ s = .error)) ∧
    (∀ j, ((Node.start c junk).run es).bcm.job = some j → j = Bcm.txSetup c.props.period.toNat c.props.header (c.create junk).syncFrames) ∧
    (((Node.start c junk).run es).stack.state ≠ .off → ((Node.start c junk).run (es ++ fs)).stack.state ≠ .off) := by
  obtain ⟨h, -⟩ := ninv_run es (ninv_start c junk)
  refine ⟨?_, h.keeps.job, ?_⟩
  · obtain ⟨s, t0, t1, hs, hc⟩ := h.st
    refine ⟨s, ⟨_, _, hs, rfl, rfl⟩, ?_⟩
    rcases hc with ⟨h1, -, h2⟩ | hc
    · exact .inl ⟨h1, h2⟩
    · exact .inr hc
  · rw [run_append]
    exact fun hne h' => hne ((ninv_run fs h).2 h')

/-- an answer of the outside without frames -/
private def ans (ready bcm filter : Bool) : Answer := ⟨[], ready, bcm, filter⟩
private def up : Nat → Answer := fun _ => ans true true true
private def c97 : Config := { props := props (Header.msg 0x80) 10 0, monitored := [], ignored := [] }
private def nmt97 (cmd n : Byte) : Frame := { Header.msg 0 with data := #v[cmd, n, 0, 0, 0, 0, 0, 0], dlc := 2 }

example : ((Node.start c97 jk).run [.report up, .frame (nmt97 1 5) true]).stack.state = .ready ∧
    ((Node.start c97 jk).run [.report up, .frame (nmt97 1 5) true]).bcm.job.isSome = true := ⟨rfl, by decide +kernel⟩

/-- C97.  A report before the node is up says so and tries to bring it up: that succeeds exactly if the bus and the socket of the broadcast manager come
up, and is tried again by every report until then. -/
theorem C97_bring_up (c : Config) (junk : Vector Byte 8) (es : List Ev) (a : Nat → Answer) (h : ((Node.start c junk).run es).stack.state = .off) :
    (((Node.start c junk).run es).report a).2 = .notInitialized ∧
    (AllIn (if (a 0).ready ∧ (a 1).bcm then .ready else .off) ((Node.start c junk).run (es ++ [.report a]))) := by
  obtain ⟨hi, -⟩ := ninv_run es (ninv_start c junk)
  rw [run_append]
  generalize hn : (Node.start c junk).run es = n at *
  obtain ⟨s, t0, t1, hs, hc⟩ := hi.st
  have hoff : s = .off := by rw [hs] at h; exact h
  subst hoff
  have hl : n.bcm.listening = false := by
    rcases hc with ⟨-, hl, -⟩ | hc | hc
    · exact hl
    · cases hc
    · cases hc
  obtain ⟨stack, b⟩ := n
  dsimp only at hs hl
  subst hs
  obtain ⟨u0, u1, e⟩ := report_off t0 t1 b hl a
  refine ⟨by rw [e], ?_⟩
  simp only [Node.run, Node.step]
  rw [e]
  dsimp only
  cases (a 0).ready <;> cases (a 1).bcm <;> exact shape_allIn _ _ _ _

example : ((Node.start c97 jk).run [.report fun _ => ans false true true]).stack.state = .off := rfl

private theorem healthy_run (es : List Ev) (hh : ∀ a, Ev.report a ∈ es → (a 0).ready = true ∧ (a 2).ready = true) :
    ∀ (s : LayerState) (_ : s = .ready ∨ s = .error) (t0 t1 : List Method) (b : Bcm.State),
      ∃ u0 u1, (Node.run ⟨shape s t0 t1, b⟩ es) = ⟨shape s u0 u1, feed (heard es) b⟩ := by
  induction es with
  | nil => intro s _ t0 t1 b; exact ⟨t0, t1, rfl⟩
  | cons e es ih =>
    intro s hs t0 t1 b
    have ih' := ih (fun a h => hh a (by simp [h]))
    cases e with
    | frame f ok =>
      obtain ⟨u0, u1, e⟩ := ih' s hs t0 t1 (b.step (.frame f ok))
      exact ⟨u0, u1, e⟩
    | report a =>
      obtain ⟨h0, h2⟩ := hh a (by simp)
      obtain ⟨u0, u1, e⟩ := report_healthy s hs t0 t1 b a h0 h2
      obtain ⟨v0, v1, e'⟩ := ih' s hs u0 u1 (feed (framesOf a 0 4) b)
      refine ⟨v0, v1, ?_⟩
      simp only [Node.run, Node.step]
      rw [e]
      dsimp only
      rw [e']
      simp only [heard, framesOf, feed_append, List.append_nil, Nat.reduceAdd]

private theorem nodeNo_mem (l : List Int) (k : Nat) (hk : k < 256) : k ∈ l.map nodeNo ↔ (k : Int) ∈ l := by
  simp only [List.mem_map]
  constructor
  · rintro ⟨n, hn, he⟩
    unfold nodeNo at he
    split at he
    · omega
    · have : n = k := by omega
      rwa [← this]
  · intro h
    refine ⟨k, h, ?_⟩
    unfold nodeNo
    rw [if_neg (by omega)]
    omega

/-- C97 (missing: broadcast commands as in C48, and bus errors, for which see below).  Once the node is up, and while the bus is, SYNC is transmitted exactly
while a node it cares for is started. -/
theorem C97_sync_partial (c : Config) (junk : Vector Byte 8) (a : Nat → Answer) (h0 : (a 0).ready = true) (h1 : (a 1).bcm = true) (h2 : (a 1).filter = true)
    (es : List Ev) (hh : ∀ a, Ev.report a ∈ es → Healthy a) (hk : ∀ q ∈ heard es, q.2 = true)
    (hnb : ∀ q ∈ heard es, ∀ cmd, ¬ IsNmt q.1 cmd 0) :
    AllIn .ready ((Node.start c junk).run (.report a :: es)) ∧
    (((Node.start c junk).run (.report a :: es)).bcm.job.isSome = true ↔ ∃ k, Cares c k ∧ Started ((heard es).map fun q => .frame q.1) k) := by
  obtain ⟨u0, u1, e⟩ := report_off [] [] (c.create junk) rfl a
  rw [h0, h1, h2, if_pos rfl, if_pos rfl] at e
  have hs : Node.start c junk = ⟨shape .off [] [], c.create junk⟩ := rfl
  obtain ⟨v0, v1, e'⟩ := healthy_run es (fun a h => ⟨hh a h 0, hh a h 2⟩) .ready (.inl rfl) u0 u1 ((c.create junk).handleInit true true)
  have er : (Node.start c junk).run (.report a :: es) = ⟨shape .ready v0 v1, feed (heard es) ((c.create junk).handleInit true true)⟩ := by
    simp only [Node.run, Node.step]
    rw [hs, e]
    exact e'
  rw [er]
  refine ⟨shape_allIn _ _ _ _, ?_⟩
  have hb := C48_bcm c.props junk (c.monitored.map nodeNo) (c.ignored.map nodeNo) ((heard es).map fun q => .frame q.1) (by
    intro f hf cmd
    simp only [List.mem_map, Seen.frame.injEq] at hf
    obtain ⟨q, hq, rfl⟩ := hf
    exact hnb q hq cmd)
  have hrun : (Bcm.State.create c.props junk (c.monitored.map nodeNo) (c.ignored.map nodeNo)).run (.init true true :: ((heard es).map fun q => Seen.frame q.1).map toEv) =
      feed (heard es) ((c.create junk).handleInit true true) := by
    unfold feed
    simp only [Bcm.State.run, Bcm.State.step, List.map_map, Config.create]
    congr 1
    apply List.map_congr_left
    intro q hq
    simp only [Function.comp, toEv, hk q hq]
  rw [hrun] at hb
  show (feed (heard es) ((c.create junk).handleInit true true)).job.isSome = true ↔ _
  rw [hb.1]
  have hlt : ∀ n, Started ((heard es).map fun q => Seen.frame q.1) n → n < 256 := by
    rintro n ⟨x, f, y, -, ⟨-, -, -, hn⟩, -⟩
    rw [← hn]
    exact f.data[1].isLt
  constructor
  · rintro ⟨n, hw, hst⟩
    have := hlt n hst
    refine ⟨n, ?_, hst⟩
    unfold watched at hw
    rw [nodeNo_mem _ _ this, nodeNo_mem _ _ this, List.map_eq_nil_iff] at hw
    exact hw
  · rintro ⟨n, hw, hst⟩
    have := hlt n hst
    refine ⟨n, ?_, hst⟩
    unfold watched
    rw [nodeNo_mem _ _ this, nodeNo_mem _ _ this, List.map_eq_nil_iff]
    exact hw

example : (up 0).ready = true ∧ Healthy up ∧ heard [.frame (nmt97 1 5) true, .report up] = [(nmt97 1 5, true)] ∧ ∀ cmd, ¬ IsNmt (nmt97 1 5) cmd 0 :=
  ⟨rfl, fun _ => rfl, rfl, by rintro cmd ⟨-, -, -, h⟩; exact absurd h (by decide +kernel)⟩

private theorem halt_spec (b : Bcm.State) (h : b.job.isSome = true → b.running = true ∧ b.open_ = true) : b.handleHalt.job = none ∧ b.handleHalt.running = false := by
  unfold Bcm.State.handleHalt Bcm.State.stopTX
  cases hj : b.job <;> cases hr : b.running <;> cases ho : b.open_ <;> simp_all

private theorem recovered_ready (w : World) :
    (((recovered w).1 = .ready ↔ (w.answers 0).ready = true ∧ (w.answers 1).bcm = true)) ∧
    ((recovered w).1 = .ready → (recovered w).2.job = none ∧ (recovered w).2.started = [] ∧ (recovered w).2.open_ = true ∧
      (recovered w).2.listening = (w.answers 1).filter ∧ (recovered w).2.running = w.next.next.bcm.running) := by
  unfold recovered
  cases (w.answers 0).ready with
  | false => simp
  | true =>
    cases (w.answers 1).bcm with
    | false => simp
    | true => cases (w.answers 1).filter <;> simp [Bcm.State.handleInit, Bcm.State.handleShutdown]

/-- C97.  A report that finds the bus down shows an error, halts SYNC and tries to recover; that succeeds exactly if the bus and the socket of the broadcast
manager come up again; otherwise the node is in error.  After a successful recovery SYNC waits for a node to be started, and, if no frame came
in between, is ready to be started (`running` is false, see `C97_stuck_false` for the rest). -/
theorem C97_fault_partial (c : Config) (junk : Vector Byte 8) (es : List Ev) (a : Nat → Answer) (h : ((Node.start c junk).run es).stack.state = .ready)
    (h0 : (a 0).ready = false) :
    (∃ st, (((Node.start c junk).run es).report a).2 = .status st ∧ st.sev = .error) ∧
    (AllIn (if (a 6).ready ∧ (a 7).bcm then .ready else .error) ((Node.start c junk).run (es ++ [.report a]))) ∧
    ((a 6).ready = true → (a 7).bcm = true → (a 7).filter = true →
      ((Node.start c junk).run (es ++ [.report a])).bcm.job = none ∧ ((Node.start c junk).run (es ++ [.report a])).bcm.started = [] ∧
      ((Node.start c junk).run (es ++ [.report a])).bcm.listening = true ∧
      ((∀ k, 4 ≤ k → k ≤ 7 → (a k).frames = []) → ((Node.start c junk).run (es ++ [.report a])).bcm.running = false)) := by
  obtain ⟨hi, -⟩ := ninv_run es (ninv_start c junk)
  rw [run_append]
  generalize hn : (Node.start c junk).run es = n at *
  obtain ⟨s, t0, t1, hs, hc⟩ := hi.st
  have hr : s = .ready := by rw [hs] at h; exact h
  subst hr
  obtain ⟨stack, b⟩ := n
  dsimp only at hs
  subst hs
  obtain ⟨u0, u1, st, hst, e⟩ := report_bad_ready t0 t1 b a h0
  obtain ⟨r1, r2⟩ := recovered_ready ⟨feed (framesOf a 4 2) (feed (framesOf a 0 4) b).handleHalt, fun n => a (n + 6)⟩
  obtain ⟨r3, -⟩ := recovered_spec (b0 := c.create junk) ⟨feed (framesOf a 4 2) (feed (framesOf a 0 4) b).handleHalt, fun n => a (n + 6)⟩
    (keeps_feed _ (keeps_halt (keeps_feed _ hi.keeps)))
  refine ⟨⟨st, by rw [e], hst⟩, ?_, ?_⟩
  · simp only [Node.run, Node.step]
    rw [e]
    dsimp only
    by_cases hx : (a 6).ready = true ∧ (a 7).bcm = true
    · rw [if_pos hx, r1.2 hx]; exact shape_allIn _ _ _ _
    · rw [if_neg hx]
      have : (recovered ⟨feed (framesOf a 4 2) (feed (framesOf a 0 4) b).handleHalt, fun n => a (n + 6)⟩).1 = .error := by
        rcases r3 with r3 | r3
        · exact absurd (r1.1 r3) hx
        · exact r3
      rw [this]; exact shape_allIn _ _ _ _
  · intro h6 h7 h8
    simp only [Node.run, Node.step]
    rw [e]
    dsimp only
    obtain ⟨j1, j2, -, j4, j5⟩ := r2 (r1.2 ⟨h6, h7⟩)
    refine ⟨j1, j2, by rw [j4]; exact h8, fun hf => ?_⟩
    rw [j5]
    have hf1 : framesOf a 4 2 = [] := by simp [framesOf, hf 4 (by omega) (by omega), hf 5 (by omega) (by omega)]
    have f6 : (a 6).frames = [] := hf 6 (by omega) (by omega)
    have f7 : (a 7).frames = [] := hf 7 (by omega) (by omega)
    simp only [World.next, hf1, feed_nil, f6, f7, Nat.zero_add, Nat.add_zero]
    have : ∀ s : Bcm.State, s.handleHalt.running = false := by
      intro s
      unfold Bcm.State.handleHalt
      split
      · rfl
      · rename_i hx; simpa using hx
    exact this _

private def down : Nat → Answer := fun k => if k = 0 then ans false true true else ans true true true
example : ((Node.start c97 jk).run [.report up, .frame (nmt97 1 5) true]).stack.state = .ready ∧ (down 0).ready = false ∧
    ((Node.start c97 jk).run [.report up, .frame (nmt97 1 5) true, .report down]).bcm.job.isSome = false ∧
    ((Node.start c97 jk).run [.report up, .frame (nmt97 1 5) true, .report down, .frame (nmt97 1 5) true]).bcm.job.isSome = true :=
  ⟨rfl, rfl, by decide +kernel, by decide +kernel⟩

/-- C97 fails: if the bus comes up again but the socket of the broadcast manager does not, no later report tries again: the node only warns that SYNC is not
running, and no frame ever starts it. -/
theorem C97_dead_false : ∃ es : List Ev, ∀ fs : List Ev, (∀ a, Ev.report a ∈ fs → Healthy a) →
    ((Node.start c97 jk).run (es ++ fs)).bcm.job = none ∧ ((Node.start c97 jk).run (es ++ fs)).stack.state = .error ∧
    ∀ a, Healthy a → (((Node.start c97 jk).run (es ++ fs)).report a).2 = .status (Status.initial.report (.warn "sync is not running".toList)) := by
  refine ⟨[.report up, .report fun k => if k = 0 then ans false true true else if k = 7 then ans true false true else ans true true true], ?_⟩
  intro fs hf
  rw [run_append]
  obtain ⟨t0, t1, b, e, hb⟩ : ∃ t0 t1 b, (Node.start c97 jk).run [.report up, .report fun k => if k = 0 then ans false true true else if k = 7 then ans true false true else ans true true true] =
      ⟨shape .error t0 t1, b⟩ ∧ b.listening = false ∧ b.job = none ∧ b.running = false := ⟨_, _, _, rfl, rfl, rfl, rfl⟩
  rw [e]
  obtain ⟨u0, u1, e'⟩ := healthy_run fs (fun a h => ⟨hf a h 0, hf a h 2⟩) .error (.inr rfl) t0 t1 b
  rw [e', feed_deaf _ _ hb.1]
  refine ⟨hb.2.1, rfl, ?_⟩
  intro a ha
  obtain ⟨v0, v1, e2⟩ := report_healthy .error (.inr rfl) u0 u1 b a (ha 0) (ha 2)
  rw [e2, feed_deaf _ _ hb.1, hb.2.2]
  simp

private theorem stuck_feed (fs : List (Frame × Bool)) : ∀ b : Bcm.State, Bcm.Stuck b → Bcm.Stuck (feed fs b) := by
  induction fs with
  | nil => intro b h; exact h
  | cons q fs ih =>
    intro b h
    refine ih _ ?_
    show Bcm.Stuck (b.step (.frame q.1 q.2))
    simp only [Bcm.State.step]
    split
    · exact Bcm.stuck_frame b h _ _
    · exact h

/-- C97 fails: if a node is started between halting and recovering, recovery succeeds, but SYNC is taken for running and is never transmitted again while the bus
is up; the diagnosis shows no fault. -/
theorem C97_stuck_false : ∃ es : List Ev, ∀ fs : List Ev, (∀ a, Ev.report a ∈ fs → Healthy a) →
    ((Node.start c97 jk).run (es ++ fs)).bcm.job = none ∧ ((Node.start c97 jk).run (es ++ fs)).stack.state = .ready ∧
    ∀ a, Healthy a → (((Node.start c97 jk).run (es ++ fs)).report a).2 = .status .initial := by
  refine ⟨[.report up, .report fun k => if k = 0 then ans false true true else if k = 5 then ⟨[(nmt97 1 5, true)], true, true, true⟩ else ans true true true], ?_⟩
  intro fs hf
  rw [run_append]
  obtain ⟨t0, t1, b, e, hb⟩ : ∃ t0 t1 b, (Node.start c97 jk).run [.report up, .report fun k => if k = 0 then ans false true true else
      if k = 5 then ⟨[(nmt97 1 5, true)], true, true, true⟩ else ans true true true] = ⟨shape .ready t0 t1, b⟩ ∧ Bcm.Stuck b := ⟨_, _, _, rfl, rfl, rfl⟩
  rw [e]
  obtain ⟨u0, u1, e'⟩ := healthy_run fs (fun a h => ⟨hf a h 0, hf a h 2⟩) .ready (.inl rfl) t0 t1 b
  rw [e']
  refine ⟨(stuck_feed _ b hb).job, rfl, ?_⟩
  intro a ha
  obtain ⟨v0, v1, e2⟩ := report_healthy .ready (.inl rfl) u0 u1 (feed (heard fs) b) a (ha 0) (ha 2)
  rw [e2, (stuck_feed _ _ (stuck_feed _ b hb)).run]
  rfl

/-- C97 fails: if the filter cannot be set the node is up, but never transmits SYNC. -/
theorem C97_filter_false : ∃ e : Ev, ∀ fs : List Ev, (∀ a, Ev.report a ∈ fs → Healthy a) →
    ((Node.start c97 jk).run (e :: fs)).bcm.job = none ∧ ((Node.start c97 jk).run (e :: fs)).stack.state = .ready := by
  refine ⟨.report fun _ => ans true true false, ?_⟩
  intro fs hf
  obtain ⟨t0, t1, b, e, hb⟩ : ∃ t0 t1 b, (Node.start c97 jk).step (.report fun _ => ans true true false) = ⟨shape .ready t0 t1, b⟩ ∧ b.listening = false ∧ b.job = none :=
    ⟨_, _, _, rfl, rfl, rfl⟩
  simp only [Node.run]
  rw [e]
  obtain ⟨u0, u1, e'⟩ := healthy_run fs (fun a h => ⟨hf a h 0, hf a h 2⟩) .ready (.inl rfl) t0 t1 b
  rw [e', feed_deaf _ _ hb.1]
  exact ⟨hb.2, rfl⟩

end Verif.Props
