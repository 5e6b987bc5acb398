import Verif.Lemmas.DeviceInfo
import Verif.Props.PdoInit

/-!
# C119: the device information of an EDS file
-/

namespace Verif.Props
open Verif Verif.OD Verif.Txt Verif.PdoInit Verif.Spec Verif.Spec.Info Verif.OD.DInfo

private theorem ok_cases (ini : Ini) (di : List (Text × Text)) (hs : ini.sect "DeviceInfo".toList = some di) (info : DeviceInfo) (h : deviceInfo ini = .ok info) :
    ∃ rates dummies, flagged "BaudRate_".toList rateOf di = some rates ∧ flagged "Dummy".toList dummyOf ((ini.sect "DummyUsage".toList).getD []) = some dummies ∧
      info = { vendorName := readOptional some [] di "VendorName".toList
               vendorNumber := readOptional (readUnsigned 32) 0 di "VendorNumber".toList
               productName := readOptional some [] di "ProductName".toList
               productNumber := readOptional (readUnsigned 32) 0 di "ProductNumber".toList
               revisionNumber := readOptional (readUnsigned 32) 0 di "RevisionNumber".toList
               orderCode := readOptional some [] di "OrderCode".toList
               baudrates := rates
               simpleBootUpMaster := readOptional readBool false di "SimpleBootUpMaster".toList
               simpleBootUpSlave := readOptional readBool false di "SimpleBootUpSlave".toList
               granularity := readOptional readUint8 0 di "Granularity".toList
               dynamicChannelsSupported := readOptional readBool false di "DynamicChannelsSupported".toList
               groupMessaging := readOptional readBool false di "GroupMessaging".toList
               nrOfRxPdo := readOptional (readUnsigned 16) 0 di "NrOfRXPDO".toList
               nrOfTxPdo := readOptional (readUnsigned 16) 0 di "NrOfTXPDO".toList
               lssSupported := readOptional readBool false di "LSS_Supported".toList
               dummyUsage := dummies } := by
  unfold deviceInfo at h
  rw [hs] at h
  dsimp only at h
  split at h
  · rename_i rates dummies h1 h2
    injection h with h
    exact ⟨rates, dummies, h1, h2, h.symm⟩
  · cases h

private theorem opt_says {α : Type} (read : Text → Option α) (zero : α) (di : List (Text × Text)) (key : String) (s : Text) (h : Says di key s) :
    readOptional read zero di key.toList = (read s).getD zero := by
  unfold readOptional; rw [lookup_says di key s h]

private theorem opt_silent {α : Type} (read : Text → Option α) (zero : α) (di : List (Text × Text)) (key : String) (h : Silent di key) :
    readOptional read zero di key.toList = zero := by
  unfold readOptional; rw [lookup_silent di key h]

/-- C119, numbers written in decimal, texts and truth values: the device information is what the file says.  Missing from the full claim: numbers written in another way
(`C119_hex_false`). -/
theorem C119_info_partial (ini : Ini) (di : List (Text × Text)) (hs : ini.sect "DeviceInfo".toList = some di) (info : DeviceInfo) (h : deviceInfo ini = .ok info) :
    (∀ s, (Says di "VendorName" s → info.vendorName = s) ∧ (Says di "ProductName" s → info.productName = s) ∧ (Says di "OrderCode" s → info.orderCode = s)) ∧
    (∀ s n, Plain s n → n < 2 ^ 32 → (Says di "VendorNumber" s → info.vendorNumber.toNat = n) ∧ (Says di "ProductNumber" s → info.productNumber.toNat = n) ∧
      (Says di "RevisionNumber" s → info.revisionNumber.toNat = n)) ∧
    (∀ s n, Plain s n → n < 65536 → (Says di "NrOfRXPDO" s → info.nrOfRxPdo.toNat = n) ∧ (Says di "NrOfTXPDO" s → info.nrOfTxPdo.toNat = n)) ∧
    (∀ s n, Plain s n → n < 256 → Says di "Granularity" s → info.granularity.toNat = n) ∧
    (∀ s b, Flag s b → (Says di "SimpleBootUpMaster" s → info.simpleBootUpMaster = b) ∧ (Says di "SimpleBootUpSlave" s → info.simpleBootUpSlave = b) ∧
      (Says di "DynamicChannelsSupported" s → info.dynamicChannelsSupported = b) ∧ (Says di "GroupMessaging" s → info.groupMessaging = b) ∧
      (Says di "LSS_Supported" s → info.lssSupported = b)) := by
  obtain ⟨rates, dummies, -, -, rfl⟩ := ok_cases ini di hs info h
  dsimp only
  refine ⟨fun s => ⟨fun hk => ?_, fun hk => ?_, fun hk => ?_⟩, fun s n hp hn => ?_, fun s n hp hn => ?_, fun s n hp hn hk => ?_, fun s b hf => ?_⟩
  · rw [opt_says _ _ di _ s hk]; rfl
  · rw [opt_says _ _ di _ s hk]; rfl
  · rw [opt_says _ _ di _ s hk]; rfl
  · obtain ⟨v, h1, h2⟩ := readUnsigned_plain 32 s n hp hn
    refine ⟨fun hk => ?_, fun hk => ?_, fun hk => ?_⟩ <;> rw [opt_says _ _ di _ s hk, h1] <;> exact h2
  · obtain ⟨v, h1, h2⟩ := readUnsigned_plain 16 s n hp hn
    refine ⟨fun hk => ?_, fun hk => ?_⟩ <;> rw [opt_says _ _ di _ s hk, h1] <;> exact h2
  · obtain ⟨v, h1, h2⟩ := readUint8_plain s n hp hn
    rw [opt_says _ _ di _ s hk, h1]; exact h2
  · have h1 := readBool_flag s b hf
    refine ⟨fun hk => ?_, fun hk => ?_, fun hk => ?_, fun hk => ?_, fun hk => ?_⟩ <;> rw [opt_says _ _ di _ s hk, h1] <;> rfl

/-- C119.  What the file does not say is 0, false or empty. -/
theorem C119_missing (ini : Ini) (di : List (Text × Text)) (hs : ini.sect "DeviceInfo".toList = some di) (info : DeviceInfo) (h : deviceInfo ini = .ok info) :
    (Silent di "VendorName" → info.vendorName = []) ∧ (Silent di "ProductName" → info.productName = []) ∧ (Silent di "OrderCode" → info.orderCode = []) ∧
    (Silent di "VendorNumber" → info.vendorNumber = 0) ∧ (Silent di "ProductNumber" → info.productNumber = 0) ∧ (Silent di "RevisionNumber" → info.revisionNumber = 0) ∧
    (Silent di "NrOfRXPDO" → info.nrOfRxPdo = 0) ∧ (Silent di "NrOfTXPDO" → info.nrOfTxPdo = 0) ∧ (Silent di "Granularity" → info.granularity = 0) ∧
    (Silent di "SimpleBootUpMaster" → info.simpleBootUpMaster = false) ∧ (Silent di "SimpleBootUpSlave" → info.simpleBootUpSlave = false) ∧
    (Silent di "DynamicChannelsSupported" → info.dynamicChannelsSupported = false) ∧ (Silent di "GroupMessaging" → info.groupMessaging = false) ∧
    (Silent di "LSS_Supported" → info.lssSupported = false) := by
  obtain ⟨rates, dummies, -, -, rfl⟩ := ok_cases ini di hs info h
  exact ⟨opt_silent _ _ di _, opt_silent _ _ di _, opt_silent _ _ di _, opt_silent _ _ di _, opt_silent _ _ di _, opt_silent _ _ di _, opt_silent _ _ di _,
    opt_silent _ _ di _, opt_silent _ _ di _, opt_silent _ _ di _, opt_silent _ _ di _, opt_silent _ _ di _, opt_silent _ _ di _, opt_silent _ _ di _⟩

/-- C119 is false for hexadecimal numbers, which EDS files may contain everywhere else (C26): whatever follows `0x`, the number of PDOs is taken to be 0, as are the
numbers of vendor, product and revision. -/
theorem C119_hex_false (ini : Ini) (di : List (Text × Text)) (hs : ini.sect "DeviceInfo".toList = some di) (info : DeviceInfo) (h : deviceInfo ini = .ok info) (t : Text) :
    (Says di "NrOfRXPDO" ('0' :: 'x' :: t) → info.nrOfRxPdo = 0) ∧ (Says di "NrOfTXPDO" ('0' :: 'x' :: t) → info.nrOfTxPdo = 0) ∧
    (Says di "VendorNumber" ('0' :: 'x' :: t) → info.vendorNumber = 0) ∧ (Says di "ProductNumber" ('0' :: 'x' :: t) → info.productNumber = 0) ∧
    (Says di "RevisionNumber" ('0' :: 'x' :: t) → info.revisionNumber = 0) := by
  have hn : ∀ w, readUnsigned w ('0' :: 'x' :: t) = none := fun w =>
    readUnsigned_other w _ 'x' (by simp) (by decide) (by decide) (by decide) (by decide)
  obtain ⟨rates, dummies, -, -, rfl⟩ := ok_cases ini di hs info h
  refine ⟨fun hk => ?_, fun hk => ?_, fun hk => ?_, fun hk => ?_, fun hk => ?_⟩ <;> dsimp only <;> rw [opt_says _ _ di _ _ hk, hn] <;> rfl

/-- C119, the consequence: a device whose file says `NrOfTXPDO=0x...` or `NrOfRXPDO=0x...` is set up without any process data of this direction, without a report. -/
theorem C119_no_pdos_false {D : Type} (ini : Ini) (di : List (Text × Text)) (hs : ini.sect "DeviceInfo".toList = some di) (info : DeviceInfo) (h : deviceInfo ini = .ok info)
    (t : Text) (dv : Dev D) (mem : Mem) (junk : Vector Byte 8) (dict : Dict) (hd : dict.NodupKeys) (node : BitVec 8) (e e' : Env D)
    (he : Reached dv mem junk info.nrOfTxPdo.toNat info.nrOfRxPdo.toNat dict node e)
    (hi : mapperInit dv mem junk info.nrOfTxPdo.toNat info.nrOfRxPdo.toNat e = (e', .ok true)) :
    (Says di "NrOfTXPDO" ('0' :: 'x' :: t) → e'.rpdos = []) ∧ (Says di "NrOfRXPDO" ('0' :: 'x' :: t) → e'.tpdos = []) := by
  obtain ⟨h1, h2⟩ := C80_which dv mem junk _ _ dict hd node e e' he hi
  obtain ⟨g1, g2, -⟩ := C119_hex_false ini di hs info h t
  constructor
  · intro hk
    rw [g2 hk] at h1
    exact List.map_eq_nil_iff.1 h1
  · intro hk
    rw [g1 hk] at h2
    exact List.map_eq_nil_iff.1 h2

/-- C119.  A number that is not decimal or too large for its field counts as 0. -/
theorem C119_number_else_zero (ini : Ini) (di : List (Text × Text)) (hs : ini.sect "DeviceInfo".toList = some di) (info : DeviceInfo) (h : deviceInfo ini = .ok info) (s : Text) :
    ((∃ n, Plain s n ∧ 65536 ≤ n) ∨ (∃ c ∈ s, c.isAlpha = true) → (Says di "NrOfRXPDO" s → info.nrOfRxPdo = 0) ∧ (Says di "NrOfTXPDO" s → info.nrOfTxPdo = 0)) := by
  intro hb
  have hn : readUnsigned 16 s = none := by
    rcases hb with ⟨n, h1, h2⟩ | ⟨c, h1, h2⟩
    · exact readUnsigned_large 16 s n h1 h2
    · have g : isSpace c = false ∧ c.isDigit = false ∧ c ≠ '-' ∧ c ≠ '+' := by
        have ha : 65 ≤ c.toNat := by
          simp only [Char.isAlpha, Char.isUpper, Char.isLower, Bool.or_eq_true, Bool.and_eq_true, decide_eq_true_eq] at h2
          rcases h2 with ⟨g1, g2⟩ | ⟨g1, g2⟩
          · exact g1
          · have : 97 ≤ c.toNat := g1
            omega
        refine ⟨?_, ?_, ?_, ?_⟩
        · have n1 : c ≠ ' ' := by rintro rfl; exact absurd ha (by decide)
          have n2 : c ≠ '\t' := by rintro rfl; exact absurd ha (by decide)
          have n3 : c ≠ '\n' := by rintro rfl; exact absurd ha (by decide)
          have n4 : c ≠ '\r' := by rintro rfl; exact absurd ha (by decide)
          have n5 : c.toNat ≠ 11 := by omega
          have n6 : c.toNat ≠ 12 := by omega
          simp [isSpace, n1, n2, n3, n4, n5, n6]
        · cases hx : c.isDigit with
          | false => rfl
          | true =>
            simp only [Char.isDigit, Bool.and_eq_true, decide_eq_true_eq] at hx
            have : c.toNat ≤ 57 := hx.2
            omega
        · rintro rfl; exact absurd ha (by decide)
        · rintro rfl; exact absurd ha (by decide)
      exact readUnsigned_other 16 s c h1 g.1 g.2.1 g.2.2.1 g.2.2.2
  obtain ⟨rates, dummies, -, -, rfl⟩ := ok_cases ini di hs info h
  refine ⟨fun hk => ?_, fun hk => ?_⟩ <;> dsimp only <;> rw [opt_says _ _ di _ _ hk, hn] <;> rfl

private theorem u16_lit (t : Text) (n : Nat) (h : UnsignedLit t n) (hn : n < 65536) : (u16Of t).toNat = n := by
  have := intFromString_lit .u16 t [] n (.plain h) (by unfold FitsTy; simp [IntTy.signed, IntTy.width, IntTy.size]; omega) stops_nil
  rw [List.append_nil] at this
  unfold u16Of
  rw [this]
  show (BitVec.ofInt 16 n).toNat = n
  rw [BitVec.ofInt_natCast, BitVec.toNat_ofNat, Nat.mod_eq_of_lt (by omega)]

/-- C119, bit rates and dummy objects.  If all entries `BaudRate_…` and `Dummy…` are numbers (decimal, and hexadecimal without prefix) with truth values, then the file has its
device information, the bit rates are 1000 times the numbers of the true entries, and the dummy objects are the numbers of the true entries. -/
theorem C119_sets (ini : Ini) (di : List (Text × Text)) (hs : ini.sect "DeviceInfo".toList = some di) (h1 : WellFormed "BaudRate_" UnsignedLit di)
    (h2 : WellFormed "Dummy" (Numeral 16) ((ini.sect "DummyUsage".toList).getD [])) :
    ∃ info, deviceInfo ini = .ok info ∧
      (∀ r, r ∈ info.baudrates ↔ ∃ t v n, ("BaudRate_".toList ++ t, v) ∈ di ∧ Flag v true ∧ UnsignedLit t n ∧ n < 65536 ∧ r.toNat = 1000 * n) ∧
      (∀ d, d ∈ info.dummyUsage ↔ ∃ t v, ("Dummy".toList ++ t, v) ∈ (ini.sect "DummyUsage".toList).getD [] ∧ Flag v true ∧ Numeral 16 t d.toNat) := by
  obtain ⟨l1, a1, a2⟩ := flagged_some "BaudRate_".toList rateOf di (fun t v hm => (h1 t v hm).2)
  obtain ⟨l2, b1, b2⟩ := flagged_some "Dummy".toList dummyOf ((ini.sect "DummyUsage".toList).getD []) (fun t v hm => (h2 t v hm).2)
  unfold deviceInfo
  rw [hs]
  dsimp only
  rw [a1, b1]
  refine ⟨_, rfl, fun r => ?_, fun d => ?_⟩
  · dsimp only
    rw [a2 r]
    have hr : ∀ t n, UnsignedLit t n → n < 65536 → (rateOf t).toNat = 1000 * n := by
      intro t n hu hn
      unfold rateOf
      rw [u16_lit t n hu hn, BitVec.toNat_ofNat, Nat.mod_eq_of_lt (by omega), Nat.mul_comm]
    constructor
    · rintro ⟨t, v, g1, g2, rfl⟩
      obtain ⟨⟨n, g3, g4⟩, -⟩ := h1 t v g1
      exact ⟨t, v, n, g1, g2, g3, g4, hr t n g3 g4⟩
    · rintro ⟨t, v, n, g1, g2, g3, g4, g5⟩
      exact ⟨t, v, g1, g2, BitVec.eq_of_toNat_eq (by rw [g5, hr t n g3 g4])⟩
  · dsimp only
    rw [b2 d]
    have hr : ∀ t n, Numeral 16 t n → n < 65536 → (dummyOf t).toNat = n := fun t n hu hn => u16_lit _ n (.hex hu) hn
    constructor
    · rintro ⟨t, v, g1, g2, rfl⟩
      obtain ⟨⟨n, g3, g4⟩, -⟩ := h2 t v g1
      exact ⟨t, v, g1, g2, by rw [hr t n g3 g4]; exact g3⟩
    · rintro ⟨t, v, g1, g2, g3⟩
      exact ⟨t, v, g1, g2, BitVec.eq_of_toNat_eq (hr t _ g3 d.isLt).symm⟩

/-- C119.  A file with an entry `BaudRate_…` or `Dummy…` whose value is a word that begins with another letter than `t` and `f` (`yes`, `True`) is refused as a whole. -/
theorem C119_refused (rp : RealParser) (junk : BitVec 16 → Nat → Bool) (ini : Ini) (overlay : List (Text × Text)) (di : List (Text × Text))
    (hs : ini.sect "DeviceInfo".toList = some di) (t v : Text) (c : Char)
    (hm : ("BaudRate_".toList ++ t, v) ∈ di ∨ ("Dummy".toList ++ t, v) ∈ (ini.sect "DummyUsage".toList).getD [])
    (hc : v.head? = some c) (h1 : c.isAlpha = true) (h2 : c ≠ 't') (h3 : c ≠ 'f') : ∃ x, loadFile rp junk ini overlay = .throws x := by
  have hv := readBool_word v c hc h1 h2 h3
  have : deviceInfo ini = .throws .badPath := by
    unfold deviceInfo
    rw [hs]
    dsimp only
    rcases hm with hm | hm
    · rw [flagged_none _ rateOf di t v hm hv]
    · rw [flagged_none _ dummyOf _ t v hm hv]
      split
      · rename_i h; cases h
      · rfl
  exact ⟨.badPath, by unfold loadFile; rw [this]⟩

/-- C119.  Beyond this, the device information decides nothing about whether a file is accepted, and the objects are those of C66. -/
theorem C119_loaded (rp : RealParser) (junk : BitVec 16 → Nat → Bool) (ini : Ini) (overlay : List (Text × Text)) (info : DeviceInfo) (d : Dict) :
    loadFile rp junk ini overlay = .ok (info, d) ↔ deviceInfo ini = .ok info ∧ fromFile rp junk ini overlay = .ok d := by
  unfold loadFile
  cases h1 : deviceInfo ini with
  | ok i =>
    dsimp only
    cases h2 : fromFile rp junk ini overlay with
    | ok d' => dsimp only; simp
    | throws e => dsimp only; simp
    | ub => dsimp only; simp
  | throws e => dsimp only; simp
  | ub => dsimp only; simp

/-! a file with two bit rates, one of them switched on, and a dummy object -/

private def infoIni (n : String) : Ini :=
  ⟨[("DeviceInfo".toList, [("VendorName".toList, "ACME".toList), ("vendornumber".toList, "185".toList), ("BaudRate_125".toList, "1".toList), ("BaudRate_250".toList, "false".toList),
      ("NrOfTXPDO".toList, n.toList), ("NrOfRXPDO".toList, "2".toList)]),
    ("DummyUsage".toList, [("Dummy0005".toList, "1".toList)])]⟩

private def infoOf (n : String) : Option (Nat × Nat × Nat × List Nat × List Nat) :=
  match deviceInfo (infoIni n) with
  | .ok i => some (i.vendorNumber.toNat, i.nrOfTxPdo.toNat, i.nrOfRxPdo.toNat, i.baudrates.map (·.toNat), i.dummyUsage.map (·.toNat))
  | _ => none

/-- in decimal, in hexadecimal, too large, and with a bit rate of another form -/
example : infoOf "4" = some (185, 4, 2, [125000], [5]) ∧ infoOf "0x4" = some (185, 0, 2, [125000], [5]) ∧ infoOf "65536" = some (185, 0, 2, [125000], [5]) := by
  refine ⟨by decide +kernel, by decide +kernel, by decide +kernel⟩

example : ∃ di, (infoIni "0x4").sect "DeviceInfo".toList = some di ∧ Says di "NrOfTXPDO" ('0' :: 'x' :: ['4']) ∧ Silent di "OrderCode" ∧
    Says di "VendorNumber" "185".toList ∧ Plain "185".toList 185 ∧ Flag "1".toList true := by
  refine ⟨_, rfl, ⟨[("VendorName".toList, "ACME".toList), ("vendornumber".toList, "185".toList), ("BaudRate_125".toList, "1".toList),
    ("BaudRate_250".toList, "false".toList)], _, [("NrOfRXPDO".toList, "2".toList)], rfl, rfl, ?_⟩, ?_, ⟨[("VendorName".toList, "ACME".toList)], _, _, rfl, by unfold SameName; decide, ?_⟩, ?_, ?_⟩
  · unfold SameName; decide +kernel
  · unfold Silent SameName; decide +kernel
  · unfold SameName; decide +kernel
  · refine ⟨[], "185".toList, [], rfl, (by intro c hc; cases hc), (by intro c hc; cases hc), by decide, ?_, by decide⟩
    intro c hc
    have : c = '1' ∨ c = '8' ∨ c = '5' := by simpa using hc
    rcases this with rfl | rfl | rfl
    · exact ⟨1, by decide, by decide⟩
    · exact ⟨8, by decide, by decide⟩
    · exact ⟨5, by decide, by decide⟩
  · exact ⟨[], ['1'], [], rfl, (by intro c hc; cases hc), (by intro c hc; cases hc), by decide⟩

/-- `C119_refused`: `BaudRate_125=yes`, and without regard to case `baudrate_125=1` is no bit rate -/
example : (match deviceInfo ⟨[("DeviceInfo".toList, [("BaudRate_125".toList, "yes".toList)])]⟩ with | .throws _ => true | _ => false) = true ∧ ('y').isAlpha = true ∧
    (match deviceInfo ⟨[("DeviceInfo".toList, [("baudrate_125".toList, "1".toList)])]⟩ with | .ok i => i.baudrates.isEmpty | _ => false) = true :=
  ⟨by decide +kernel, by decide, by decide +kernel⟩

/-- `C119_no_pdos_false`: the set-up of the device of C80 succeeds, without the PDO it has -/
example : succeeded (mapperInit countingDev exampleMem zeros 0 1 (pdoStart 0x181#32 100)).2 = true ∧
    (mapperInit countingDev exampleMem zeros 0 1 (pdoStart 0x181#32 100)).1.rpdos.isEmpty = true ∧ (pdoOnce 0x181#32 100).1.rpdos.isEmpty = false :=
  ⟨by decide +kernel, by decide +kernel, by decide +kernel⟩

end Verif.Props
