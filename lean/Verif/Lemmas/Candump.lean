import Verif.Spec.Candump
import Verif.Lemmas.Text
import Verif.Lemmas.ObjectText

/-! # Lemmas about candump -/

namespace Verif.Cdump
open Verif Verif.Drv Verif.Txt Verif.Spec Verif.Spec.Cdump

theorem span_unique (p : Char → Prop) : ∀ {a b r s : Text}, a ++ r = b ++ s → (∀ c ∈ a, p c) → (∀ c ∈ b, p c) → (∀ c, r.head? = some c → ¬ p c) → (∀ c, s.head? = some c → ¬ p c) →
    a = b ∧ r = s
  | [], [], _, _, h, _, _, _, _ => ⟨rfl, h⟩
  | [], y :: b, r, s, h, _, hb, hr, _ => by
    exfalso
    have h : r = y :: (b ++ s) := h
    exact hr y (by rw [h]; rfl) (hb y (by simp))
  | x :: a, [], r, s, h, ha, _, _, hs => by
    exfalso
    have h : x :: (a ++ r) = s := h
    exact hs x (by rw [← h]; rfl) (ha x (by simp))
  | x :: a, y :: b, r, s, h, ha, hb, hr, hs => by
    have h1 : x :: (a ++ r) = y :: (b ++ s) := h
    obtain ⟨rfl, h2⟩ := List.cons.inj h1
    obtain ⟨rfl, h3⟩ := span_unique p h2 (fun c hc => ha c (by simp [hc])) (fun c hc => hb c (by simp [hc])) hr hs
    exact ⟨rfl, h3⟩

theorem numeral_hex {t : Text} {n : Nat} (h : Numeral 10 t n) : ∀ c ∈ t, IsHex c := by
  intro c hc
  obtain ⟨d, hd, _⟩ := h.2.1 c hc
  simp [IsHex, hd]

theorem numeral_unique {t : Text} {m n : Nat} (h : Numeral 10 t m) (h' : Numeral 10 t n) : m = n := h.2.2.symm.trans h'.2.2
theorem hexNumeral_unique {t : Text} {m n : Nat} (h : HexNumeral t m) (h' : HexNumeral t n) : m = n := h.2.2.symm.trans h'.2.2

private theorem head_not_hex (c : Char) (hc : ¬ IsHex c) (t : Text) : ∀ x, (c :: t).head? = some x → ¬ IsHex x := by
  intro x hx
  have : c = x := by simpa using hx
  exact this ▸ hc

theorem bytes_head {t x : Text} {bs : List Byte} (h : Bytes t bs) : ∀ c, (t ++ '\n' :: x).head? = some c → ¬ IsHex c := by
  cases h with
  | nil => exact head_not_hex _ (by decide) _
  | cons _ _ => exact head_not_hex _ (by decide) _

theorem bytes_unique {t u x y : Text} {bs cs : List Byte} (h : Bytes t bs) (h' : Bytes u cs) (e : t ++ '\n' :: x = u ++ '\n' :: y) : bs = cs ∧ x = y := by
  induction h generalizing u cs with
  | nil =>
    cases h' with
    | nil => exact ⟨rfl, (List.cons.inj e).2⟩
    | cons _ _ => exact absurd (List.cons.inj e).1 (by decide)
  | @cons a t b bs ha ht ih =>
    cases h' with
    | nil => exact absurd (List.cons.inj e).1 (by decide)
    | @cons a' t' b' bs' ha' ht' =>
      have e1 : (a ++ t) ++ '\n' :: x = (a' ++ t') ++ '\n' :: y := (List.cons.inj e).2
      rw [List.append_assoc, List.append_assoc] at e1
      obtain ⟨rfl, e2⟩ := span_unique IsHex e1 ha.2.1 ha'.2.1 (bytes_head ht) (bytes_head ht')
      obtain ⟨rfl, e3⟩ := ih ht' e2
      have : b = b' := BitVec.eq_of_toNat_eq (hexNumeral_unique ha ha')
      exact ⟨by rw [this], e3⟩

theorem payload_unique {t u x y : Text} {p q : Option (List Byte)} (h : Payload t p) (h' : Payload u q) (e : t ++ '\n' :: x = u ++ '\n' :: y) : p = q ∧ x = y := by
  have first : ∀ {d t : Text} {n : Nat} {z : Text}, Numeral 10 d n → 'r' :: z = d ++ t → False := by
    intro d t n z hd hz
    cases d with
    | nil => exact hd.1 rfl
    | cons c d =>
      have := (List.cons.inj hz).1
      exact absurd (numeral_hex hd c (by simp)) (by rw [← this]; decide)
  cases h with
  | remote =>
    cases h' with
    | remote => exact ⟨rfl, by simpa using e⟩
    | data hd _ => rw [List.append_assoc] at e; exact (first hd e).elim
  | data hd hb =>
    cases h' with
    | remote => rw [List.append_assoc] at e; exact (first hd e.symm).elim
    | data hd' hb' =>
      rw [List.append_assoc, List.append_assoc] at e
      obtain ⟨_, e2⟩ := span_unique IsHex e (numeral_hex hd) (numeral_hex hd') (bytes_head hb) (bytes_head hb')
      obtain ⟨rfl, e3⟩ := bytes_unique hb hb' e2
      exact ⟨rfl, e3⟩

theorem dec_unique {t u x y : Text} {m n : Int} (h : Dec t m) (h' : Dec u n) (e : t ++ '\n' :: x = u ++ '\n' :: y) : m = n ∧ x = y := by
  have nl : ∀ z : Text, ∀ c, ('\n' :: z).head? = some c → ¬ IsHex c := head_not_hex _ (by decide)
  have first : ∀ {d z w : Text} {n : Nat}, Numeral 10 d n → d ++ z = '-' :: w → False := by
    intro d z w n hd hz
    cases d with
    | nil => exact hd.1 rfl
    | cons c d =>
      have := (List.cons.inj hz).1
      exact absurd (numeral_hex hd c (by simp)) (by rw [this]; decide)
  cases h with
  | pos hd =>
    cases h' with
    | pos hd' =>
      obtain ⟨rfl, e2⟩ := span_unique IsHex e (numeral_hex hd) (numeral_hex hd') (nl _) (nl _)
      exact ⟨by rw [numeral_unique hd hd'], (List.cons.inj e2).2⟩
    | neg hd' => exact (first hd e).elim
  | neg hd =>
    cases h' with
    | pos hd' => exact (first hd' e.symm).elim
    | neg hd' =>
      obtain ⟨rfl, e2⟩ := span_unique IsHex (List.cons.inj e).2 (numeral_hex hd) (numeral_hex hd') (nl _) (nl _)
      exact ⟨by rw [numeral_unique hd hd'], (List.cons.inj e2).2⟩

theorem line_unique {t u x y : Text} {v w : Seen} (h : Line t v) (h' : Line u w) (e : t ++ x = u ++ y) : v = w ∧ x = y := by
  cases h with
  | @frame k a p id payload ha hp =>
    cases h' with
    | @frame k' a' p' id' payload' ha' hp' =>
      simp only [List.cons_append, List.append_assoc, List.cons.injEq, List.nil_append, true_and] at e
      obtain ⟨ek, e1⟩ := e
      obtain ⟨rfl, e2⟩ := span_unique IsHex e1 ha.2.1 ha'.2.1 (head_not_hex _ (by decide) _) (head_not_hex _ (by decide) _)
      obtain ⟨rfl, e3⟩ := payload_unique hp hp' (List.cons.inj e2).2
      have : k = k' := by revert ek; cases k <;> cases k' <;> decide
      exact ⟨by rw [this, hexNumeral_unique ha ha'], e3⟩
    | state _ _ _ _ =>
      exfalso
      have : k.letter = 'S' := (List.cons.inj e).1
      revert this; cases k <;> decide
  | @state d a b err c n z ha hb he hc =>
    cases h' with
    | @frame k' _ _ _ _ _ _ =>
      exfalso
      have : 'S' = k'.letter := (List.cons.inj e).1
      revert this; cases k' <;> decide
    | @state d' a' b' err' c' n' z' ha' hb' he' hc' =>
      simp only [List.append_assoc] at e
      have e1 := List.append_cancel_left e
      obtain ⟨rfl, e2⟩ := span_unique IsHex e1 (numeral_hex ha) (numeral_hex ha') (head_not_hex _ (by decide) _) (head_not_hex _ (by decide) _)
      have e3 := List.append_cancel_left e2
      obtain ⟨rfl, e4⟩ := span_unique IsHex e3 (numeral_hex hb) (numeral_hex hb') (head_not_hex _ (by decide) _) (head_not_hex _ (by decide) _)
      have e5 := List.append_cancel_left e4
      have q : ∀ z : Text, ∀ c, ("') asio: system:".toList ++ z).head? = some c → ¬ (c ≠ '\'') := by
        intro z c hz
        have : '\'' = c := by simpa using hz
        exact fun hne => hne this.symm
      obtain ⟨_, e6⟩ := span_unique (fun c => c ≠ '\'') e5 (fun c hc h => he (h ▸ hc)) (fun c hc h => he' (h ▸ hc)) (q _) (q _)
      have e7 := List.append_cancel_left e6
      obtain ⟨rfl, e8⟩ := dec_unique hc hc' (by simpa using e7)
      have hn := numeral_unique ha ha'
      have : d = d' := by revert hn; cases d <;> cases d' <;> decide
      exact ⟨by rw [this, numeral_unique hb hb'], e8⟩

theorem line_ne_nil {t : Text} {v : Seen} (h : Line t v) : t ≠ [] := by
  cases h with
  | frame _ _ => simp
  | state _ _ _ _ => intro h; cases (List.append_eq_nil_iff.mp h).1

theorem says_unique {t : Text} {v w : List Seen} (h : Says t v) (h' : Says t w) : v = w := by
  induction h generalizing w with
  | nil =>
    generalize hn : ([] : Text) = n at h'
    cases h' with
    | nil => rfl
    | cons hl _ => exact absurd (List.append_eq_nil_iff.mp hn.symm).1 (line_ne_nil hl)
  | @cons l t v vs hl ht ih =>
    generalize hn : l ++ t = n at h'
    cases h' with
    | nil => exact absurd (List.append_eq_nil_iff.mp hn).1 (line_ne_nil hl)
    | @cons l' t' v' vs' hl' ht' =>
      obtain ⟨rfl, rfl⟩ := line_unique hl hl' hn
      rw [ih ht']

/-! ## What is printed -/

theorem says_append {t u : Text} {v w : List Seen} (h : Says t v) (h' : Says u w) : Says (t ++ u) (v ++ w) := by
  induction h with
  | nil => exact h'
  | cons hl _ ih => rw [List.append_assoc]; exact .cons hl ih

theorem run_append (s : Stream) (a b : List Op) : s.run (a ++ b) = (s.run a).run b := List.foldl_append

theorem dec_toString (n : Nat) : Numeral 10 (toString (n : Int)).toList n := by
  have e : (toString (n : Int)).toList = Nat.toDigits 10 n := by
    show (Nat.repr n).toList = _
    simp [Nat.repr]
  rw [e]
  exact (OD.toDigits_numeral n).1

theorem dec_toString_int (z : Int) : Dec (toString z).toList z := by
  cases z with
  | ofNat n => exact .pos (dec_toString n)
  | negSucc n =>
    have e : (toString (Int.negSucc n)).toList = '-' :: (toString ((n + 1 : Nat) : Int)).toList := by
      show ("-" ++ Nat.repr (n + 1)).toList = '-' :: (Nat.repr (n + 1)).toList
      simp
    rw [e]
    exact .neg (dec_toString (n + 1))

theorem hex_show (n : Nat) (h : n < 4294967296) : HexNumeral (showNum true (n : Int)) n := by
  have : ((n : Int) % 4294967296).toNat = n := by omega
  unfold showNum
  rw [if_pos rfl, this]
  exact ostreamHex_numeral true n

theorem byte_ops (bs : List Byte) : ∀ t, ∃ u, Stream.run ⟨t, true⟩ (bs.flatMap fun b => [.hex, .text [' '], .num (b.toNat : Int)]) = ⟨t ++ u, true⟩ ∧ Bytes u bs := by
  induction bs with
  | nil => intro t; exact ⟨[], by simp [Stream.run], .nil⟩
  | cons b bs ih =>
    intro t
    obtain ⟨u, hu, hb⟩ := ih (t ++ ' ' :: showNum true (b.toNat : Int))
    refine ⟨' ' :: (showNum true (b.toNat : Int) ++ u), ?_, .cons (hex_show _ (by have := b.isLt; omega)) hb⟩
    rw [List.flatMap_cons, run_append]
    have : Stream.run ⟨t, true⟩ [.hex, .text [' '], .num (b.toNat : Int)] = ⟨t ++ ' ' :: showNum true (b.toNat : Int), true⟩ := by simp [Stream.run, Stream.exec]
    rw [this, hu]
    simp

theorem head_ops (f : Frame) (t : Text) :
    Stream.run ⟨t, false⟩ ((if f.isError then [.text "E ".toList, .hex, .num f.id.toNat, .dec] else if f.isExtended then [.text "e ".toList, .hex, .num f.id.toNat, .dec]
      else [.text "s ".toList, .hex, .num f.id.toNat, .dec]) ++ [Op.text ['\t']]) =
    ⟨t ++ (Kind.letter (if f.isError then .error else if f.isExtended then .extended else .standard)) :: ' ' :: (showNum true (f.id.toNat : Int) ++ ['\t']), false⟩ := by
  cases f.isError <;> cases f.isExtended <;> simp [Stream.run, Stream.exec, Kind.letter]

theorem frame_line (f : Frame) (h : f.dlc.toNat ≤ 8) (t : Text) : ∃ ops u, printFrame f = .ok ops ∧ Stream.run ⟨t, false⟩ ops = ⟨t ++ u, false⟩ ∧ Line u (seen (.frame f)) := by
  have hid : HexNumeral (showNum true (f.id.toNat : Int)) f.id.toNat := hex_show _ (by have := f.id.isLt; omega)
  unfold printFrame
  dsimp only
  cases hr : f.isRtr with
  | true =>
    rw [if_pos rfl]
    refine ⟨_, Kind.letter (if f.isError then .error else if f.isExtended then .extended else .standard) :: ' ' :: (showNum true (f.id.toNat : Int) ++ '\t' :: (['r'] ++ ['\n'])), rfl, ?_, ?_⟩
    · rw [run_append, run_append, head_ops]
      simp [Stream.run, Stream.exec]
    · have := Line.frame (k := (if f.isError then Kind.error else if f.isExtended then .extended else .standard)) hid Payload.remote
      simpa [seen, hr] using this
  | false =>
    rw [if_neg (by decide)]
    have hb : (f.bytes : Outcome Empty _) = .ok (f.data.toList.take f.dlc.toNat) := by unfold Frame.bytes; rw [if_pos h]
    rw [hb]
    dsimp only
    obtain ⟨u, hu, hbs⟩ := byte_ops (f.data.toList.take f.dlc.toNat)
      (t ++ (Kind.letter (if f.isError then .error else if f.isExtended then .extended else .standard)) :: ' ' :: (showNum true (f.id.toNat : Int) ++ ['\t']) ++ (toString (f.dlc.toNat : Int)).toList)
    refine ⟨_, Kind.letter (if f.isError then .error else if f.isExtended then .extended else .standard) ::
        ' ' :: (showNum true (f.id.toNat : Int) ++ '\t' :: (((toString (f.dlc.toNat : Int)).toList ++ u) ++ ['\n'])), rfl, ?_, ?_⟩
    · rw [run_append, run_append, run_append, head_ops]
      have : ∀ x : Text, Stream.run ⟨x, false⟩ [.num (f.dlc.toNat : Int), .hex] = ⟨x ++ (toString (f.dlc.toNat : Int)).toList, true⟩ := by intro x; simp [Stream.run, Stream.exec, showNum]
      rw [this, hu]
      simp [Stream.run, Stream.exec]
    · have hlen : (f.data.toList.take f.dlc.toNat).length = f.dlc.toNat := by simp; omega
      have hnum := dec_toString f.dlc.toNat
      have := Line.frame (k := (if f.isError then Kind.error else if f.isExtended then .extended else .standard)) hid (Payload.data (bs := f.data.toList.take f.dlc.toNat) (by rw [hlen]; exact hnum) hbs)
      simpa [seen, hr] using this

theorem translate_quote (e : BitVec 32) : '\'' ∉ (translateError e []).2 := by
  have key : ∀ (tab : List (ErrClass × String)) (r : Bool × Text), (∀ c ∈ tab, '\'' ∉ c.2.toList) → '\'' ∉ r.2 →
      '\'' ∉ (tab.foldl (fun r c => if e &&& c.1.bit ≠ 0#32 then (true, r.2 ++ c.2.toList) else r) r).2 := by
    intro tab
    induction tab with
    | nil => intro r _ hr; exact hr
    | cons c tab ih =>
      intro r ht hr
      rw [List.foldl_cons]
      refine ih _ (fun d hd => ht d (by simp [hd])) ?_
      split
      · simp only [List.mem_append, not_or]; exact ⟨hr, ht c (by simp)⟩
      · exact hr
  unfold translateError
  refine key _ _ (by decide) ?_
  split
  · decide
  · simp

theorem state_line (s : State) (t : Text) : ∃ u, Stream.run ⟨t, false⟩ (printState s) = ⟨t ++ u, false⟩ ∧ Line u (seen (.state s)) := by
  refine ⟨_, ?_, Line.state (d := s.driver) (a := (toString (driverNum s.driver)).toList) ?_ (dec_toString s.internalError.toNat) (translate_quote s.internalError) (dec_toString_int s.errorCode)⟩
  · simp [Stream.run, Stream.exec, printState, showNum]
  · have : driverNum s.driver = ((driverNo s.driver : Nat) : Int) := by cases s.driver <;> rfl
    rw [this]
    exact dec_toString _

theorem printAll_says (es : List Ev) (h : ∀ e ∈ es, Sane e) (t : Text) : ∃ u, printAll es ⟨t, false⟩ = .ok ⟨t ++ u, false⟩ ∧ Says u (es.map seen) := by
  induction es generalizing t with
  | nil => exact ⟨[], by simp [printAll], .nil⟩
  | cons e es ih =>
    have hops : ∃ ops u, e.ops = .ok ops ∧ Stream.run ⟨t, false⟩ ops = ⟨t ++ u, false⟩ ∧ Line u (seen e) := by
      cases e with
      | frame f => exact frame_line f (h (.frame f) (by simp)) t
      | state s => obtain ⟨u, hu, hl⟩ := state_line s t; exact ⟨_, u, rfl, hu, hl⟩
    obtain ⟨ops, u, ho, hu, hl⟩ := hops
    obtain ⟨v, hv, hs⟩ := ih (fun x hx => h x (by simp [hx])) (t ++ u)
    refine ⟨u ++ v, ?_, .cons hl hs⟩
    unfold printAll
    rw [ho]
    dsimp only
    rw [hu, hv, List.append_assoc]

end Verif.Cdump
