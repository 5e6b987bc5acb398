import Verif.Spec.Replay
import Verif.Lemmas.TextFrame
import Verif.Model.Dummy
import Verif.Props.Text

set_option linter.unusedSimpArgs false
namespace Verif.Dummy
open Verif Verif.Spec Verif.Txt

theorem dec2hex_lower : ∀ (lc : Bool) (n : Fin 256),
    (dec2hex (BitVec.ofNat 8 n) lc).2.toLower = (dec2hex (BitVec.ofNat 8 n) true).2 := by decide +kernel

theorem dec2hex_lower' (lc : Bool) (b : Byte) : (dec2hex b lc).2.toLower = (dec2hex b true).2 := by
  have := dec2hex_lower lc ⟨b.toNat, b.isLt⟩
  simpa using this

theorem byte2hex_lower (b : Byte) (lc : Bool) : (byte2hex b true lc).map Char.toLower = byte2hex b true true := by
  simp [byte2hex, dec2hex_lower']

theorem buffer2hex_lower (bs : List Byte) (lc : Bool) :
    (buffer2hex bs lc).map Char.toLower = buffer2hex bs true := by
  induction bs with
  | nil => rfl
  | cons b bs ih =>
    have e : ∀ lc, (byte2hex b true lc).isEmpty = false := by intro lc; simp [byte2hex]
    simp [buffer2hex, e, ih, byte2hex_lower]

theorem ostreamHex_lower (lc : Bool) (n : Nat) : (ostreamHex lc n).map Char.toLower = ostreamHex true n := by
  fun_induction ostreamHex lc n with
  | case1 n h => rw [ostreamHex]; simp [h, dec2hex_lower']
  | case2 n h ih => rw [ostreamHex.eq_def true n]; simp [h, dec2hex_lower', ih]

theorem ostreamHex_len (lc : Bool) (n : Nat) : (ostreamHex lc n).length = (ostreamHex true n).length := by
  rw [← ostreamHex_lower lc n]; simp

theorem header_lower (h : Header) (lc : Bool) :
    (headerToString h lc).map Char.toLower = headerToString h true := by
  unfold headerToString
  cases h.isExtended with
  | false => simp [ostreamHex_lower]
  | true =>
    simp only [if_true, padLeft, List.map_append, List.map_replicate, ostreamHex_lower, ostreamHex_len lc]
    rfl

theorem text_lower {f : Frame} {lc : Bool} {t : Text} (h : frameToString (ε := Empty) f lc = .ok t) :
    frameToString (ε := Empty) f true = .ok (t.map Char.toLower) := by
  unfold frameToString at h ⊢
  cases hb : (f.bytes : Outcome Empty _) with
  | ok s =>
    rw [hb] at h
    dsimp only at h ⊢
    injection h with h
    subst h
    rw [List.map_append, header_lower, List.map_cons, buffer2hex_lower]
    rfl
  | throws e => rw [hb] at h; simp at h
  | ub => rw [hb] at h; simp at h

theorem sameFrame_symm {f g : Frame} (h : SameFrame f g) : SameFrame g f := by
  obtain ⟨a, b, c, d, e, i⟩ := h
  exact ⟨a.symm, b.symm, c.symm, d.symm, e.symm, fun k hk hl => (i k hk (by rw [e]; exact hl)).symm⟩

theorem sameFrame_trans {f g k : Frame} (h : SameFrame f g) (h' : SameFrame g k) : SameFrame f k := by
  obtain ⟨a, b, c, d, e, i⟩ := h
  obtain ⟨a', b', c', d', e', i'⟩ := h'
  exact ⟨a.trans a', b.trans b', c.trans c', d.trans d', e.trans e',
    fun n hn hl => (i n hn hl).trans (i' n hn (by rw [← e]; exact hl))⟩

theorem take_eq {f g : Frame} (h : SameFrame f g) :
    f.data.toList.take f.dlc.toNat = g.data.toList.take g.dlc.toNat := by
  obtain ⟨_, _, _, _, e, i⟩ := h
  rw [← e]
  apply List.ext_getElem
  · simp
  · intro n h1 h2
    simp only [List.length_take, Vector.length_toList] at h1
    have := i n (by omega) (by omega)
    simpa using this

/-- frames that are observably the same have the same text, and printable frames with the same text are the same -/
theorem text_iff {f g : Frame} (hf : Printable f) (hg : Printable g) {s t : Text}
    (hs : frameToString (ε := Empty) f true = .ok s) (ht : frameToString (ε := Empty) g true = .ok t) :
    s = t ↔ SameFrame f g := by
  constructor
  · rintro rfl
    obtain ⟨s1, e1, p1⟩ := Props.C01_frame_text_roundtrip_partial f true (Vector.replicate 8 0) hf.1 hf.2
    obtain ⟨s2, e2, p2⟩ := Props.C01_frame_text_roundtrip_partial g true (Vector.replicate 8 0) hg.1 hg.2
    rw [hs] at e1; injection e1 with e1; subst e1
    rw [ht] at e2; injection e2 with e2; subst e2
    exact sameFrame_trans p1 (sameFrame_symm p2)
  · intro h
    have hb := take_eq h
    obtain ⟨a, b, c, d, _, _⟩ := h
    have hh : f.toHeader = g.toHeader := by
      obtain ⟨⟨i, e, r, x⟩, _, _⟩ := f
      obtain ⟨⟨i', e', r', x'⟩, _, _⟩ := g
      simp_all
    unfold frameToString at hs ht
    rw [bytes_ok hf.1.1] at hs
    rw [bytes_ok hg.1.1, ← hb, ← hh] at ht
    dsimp only at hs ht
    injection hs with hs
    injection ht with ht
    rw [← hs, ← ht]

/-- the stored script belongs to the wanted frames -/
def Stored (want : Frame × List Frame) (line : Text × List Frame) : Prop :=
  Printable want.1 ∧ frameToString (ε := Empty) want.1 true = .ok line.1 ∧ Pointwise SameFrame want.2 line.2

theorem pointwise_app {α β : Type} {R : α → β → Prop} {a b : List α} {c d : List β}
    (h : Pointwise R a c) (h' : Pointwise R b d) : Pointwise R (a ++ b) (c ++ d) := by
  induction a generalizing c with
  | nil => cases c with
    | nil => exact h'
    | cons x xs => exact h.elim
  | cons y ys ih => cases c with
    | nil => exact h.elim
    | cons x xs => exact ⟨h.1, ih h.2⟩

theorem pointwise_map {α β γ : Type} {R : α → β → Prop} {S : α → γ → Prop} (f : β → γ)
    (hf : ∀ a b, R a b → S a (f b)) {as : List α} {bs : List β} (h : Pointwise R as bs) :
    Pointwise S as (bs.map f) := by
  induction as generalizing bs with
  | nil => cases bs with
    | nil => trivial
    | cons _ _ => exact h.elim
  | cons a as ih => cases bs with
    | nil => exact h.elim
    | cons b bs => exact ⟨hf _ _ h.1, ih h.2⟩

theorem stored_of_writes (junk : Vector Byte 8) {w : Frame × List Frame} {l : Text × List Text} (h : Writes w l) :
    Stored w (l.1.map Char.toLower, l.2.map (toframe junk)) := by
  obtain ⟨⟨hp, lc, ht⟩, ha⟩ := h
  refine ⟨hp, text_lower ht, pointwise_map _ ?_ ha⟩
  rintro f t ⟨hpf, lc', htf⟩
  obtain ⟨s, hs, hsame⟩ := Props.C01_frame_text_roundtrip_partial f lc' junk hpf.1 hpf.2
  rw [htf] at hs
  injection hs with hs
  rw [hs]; exact hsame

theorem addAll (junk : Vector Byte 8) (lines : List (Text × List Text)) (r : List (Text × List Frame)) :
    lines.foldl (fun r l => addScript junk r l.1 l.2) r =
      r ++ lines.map (fun l => (l.1.map Char.toLower, l.2.map (toframe junk))) := by
  induction lines generalizing r with
  | nil => simp
  | cons l ls ih => rw [List.foldl_cons, ih]; simp only [addScript, List.map_cons, List.append_assoc, List.singleton_append]

theorem respond_cons {m : Frame} (hm : m.dlc.toNat ≤ 8) (e : Text) (a : List Frame) (rest : List (Text × List Frame)) :
    ∃ s, frameToString (ε := Empty) m true = .ok s ∧
      respond ((e, a) :: rest) m = .ok (if s = e then (a, rest) else ([], (e, a) :: rest)) := by
  obtain ⟨s, hs⟩ : ∃ s, frameToString (ε := Empty) m true = .ok s := by
    unfold frameToString; rw [bytes_ok hm]; exact ⟨_, rfl⟩
  refine ⟨s, hs, ?_⟩
  unfold respond
  dsimp only
  rw [hs]
  dsimp only
  split <;> rfl

theorem serve_plays {want : List (Frame × List Frame)} {script : List (Text × List Frame)}
    (hw : Pointwise Stored want script) (ms : List Frame) (hm : ∀ m ∈ ms, Printable m) :
    (∀ out rest, serve script ms = .ok (out, rest) →
      ∃ sent left, Plays want ms sent left ∧ Pointwise SameFrame sent out ∧ Pointwise Stored left rest) ∧
    (∀ x, serve script ms ≠ .throws x) ∧
    (serve script ms = .ub ↔ ∃ pre m post sent, ms = pre ++ m :: post ∧ Plays want pre sent []) := by
  induction ms generalizing want script with
  | nil =>
    refine ⟨fun out rest h => ?_, fun x h => by simp [serve] at h, ?_⟩
    · simp only [serve] at h
      injection h with h
      injection h with h1 h2
      subst h1 h2
      exact ⟨[], want, .nothing _, trivial, hw⟩
    · simp [serve]
  | cons m ms ih =>
    cases script with
    | nil =>
      cases want with
      | cons _ _ => exact hw.elim
      | nil =>
        refine ⟨fun out rest h => by simp [serve, respond] at h, fun x h => by simp [serve, respond] at h, ?_⟩
        simp only [serve, respond, true_iff]
        exact ⟨[], m, ms, [], rfl, .nothing _⟩
    | cons l script =>
      cases want with
      | nil => exact hw.elim
      | cons w want =>
        obtain ⟨e, a⟩ := l
        obtain ⟨we, wa⟩ := w
        obtain ⟨⟨hpe, hte, hsa⟩, hw'⟩ := hw
        have hpm := hm m (by simp)
        obtain ⟨s, hs, hr⟩ := respond_cons hpm.1.1 e a script
        have key := text_iff hpm hpe hs hte
        by_cases hse : s = e
        · have hsame := key.1 hse
          rw [if_pos hse] at hr
          obtain ⟨i1, i2, i3⟩ := ih hw' (fun x hx => hm x (by simp [hx]))
          simp only [serve, hr]
          cases hq : serve script ms with
          | ok p =>
            obtain ⟨o, r⟩ := p
            refine ⟨?_, by simp, ?_⟩
            · intro out rest h
              simp only [Outcome.ok.injEq, Prod.mk.injEq] at h
              obtain ⟨rfl, rfl⟩ := h
              obtain ⟨sent, left, p1, p2, p3⟩ := i1 o r hq
              exact ⟨wa ++ sent, left, .expected hsame p1, pointwise_app hsa p2, p3⟩
            · simp only [reduceCtorEq, false_iff]
              rintro ⟨pre, m', post, sent, heq, hp⟩
              cases pre with
              | nil => cases hp
              | cons y pre =>
                simp only [List.cons_append, List.cons.injEq] at heq
                obtain ⟨rfl, heq⟩ := heq
                cases hp with
                | expected _ hp =>
                  have := i3.2 ⟨pre, m', post, _, heq, hp⟩
                  rw [hq] at this; cases this
                | other hn _ => exact hn hsame
          | throws x => exact absurd hq (i2 x)
          | ub =>
            refine ⟨by simp, by simp, ?_⟩
            simp only [true_iff]
            obtain ⟨pre, m', post, sent, heq, hp⟩ := i3.1 hq
            exact ⟨m :: pre, m', post, wa ++ sent, by simp [heq], .expected hsame hp⟩
        · have hdiff : ¬ SameFrame m we := fun h => hse (key.2 h)
          rw [if_neg hse] at hr
          have hw2 : Pointwise Stored ((we, wa) :: want) ((e, a) :: script) := ⟨⟨hpe, hte, hsa⟩, hw'⟩
          obtain ⟨i1, i2, i3⟩ := ih hw2 (fun x hx => hm x (by simp [hx]))
          simp only [serve, hr]
          cases hq : serve ((e, a) :: script) ms with
          | ok p =>
            obtain ⟨o, r⟩ := p
            refine ⟨?_, by simp, ?_⟩
            · intro out rest h
              simp only [Outcome.ok.injEq, Prod.mk.injEq, List.nil_append] at h
              obtain ⟨rfl, rfl⟩ := h
              obtain ⟨sent, left, p1, p2, p3⟩ := i1 o r hq
              exact ⟨sent, left, .other hdiff p1, p2, p3⟩
            · simp only [reduceCtorEq, false_iff]
              rintro ⟨pre, m', post, sent, heq, hp⟩
              cases pre with
              | nil => cases hp
              | cons y pre =>
                simp only [List.cons_append, List.cons.injEq] at heq
                obtain ⟨rfl, heq⟩ := heq
                cases hp with
                | expected hy _ => exact hdiff hy
                | other _ hp =>
                  have := i3.2 ⟨pre, m', post, _, heq, hp⟩
                  rw [hq] at this; cases this
          | throws x => exact absurd hq (i2 x)
          | ub =>
            refine ⟨by simp, by simp, ?_⟩
            simp only [true_iff]
            obtain ⟨pre, m', post, sent, heq, hp⟩ := i3.1 hq
            exact ⟨m :: pre, m', post, sent, by simp [heq], .other hdiff hp⟩

end Verif.Dummy
