import Verif.Spec.PdoAgree
import Verif.Lemmas.PdoAgree
import Verif.Props.PdoDevice
import Verif.Props.Pdo

/-!
# C125: the node and the device agree on the contents of PDOs
-/

set_option linter.unusedSimpArgs false

namespace Verif.Props
open Verif Verif.OD Verif.Spec Verif.Spec.Pdo Verif.Pdo Verif.PdoInit

private theorem count_le (dict : Dict) (map : BitVec 16) : mappingCount dict map ≤ 64 := by
  unfold mappingCount
  split
  · split
    · split <;> omega
    · omega
  · omega

private theorem usable_some {dict : Dict} {node : BitVec 8} {com map : BitVec 16} (h : usable dict node com map = true) :
    0 < mappingCount dict map ∧ ∀ w, cobOf dict node com = some w → w.msb = false := by
  unfold usable at h
  simp only [Bool.and_eq_true, bne_iff_ne] at h
  refine ⟨Nat.pos_of_ne_zero h.1.2, fun w hw => ?_⟩
  rw [hw] at h
  simpa using h.2

private theorem all_configured {dict : Dict} {map : BitVec 16} (h : AllConfigured dict map) (h0 : 0 < mappingCount dict map) : Configured dict map := by
  obtain ⟨x, w, h1, h2, h3⟩ := h 1 (Nat.le_refl _) h0
  exact ⟨1, x, _, Nat.le_refl _, h0, h1, h3⟩

/-- the words of the layout are those of the device -/
private theorem same_words {dict : Dict} {node : BitVec 8} {com map : BitVec 16} {dir : Bool} {e e' : Env Strict} {words : List (BitVec 32)} {bufs : List Nat}
    (hl : Layout dict map dir e e' words bufs) (ha : Applied dict node com map e') (hall : AllConfigured dict map) (hp : AllPlain dict com map e') :
    e'.c.w.dev.store.words map = words := by
  have h64 := count_le dict map
  have hcount : ((e'.c.w.dev.store map 0).headD 0#8).toNat = words.length := by
    have := ha.count
    rw [List.headD_eq_head?_getD, this]
    simp only [Option.getD_some, BitVec.toNat_ofNat]
    rw [hl.count]
    omega
  apply List.ext_getElem?
  intro j
  unfold Contents.words
  rw [hcount, List.getElem?_map]
  by_cases hj : j < words.length
  · rw [List.getElem?_range hj, List.getElem?_eq_getElem hj]
    simp only [Option.map_some, Option.some.injEq]
    have hj' : j + 1 ≤ mappingCount dict map := by rw [← hl.count]; exact hj
    obtain ⟨x, w, g1, g2, g3⟩ := hall (j + 1) (by omega) hj'
    have hw := ha.entries (j + 1) x w (by omega) hj' g1 g2 g3 (hp.2 _ hj')
    have hc := hl.configured j words[j] x _ (List.getElem?_eq_getElem hj) g1 g3
    rw [hw]
    rw [g3] at hc
    have hc' : (Outcome.ok w : Outcome Err (BitVec 32)) = .ok words[j] := hc
    injection hc'
  · rw [List.getElem?_eq_none (by simpa using hj), List.getElem?_eq_none (by simpa using hj)]
    rfl

private theorem unpack_flatten : ∀ (ws : List (BitVec 32)) (vals : List (List Byte)) (rest : List Byte), vals.map List.length = ws.map wordBytes →
    unpack ws (vals.flatten ++ rest) = (ws.zip vals).map fun p => (wordIndex p.1, wordSub p.1, p.2)
  | [], [], _, _ => rfl
  | [], _ :: _, _, h => by simp at h
  | _ :: _, [], _, h => by simp at h
  | w :: ws, v :: vs, rest, h => by
    simp only [List.map_cons, List.cons.injEq] at h
    simp only [unpack, List.flatten_cons, List.append_assoc, List.zip_cons_cons, List.map_cons]
    rw [← h.1, List.take_left, List.drop_left, unpack_flatten ws vs rest h.2]

/-- C125 (partial: see `C125_default_false`).  A PDO the device receives, with all entries of its mapping configured: after its set-up ended normally, values written to the
mapped objects and sent in a cycle are stored by the device in the objects of the same index and sub-index, each of them completely, and the
device takes the frame for this PDO. -/
theorem C125_received_partial (nr nw : Entry → List Byte → Contents → Option Nat) (mem : Mem) (junk : Vector Byte 8) (nrTx nrRx : Nat) (dict : Dict)
    (hn : dict.NodupKeys) (hk : KeysMatch dict) (node : BitVec 8) (e e' : Env Strict) (x : Rec)
    (he : Reached (strictDev nr nw) mem junk nrTx nrRx dict node e) (hb : e.c.w.dev.broken = false) (com map : BitVec 16) (hp : IsPair com map)
    (hpr : present dict com map = true) (hg : Proper dict com map) (hall : AllConfigured dict map) (h : tpdoInit (strictDev nr nw) mem junk com map e = (e', .ok (some x)))
    (hplain : AllPlain dict com map e') :
    ∃ words, Layout dict map false e e' words x.bufs ∧
      ∀ (objs : List Obj) (vals : List (List Byte)), Fits objs → sizesOf objs = words.map wordBytes → vals.map List.length = words.map wordBytes →
        ∃ s outs f, (TSched.fresh x.frame objs).run (vals.zipIdx.map (fun p => .write p.2 p.1) ++ List.replicate objs.length .pick) = .ok (s, outs ++ [some f]) ∧
          e'.c.w.dev.store.owns com f ∧
          unpack (e'.c.w.dev.store.words map) (f.data.toList.take f.dlc.toNat) = (words.zip vals).map fun p => (wordIndex p.1, wordSub p.1, p.2) := by
  obtain ⟨-, -, -, -, -, hne⟩ := pair_facts hp
  have hfr := (C80_frame (strictDev nr nw) mem junk nrTx nrRx dict hn node e e' he com map hpr (some x)).2 h
  obtain ⟨hu, hx⟩ := hfr
  obtain ⟨h0, hmsb⟩ := usable_some (by simpa using hu.symm)
  obtain ⟨-, w, hw, ⟨f1, f2, f3, f4⟩, -⟩ := hx x rfl
  have hap := C110_applied_received nr nw mem junk nrTx nrRx dict hn hk node e e' _ he hb com map hp hg (all_configured hall h0) h hplain.1 (hplain.2 0 (Nat.zero_le _))
  obtain ⟨words, hl, hdlc⟩ := C79_received (strictDev nr nw) mem junk nrTx nrRx dict hn hk node e he com map hne e' x h
  refine ⟨words, hl, ?_⟩
  intro objs vals hfit hsz hv
  have hd : x.frame.dlc.toNat = (sizesOf objs).sum := by
    rw [hdlc, ← hsz, BitVec.toNat_ofNat]
    have := hfit.2.1
    omega
  obtain ⟨s, outs, f, g1, -, g3, -, g5⟩ := C38_layout_sent objs hfit x.frame hd vals (by rw [hv, hsz])
  have hcob : e'.c.w.dev.store.cob com = w := by
    have := hap.id
    rw [hw] at this
    exact (Option.some.inj this).symm
  refine ⟨s, outs, f, g1, ⟨?_, ?_, ?_, ?_⟩, ?_⟩
  · unfold Contents.on
    rw [hcob, hmsb w hw]
    rfl
  · have : f.id = x.frame.id := congrArg Header.id g3
    rw [this, hcob]; exact f1
  · have : f.isExtended = x.frame.isExtended := congrArg Header.isExtended g3
    rw [this, hcob]; exact f2
  · have : f.isError = x.frame.isError := congrArg Header.isError g3
    rw [this]; exact f4
  · rw [same_words hl hap hall hplain, g5]
    have := unpack_flatten words vals [] hv
    rwa [List.append_nil] at this

private theorem slice_payload (sizes : List Nat) (vals : List (List Byte)) (f : Frame) (hv : vals.map List.length = sizes) (hs : f.dlc.toNat = sizes.sum)
    (hf : f.data.toList.take f.dlc.toNat = vals.flatten) (i : Nat) (v : List Byte) (hi : vals[i]? = some v) : slice sizes i f = v := by
  have hil : i < vals.length := by
    rcases Nat.lt_or_ge i vals.length with h | h
    · exact h
    · rw [List.getElem?_eq_none h] at hi; cases hi
  have hvi : vals[i] = v := by rw [List.getElem?_eq_getElem hil] at hi; simpa using hi
  have hlv : sizes.length = vals.length := by rw [← hv]; simp
  have hsz : v.length = sizes.getD i 0 := by rw [← hv]; simp [List.getD, hil, hvi]
  have hle := offset_le sizes i (by rw [hlv]; exact hil)
  have e1 : slice sizes i f = ((f.data.toList.take f.dlc.toNat).drop (offset sizes i)).take (sizes.getD i 0) := by
    simp only [slice]
    rw [List.drop_take, List.take_take, Nat.min_eq_left]
    rw [hs]; omega
  rw [e1, hf, ← hsz, ← hv, flatten_slice vals i v hi]

/-- C125 (partial: see `C125_default_false`).  A PDO the device sends, with all entries of its mapping configured: after its set-up ended normally, the node listens for the
identifier of the device, and when the device sends the values its mapped objects have then, the buffer of the `i`-th word is read with the value
of the object of the device that this word names. -/
theorem C125_sent_partial (nr nw : Entry → List Byte → Contents → Option Nat) (mem : Mem) (junk : Vector Byte 8) (nrTx nrRx : Nat) (dict : Dict)
    (hn : dict.NodupKeys) (hk : KeysMatch dict) (node : BitVec 8) (e e' : Env Strict) (x : Rec)
    (he : Reached (strictDev nr nw) mem junk nrTx nrRx dict node e) (hb : e.c.w.dev.broken = false) (com map : BitVec 16) (hp : IsPair com map)
    (hpr : present dict com map = true) (hg : Proper dict com map) (hall : AllConfigured dict map) (h : rpdoInit (strictDev nr nw) mem junk com map e = (e', .ok (some x)))
    (hplain : AllPlain dict com map e') :
    e'.c.w.dev.store.owns com x.frame ∧
    ∃ words, Layout dict map true e e' words x.bufs ∧
      ∀ (later : Contents) (objs : List Obj) (f : Frame), (∀ s, later map s = e'.c.w.dev.store map s) →
        Fits objs → sizesOf objs = words.map wordBytes → (∀ w ∈ words, (later (wordIndex w) (wordSub w)).length = wordBytes w) →
        f.dlc.toNat = (later.payload map).length → f.data.toList.take f.dlc.toNat = later.payload map →
        ∀ (i : Nat) (w : BitVec 32) (data : List Byte), words[i]? = some w → data.length = wordBytes w →
          ∃ r, (Rpdo.fresh x.frame x.type objs).run [.frame f, .read i data] = .ok (r, [none, some (.ok (later (wordIndex w) (wordSub w)))]) := by
  obtain ⟨-, -, -, -, -, hne⟩ := pair_facts hp
  have hfr := (C80_frame (strictDev nr nw) mem junk nrTx nrRx dict hn node e e' he com map hpr (some x)).1 h
  obtain ⟨hu, hx⟩ := hfr
  obtain ⟨h0, hmsb⟩ := usable_some (by simpa using hu.symm)
  obtain ⟨-, w, hw, ⟨f1, f2, f3, f4⟩, -⟩ := hx x rfl
  have hap := C110_applied_sent nr nw mem junk nrTx nrRx dict hn hk node e e' _ he hb com map hp hg (all_configured hall h0) h hplain.1 (hplain.2 0 (Nat.zero_le _))
  obtain ⟨words, hl⟩ := C79_sent (strictDev nr nw) mem junk nrTx nrRx dict hn hk node e he com map hne e' x h
  have hcob : e'.c.w.dev.store.cob com = w := by
    have := hap.id
    rw [hw] at this
    exact (Option.some.inj this).symm
  refine ⟨⟨?_, by rw [hcob]; exact f1, by rw [hcob]; exact f2, f4⟩, words, hl, ?_⟩
  · unfold Contents.on
    rw [hcob, hmsb w hw]
    rfl
  intro later objs f hlater hfit hsz hlen hdlc hpay i w' data hi hd
  have hws : later.words map = words := by
    rw [← same_words hl hap hall hplain]
    unfold Contents.words
    simp only [hlater]
  have hv : (words.map fun w => later (wordIndex w) (wordSub w)).map List.length = sizesOf objs := by
    rw [hsz, List.map_map]
    exact List.map_congr_left fun w hw => hlen w hw
  have hpl : later.payload map = (words.map fun w => later (wordIndex w) (wordSub w)).flatten := by
    unfold Contents.payload
    rw [hws]
  have hsum : f.dlc.toNat = (sizesOf objs).sum := by
    rw [hdlc, hpl, List.length_flatten, hv]
  have hil : i < objs.length := by
    have h1 : words.length = objs.length := by
      have := congrArg List.length hsz
      simpa [sizesOf] using this.symm
    rw [← h1]
    rcases Nat.lt_or_ge i words.length with h | h
    · exact h
    · rw [List.getElem?_eq_none h] at hi; cases hi
  have hgd : data.length = (sizesOf objs).getD i 0 := by
    rw [hsz, hd, List.getD_eq_getElem?_getD, List.getElem?_map, hi]
    rfl
  obtain ⟨r, hr⟩ := C38_layout_received objs hfit x.frame x.type f (by omega) i hil data hgd
  refine ⟨r, ?_⟩
  rw [hr, slice_payload (sizesOf objs) _ f hv hsum (by rw [hpay, hpl]) i (later (wordIndex w') (wordSub w')) (by rw [List.getElem?_map, hi]; rfl)]

/-- the record of a PDO is that of `com`, `map`: objects are mapped, and the frame is that of the identifier in the dictionary, which is switched on -/
private def Good (dict : Dict) (node : BitVec 8) (x : Rec) (fromDevice : Bool) (com map : BitVec 16) : Prop :=
  x.com = com ∧ 0 < mappingCount dict map ∧ ∃ w, cobOf dict node com = some w ∧ w.msb = false ∧ FrameOf w fromDevice x.frame

private theorem create_some {m : Act Strict (Option Rec)} {e e1 e2 : Env Strict} {y : Rec} (h : create m e = (e1, .ok (some y))) (h2 : m e = (e2, .ok (some y))) : e1 = e2 := by
  unfold create at h
  rw [h2] at h
  cases h
  rfl

private theorem rpdoLoop_all (nr nw : Entry → List Byte → Contents → Option Nat) (mem : Mem) (junk : Vector Byte 8) (n : Nat) (dict : Dict) (hk : KeysMatch dict)
    (node : BitVec 8) (is : List Nat) : is.Nodup → (∀ i ∈ is, i < 512) → ∀ (e e' : Env Strict) u, Base dict node e → e.c.w.dev.broken = false →
    rpdoLoop (strictDev nr nw) mem junk n is e = (e', .ok u) →
    (∀ i ∈ is, present dict (sends i).1 (sends i).2 = true → Proper dict (sends i).1 (sends i).2 ∧ Plain (sub (sends i).1 1) e' ∧ Plain (sub (sends i).2 0) e') →
    ∀ x ∈ e'.rpdos, x ∈ e.rpdos ∨ ∃ i ∈ is, Good dict node x true (sends i).1 (sends i).2 ∧
      (Configured dict (sends i).2 → Applied dict node (sends i).1 (sends i).2 e') := by
  induction is with
  | nil =>
    intro _ _ e e' u _ _ h _ x hx
    obtain ⟨rfl, -⟩ := pure_ok h
    exact .inl hx
  | cons i is ih =>
    intro hnd hlt e e' u hb hbr h hH x hx
    have hlt' : ∀ j ∈ is, j < 512 := fun j hj => hlt j (List.mem_cons_of_mem _ hj)
    have hi5 := hlt i List.mem_cons_self
    have hH' := fun j (hj : j ∈ is) => hH j (List.mem_cons_of_mem _ hj)
    obtain ⟨hni, hnd'⟩ := List.nodup_cons.1 hnd
    have wide : ∀ {e1 : Env Strict}, (x ∈ e1.rpdos ∨ ∃ k ∈ is, Good dict node x true (sends k).1 (sends k).2 ∧
        (Configured dict (sends k).2 → Applied dict node (sends k).1 (sends k).2 e')) → (x ∈ e1.rpdos → x ∈ e.rpdos) →
        x ∈ e.rpdos ∨ ∃ k ∈ i :: is, Good dict node x true (sends k).1 (sends k).2 ∧
        (Configured dict (sends k).2 → Applied dict node (sends k).1 (sends k).2 e') := by
      intro e1 h1 h2
      rcases h1 with h1 | ⟨k, hk1, hk2⟩
      · exact .inl (h2 h1)
      · exact .inr ⟨k, List.mem_cons_of_mem _ hk1, hk2⟩
    unfold rpdoLoop at h
    dsimp only at h
    split at h
    · split at h
      · exact wide (ih hnd' hlt' e e' u hb hbr h hH' x hx) id
      · rename_i hq
        have hpr : present dict (sends i).1 (sends i).2 = true := by
          rw [← hb.isDict]
          simpa [sends] using hq
        obtain ⟨hg, hA, hB⟩ := hH i List.mem_cons_self hpr
        have hpair : IsPair (sends i).1 (sends i).2 := ⟨i, hi5, .inl rfl⟩
        have hf := fine_rpdo (nr := nr) (nw := nw) mem junk hpair hg (e := e) ⟨⟨hb.cons, hb.isDict, hk⟩, hbr⟩
        have hbase := create_base (keep_rpdoInit (base_stable (strictDev nr nw) dict node) mem junk (sends i).1 (sends i).2) e hb
        have hcc : create (rpdoInit (strictDev nr nw) mem junk (0x1800#16 + BitVec.ofNat 16 i) (0x1A00#16 + BitVec.ofNat 16 i)) e =
          create (rpdoInit (strictDev nr nw) mem junk (sends i).1 (sends i).2) e := rfl
        rw [hcc] at h
        cases hc : create (rpdoInit (strictDev nr nw) mem junk (sends i).1 (sends i).2) e with
        | mk e1 o =>
          rw [hc] at h hf hbase
          dsimp only at hf hbase
          cases o with
          | throws y => cases h
          | ub => cases h
          | ok o =>
            obtain ⟨e2, h2, q1, q2, q3⟩ := create_ok hc
            have k := keep_ok (keep_rpdoInit (kept_stable (strictDev nr nw) e) mem junk _ _) h2 (.refl e)
            cases o with
            | none =>
              dsimp only at h
              have hpl : ∀ (k : Key), Plain k e' → Plain k e1 := fun k hp => by
                have := back (keep_rpdoLoop (nr := nr) (nw := nw) mem junk (notPlain_stable _ k) (fun _ _ h => h) (fun _ _ h => h) n is) (e := e1)
                rw [h] at this
                exact this hp
              have hfine := hf (hpl _ hA) (hpl _ hB)
              exact wide (ih hnd' hlt' e1 e' u hbase hfine.2 h hH' x hx) (fun hx => by rw [q2, k.rpdos] at hx; exact hx)
            | some y =>
              dsimp only at h
              have he12 : e1 = e2 := create_some hc h2
              have hpl : ∀ (k : Key), Plain k e' → Plain k e1 := fun k hp => by
                have := back (keep_rpdoLoop (nr := nr) (nw := nw) mem junk (notPlain_stable _ k) (fun _ _ h => h) (fun _ _ h => h) n is) (e := { e1 with rpdos := e1.rpdos ++ [y] })
                rw [h] at this
                exact fun d hd => this hp d hd
              have hfine := hf (hpl _ hA) (hpl _ hB)
              have hrec := ih hnd' hlt' { e1 with rpdos := e1.rpdos ++ [y] } e' u ⟨hbase.cons, hbase.isDict, hbase.isNode⟩ hfine.2 h hH' x hx
              rcases hrec with hrec | ⟨k, hk1, hk2⟩
              · rcases List.mem_append.1 hrec with hm | hm
                · rw [q2, k.rpdos] at hm
                  exact .inl hm
                · simp only [List.mem_cons, List.not_mem_nil, or_false] at hm
                  subst hm
                  refine .inr ⟨i, List.mem_cons_self, ?_, fun hcfg => ?_⟩
                  · obtain ⟨hu, hx'⟩ := (frame_base (strictDev nr nw) mem junk dict node e e2 hb (sends i).1 (sends i).2 hpr (some x)).1 h2
                    obtain ⟨u0, u1⟩ := usable_some (by simpa using hu.symm)
                    obtain ⟨v1, w, v2, v3, -⟩ := hx' x rfl
                    exact ⟨v1, u0, w, v2, u1 w v2, v3⟩
                  · have hap := applied_sent_base nr nw mem junk dict hk node e e2 (some x) hb hbr (sends i).1 (sends i).2 hpair hg hcfg h2
                      (by rw [← he12]; exact hpl _ hA) (by rw [← he12]; exact hpl _ hB)
                    have hkeep : ∀ j s, (∀ k ∈ is, j ≠ (sends k).1 ∧ j ≠ (sends k).2) → e'.c.w.dev.store j s = e2.c.w.dev.store j s := by
                      intro j s hj
                      have := keep_ok (holds_rpdoLoop (nr := nr) (nw := nw) (dict := dict) (t := s) (val := e2.c.w.dev.store j s) mem junk n is hj) h
                        ⟨⟨hbase.cons, hbase.isDict, hk⟩, by rw [← he12]⟩
                      exact this.2
                    refine applied_keep hap (fun s => hkeep _ s fun k hk1 => ?_) (fun s => hkeep _ s fun k hk1 => ?_) (fun k hp => by rw [← he12]; exact hpl k hp)
                    · obtain ⟨p1, p2, p3, p4, p5, -⟩ := params_distinct hi5 (hlt' k hk1)
                      have hik : i ≠ k := fun hik => hni (hik ▸ hk1)
                      exact ⟨(p1 hik).1, p2⟩
                    · obtain ⟨p1, p2, p3, p4, p5, -⟩ := params_distinct hi5 (hlt' k hk1)
                      have hik : i ≠ k := fun hik => hni (hik ▸ hk1)
                      exact ⟨p3, (p1 hik).2.1⟩
              · exact .inr ⟨k, List.mem_cons_of_mem _ hk1, hk2⟩
    · cases h
      exact .inl hx

private theorem tpdoLoop_all (nr nw : Entry → List Byte → Contents → Option Nat) (mem : Mem) (junk : Vector Byte 8) (n : Nat) (dict : Dict) (hk : KeysMatch dict)
    (node : BitVec 8) (is : List Nat) : is.Nodup → (∀ i ∈ is, i < 512) → ∀ (e e' : Env Strict) u, Base dict node e → e.c.w.dev.broken = false →
    tpdoLoop (strictDev nr nw) mem junk n is e = (e', .ok u) →
    (∀ i ∈ is, present dict (receives i).1 (receives i).2 = true → Proper dict (receives i).1 (receives i).2 ∧ Plain (sub (receives i).1 1) e' ∧ Plain (sub (receives i).2 0) e') →
    ∀ x ∈ e'.tpdos, x ∈ e.tpdos ∨ ∃ i ∈ is, Good dict node x false (receives i).1 (receives i).2 ∧
      (Configured dict (receives i).2 → Applied dict node (receives i).1 (receives i).2 e') := by
  induction is with
  | nil =>
    intro _ _ e e' u _ _ h _ x hx
    obtain ⟨rfl, -⟩ := pure_ok h
    exact .inl hx
  | cons i is ih =>
    intro hnd hlt e e' u hb hbr h hH x hx
    have hlt' : ∀ j ∈ is, j < 512 := fun j hj => hlt j (List.mem_cons_of_mem _ hj)
    have hi5 := hlt i List.mem_cons_self
    have hH' := fun j (hj : j ∈ is) => hH j (List.mem_cons_of_mem _ hj)
    obtain ⟨hni, hnd'⟩ := List.nodup_cons.1 hnd
    have wide : ∀ {e1 : Env Strict}, (x ∈ e1.tpdos ∨ ∃ k ∈ is, Good dict node x false (receives k).1 (receives k).2 ∧
        (Configured dict (receives k).2 → Applied dict node (receives k).1 (receives k).2 e')) → (x ∈ e1.tpdos → x ∈ e.tpdos) →
        x ∈ e.tpdos ∨ ∃ k ∈ i :: is, Good dict node x false (receives k).1 (receives k).2 ∧
        (Configured dict (receives k).2 → Applied dict node (receives k).1 (receives k).2 e') := by
      intro e1 h1 h2
      rcases h1 with h1 | ⟨k, hk1, hk2⟩
      · exact .inl (h2 h1)
      · exact .inr ⟨k, List.mem_cons_of_mem _ hk1, hk2⟩
    unfold tpdoLoop at h
    dsimp only at h
    split at h
    · split at h
      · exact wide (ih hnd' hlt' e e' u hb hbr h hH' x hx) id
      · rename_i hq
        have hpr : present dict (receives i).1 (receives i).2 = true := by
          rw [← hb.isDict]
          simpa [receives] using hq
        obtain ⟨hg, hA, hB⟩ := hH i List.mem_cons_self hpr
        have hpair : IsPair (receives i).1 (receives i).2 := ⟨i, hi5, .inr rfl⟩
        have hf := fine_tpdo (nr := nr) (nw := nw) mem junk hpair hg (e := e) ⟨⟨hb.cons, hb.isDict, hk⟩, hbr⟩
        have hbase := create_base (keep_tpdoInit (base_stable (strictDev nr nw) dict node) mem junk (receives i).1 (receives i).2) e hb
        have hcc : create (tpdoInit (strictDev nr nw) mem junk (0x1400#16 + BitVec.ofNat 16 i) (0x1600#16 + BitVec.ofNat 16 i)) e =
          create (tpdoInit (strictDev nr nw) mem junk (receives i).1 (receives i).2) e := rfl
        rw [hcc] at h
        cases hc : create (tpdoInit (strictDev nr nw) mem junk (receives i).1 (receives i).2) e with
        | mk e1 o =>
          rw [hc] at h hf hbase
          dsimp only at hf hbase
          cases o with
          | throws y => cases h
          | ub => cases h
          | ok o =>
            obtain ⟨e2, h2, q1, q2, q3⟩ := create_ok hc
            have k := keep_ok (keep_tpdoInit (kept_stable (strictDev nr nw) e) mem junk _ _) h2 (.refl e)
            cases o with
            | none =>
              dsimp only at h
              have hpl : ∀ (k : Key), Plain k e' → Plain k e1 := fun k hp => by
                have := back (keep_tpdoLoop (nr := nr) (nw := nw) mem junk (notPlain_stable _ k) (fun _ _ h => h) (fun _ _ h => h) n is) (e := e1)
                rw [h] at this
                exact this hp
              have hfine := hf (hpl _ hA) (hpl _ hB)
              exact wide (ih hnd' hlt' e1 e' u hbase hfine.2 h hH' x hx) (fun hx => by rw [q3, k.tpdos] at hx; exact hx)
            | some y =>
              dsimp only at h
              have he12 : e1 = e2 := create_some hc h2
              have hpl : ∀ (k : Key), Plain k e' → Plain k e1 := fun k hp => by
                have := back (keep_tpdoLoop (nr := nr) (nw := nw) mem junk (notPlain_stable _ k) (fun _ _ h => h) (fun _ _ h => h) n is) (e := { e1 with tpdos := e1.tpdos ++ [y] })
                rw [h] at this
                exact fun d hd => this hp d hd
              have hfine := hf (hpl _ hA) (hpl _ hB)
              have hrec := ih hnd' hlt' { e1 with tpdos := e1.tpdos ++ [y] } e' u ⟨hbase.cons, hbase.isDict, hbase.isNode⟩ hfine.2 h hH' x hx
              rcases hrec with hrec | ⟨k, hk1, hk2⟩
              · rcases List.mem_append.1 hrec with hm | hm
                · rw [q3, k.tpdos] at hm
                  exact .inl hm
                · simp only [List.mem_cons, List.not_mem_nil, or_false] at hm
                  subst hm
                  refine .inr ⟨i, List.mem_cons_self, ?_, fun hcfg => ?_⟩
                  · obtain ⟨hu, hx'⟩ := (frame_base (strictDev nr nw) mem junk dict node e e2 hb (receives i).1 (receives i).2 hpr (some x)).2 h2
                    obtain ⟨u0, u1⟩ := usable_some (by simpa using hu.symm)
                    obtain ⟨v1, w, v2, v3, -⟩ := hx' x rfl
                    exact ⟨v1, u0, w, v2, u1 w v2, v3⟩
                  · have hap := applied_received_base nr nw mem junk dict hk node e e2 (some x) hb hbr (receives i).1 (receives i).2 hpair hg hcfg h2
                      (by rw [← he12]; exact hpl _ hA) (by rw [← he12]; exact hpl _ hB)
                    have hkeep : ∀ j s, (∀ k ∈ is, j ≠ (receives k).1 ∧ j ≠ (receives k).2) → e'.c.w.dev.store j s = e2.c.w.dev.store j s := by
                      intro j s hj
                      have := keep_ok (holds_tpdoLoop (nr := nr) (nw := nw) (dict := dict) (t := s) (val := e2.c.w.dev.store j s) mem junk n is hj) h
                        ⟨⟨hbase.cons, hbase.isDict, hk⟩, by rw [← he12]⟩
                      exact this.2
                    refine applied_keep hap (fun s => hkeep _ s fun k hk1 => ?_) (fun s => hkeep _ s fun k hk1 => ?_) (fun k hp => by rw [← he12]; exact hpl k hp)
                    · obtain ⟨p1, p2, p3, p4, p5, -⟩ := params_distinct hi5 (hlt' k hk1)
                      have hik : i ≠ k := fun hik => hni (hik ▸ hk1)
                      exact ⟨(p1 hik).2.2.1, p4⟩
                    · obtain ⟨p1, p2, p3, p4, p5, -⟩ := params_distinct hi5 (hlt' k hk1)
                      have hik : i ≠ k := fun hik => hni (hik ▸ hk1)
                      exact ⟨p5, (p1 hik).2.2.2⟩
              · exact .inr ⟨k, List.mem_cons_of_mem _ hk1, hk2⟩
    · cases h
      exact .inl hx

private theorem words_configured {dict : Dict} {node : BitVec 8} {com map : BitVec 16} {e : Env Strict} (ha : Applied dict node com map e)
    (hall : AllConfigured dict map) (hp : AllPlain dict com map e) : e.c.w.dev.store.words map = configuredWords dict map := by
  have h64 := count_le dict map
  have hcount : ((e.c.w.dev.store map 0).headD 0#8).toNat = mappingCount dict map := by
    rw [List.headD_eq_head?_getD, ha.count]
    simp only [Option.getD_some, BitVec.toNat_ofNat]
    omega
  unfold Contents.words configuredWords
  rw [hcount]
  refine List.map_congr_left fun j hj => ?_
  have hj := List.mem_range.1 hj
  obtain ⟨x, w, g1, g2, g3⟩ := hall (j + 1) (by omega) hj
  rw [ha.entries (j + 1) x w (by omega) hj g1 g2 g3 (hp.2 _ hj), g1]
  dsimp only
  rw [g3]

/-- C125 (partial: see `C125_default_false`).  All PDOs together: when the set-up of the PDOs of a node ended normally, whatever happened before, every PDO that the node
uses is one of the device with the same identifier and format, and if all entries of its mapping are configured, these are the mapping of
the device, in their order.  (For every PDO the dictionary has, identifier and number of entries can be set; the parameters are not
themselves mapped into a PDO.) -/
theorem C125_all_partial (nr nw : Entry → List Byte → Contents → Option Nat) (mem : Mem) (junk : Vector Byte 8) (nrTx nrRx : Nat) (dict : Dict)
    (hn : dict.NodupKeys) (hk : KeysMatch dict) (node : BitVec 8) (e e' : Env Strict)
    (he : Reached (strictDev nr nw) mem junk nrTx nrRx dict node e) (hb : e.c.w.dev.broken = false)
    (h : mapperInit (strictDev nr nw) mem junk nrTx nrRx e = (e', .ok true))
    (hp : ∀ com map, IsPair com map → present dict com map = true → Proper dict com map ∧ AllPlain dict com map e') :
    (∀ x ∈ e'.rpdos, ∃ i < 512, x.com = (sends i).1 ∧ (AllConfigured dict (sends i).2 →
      e'.c.w.dev.store.owns (sends i).1 x.frame ∧ e'.c.w.dev.store.words (sends i).2 = configuredWords dict (sends i).2)) ∧
    (∀ x ∈ e'.tpdos, ∃ i < 512, x.com = (receives i).1 ∧ (AllConfigured dict (receives i).2 →
      e'.c.w.dev.store.owns (receives i).1 x.frame ∧ e'.c.w.dev.store.words (receives i).2 = configuredWords dict (receives i).2)) := by
  have b := reached_base hn he
  have hp' : ∀ com map, IsPair com map → present dict com map = true → Proper dict com map ∧ Plain (sub com 1) e' ∧ Plain (sub map 0) e' :=
    fun com map h1 h2 => ⟨(hp com map h1 h2).1, (hp com map h1 h2).2.1, (hp com map h1 h2).2.2 0 (Nat.zero_le _)⟩
  have hfin : ∀ {x : Rec} {dir : Bool} {com map : BitVec 16}, IsPair com map → Good dict node x dir com map → (Configured dict map → Applied dict node com map e') →
      AllConfigured dict map → e'.c.w.dev.store.owns com x.frame ∧ e'.c.w.dev.store.words map = configuredWords dict map := by
    intro x dir com map hpair hgood hap hall
    obtain ⟨g1, g2, w, g3, g4, f1, f2, f3, f4⟩ := hgood
    have ha := hap (all_configured hall g2)
    have hpr : present dict com map = true := by
      obtain ⟨z, p, q, r⟩ : ∃ z, dict.get (sub map 0) = some z ∧ True ∧ True := by
        unfold mappingCount at g2
        cases hz : dict.get (sub map 0) with
        | none => rw [hz] at g2; exact absurd g2 (by simp)
        | some z => exact ⟨z, rfl, trivial, trivial⟩
      unfold present
      rw [p]
      simp
    have hcob : e'.c.w.dev.store.cob com = w := by
      have := ha.id
      rw [g3] at this
      exact (Option.some.inj this).symm
    refine ⟨⟨?_, by rw [hcob]; exact f1, by rw [hcob]; exact f2, f4⟩, words_configured ha hall (hp com map hpair hpr).2⟩
    unfold Contents.on
    rw [hcob, g4]
    rfl
  have hbody : initBody (strictDev nr nw) mem junk nrTx nrRx e = (e', .ok ()) := by
    unfold mapperInit at h
    revert h
    generalize initBody (strictDev nr nw) mem junk nrTx nrRx e = r
    obtain ⟨e1, o⟩ := r
    intro h
    cases o with
    | ok u => cases h; rfl
    | throws x => cases x <;> cases h
    | ub => cases h
  unfold initBody at hbody
  bnd hbody with e0 u0 h0
  bnd hbody with e1 u1 h1
  bnd hbody with e2 u2 h2
  cases h0
  cases h2
  have b0 : Base dict node { freeBufs (e.rpdos.flatMap (·.bufs)) e with rpdos := [] } := ⟨b.cons, b.isDict, b.isNode⟩
  have b1 := keep_ok (rpdoLoop_base (strictDev nr nw) mem junk nrTx dict node _) h1 b0
  have hmem : ∀ i ∈ List.range 512, i < 512 := fun i hi => List.mem_range.1 hi
  have hnd : (List.range 512).Nodup := List.nodup_range
  generalize List.range 512 = is at *
  have hpl : ∀ (k : Key), Plain k e' → Plain k e1 := fun k hp => by
    have := back (keep_tpdoLoop (nr := nr) (nw := nw) mem junk (notPlain_stable _ k) (fun _ _ h => h) (fun _ _ h => h) nrRx is)
      (e := { freeBufs (e1.tpdos.flatMap (·.bufs)) e1 with tpdos := [] })
    rw [hbody] at this
    exact fun d hd => this hp d hd
  have hH1 : ∀ i ∈ is, present dict (sends i).1 (sends i).2 = true → Proper dict (sends i).1 (sends i).2 ∧ Plain (sub (sends i).1 1) e1 ∧ Plain (sub (sends i).2 0) e1 :=
    fun i hi hq => by
      obtain ⟨a, b, c⟩ := hp' _ _ ⟨i, hmem i hi, .inl rfl⟩ hq
      exact ⟨a, hpl _ b, hpl _ c⟩
  have hfine : e1.c.w.dev.broken = false := by
    have := rpdoLoop_strict (nr := nr) (nw := nw) mem junk nrTx is hmem _ (⟨⟨b0.cons, b0.isDict, hk⟩, hb⟩ : Fine dict _)
      (by rw [h1]; exact hH1)
    rw [h1] at this
    exact this.2
  have hrp : e'.rpdos = e1.rpdos := (tpdoLoop_list (strictDev nr nw) mem junk nrRx dict node is
    { freeBufs (e1.tpdos.flatMap (·.bufs)) e1 with tpdos := [] } e' () b1.cons b1.isDict b1.isNode hbody).2
  constructor
  · intro x hx
    rw [hrp] at hx
    rcases rpdoLoop_all nr nw mem junk nrTx dict hk node _ hnd hmem _ _ _ b0 hb h1 hH1 x hx with h3 | ⟨i, hi, hgood, hap⟩
    · exact absurd h3 (by simp)
    · refine ⟨i, hmem i hi, hgood.1, hfin ⟨i, hmem i hi, .inl rfl⟩ hgood fun hcfg => ?_⟩
      have hkeep : ∀ j s, (∀ k ∈ is, j ≠ (receives k).1 ∧ j ≠ (receives k).2) → e'.c.w.dev.store j s = e1.c.w.dev.store j s := by
        intro j s hj
        have := keep_ok (holds_tpdoLoop (nr := nr) (nw := nw) (dict := dict) (t := s) (val := e1.c.w.dev.store j s) mem junk nrRx is hj) hbody
          ⟨⟨b1.cons, b1.isDict, hk⟩, rfl⟩
        exact this.2
      refine applied_keep (hap hcfg) (fun s => hkeep _ s fun k hk1 => ?_) (fun s => hkeep _ s fun k hk1 => ?_) hpl
      · obtain ⟨-, -, -, -, -, p1, p2, p3, p4⟩ := params_distinct (hmem i hi) (hmem k hk1)
        exact ⟨p1, p2⟩
      · obtain ⟨-, -, -, -, -, p1, p2, p3, p4⟩ := params_distinct (hmem i hi) (hmem k hk1)
        exact ⟨p3, p4⟩
  · intro x hx
    rcases tpdoLoop_all nr nw mem junk nrRx dict hk node _ hnd hmem _ _ _
      (⟨b1.cons, b1.isDict, b1.isNode⟩ : Base dict node { freeBufs (e1.tpdos.flatMap (·.bufs)) e1 with tpdos := [] }) hfine hbody
      (fun i hi hq => hp' _ _ ⟨i, hmem i hi, .inr rfl⟩ hq) x hx with h3 | ⟨i, hi, hgood, hap⟩
    · exact absurd h3 (by simp)
    · exact ⟨i, hmem i hi, hgood.1, hfin ⟨i, hmem i hi, .inr rfl⟩ hgood hap⟩

/-- one PDO, with the configured entries -/
def agreeDict (com map : BitVec 16) (one two : HoldAny) : Dict :=
  [(Key.ofSub com 0, exampleSub com 0 (.val (.int .u8 2#8)) .none),
   (Key.ofSub com 1, exampleSub com 1 (.val (.int .u32 0x181#32)) .none),
   (Key.ofSub com 2, exampleSub com 2 (.val (.int .u8 1#8)) .none),
   (Key.ofSub map 0, exampleSub map 0 (.val (.int .u8 2#8)) .none),
   (Key.ofSub map 1, exampleSub map 1 (.val (.int .u32 0x60000008#32)) one),
   (Key.ofSub map 2, exampleSub map 2 (.val (.int .u32 0x60010010#32)) two),
   (Key.ofIndex 0x6000#16, exampleSub 0x6000#16 0 (.empty (.int .u8)) .none),
   (Key.ofIndex 0x6001#16, exampleSub 0x6001#16 0 (.empty (.int .u16)) .none)]

/-- a device whose PDO `com`, `map` is switched on and has another mapping than the dictionary says: the same objects in the opposite order -/
def agreeDevice (com map : BitVec 16) : Strict where
  store i s :=
    if i = com ∧ s = 0 then [2#8] else if i = com ∧ s = 1 then [0x81#8, 1#8, 0#8, 0#8] else if i = com ∧ s = 2 then [1#8]
    else if i = map ∧ s = 0 then [2#8] else if i = map ∧ s = 1 then [0x10#8, 0#8, 1#8, 0x60#8] else if i = map ∧ s = 2 then [8#8, 0#8, 0#8, 0x60#8]
    else if i = 0x6001#16 then [0x22#8, 0x33#8] else [0x11#8]
  broken := false

/-- both entries configured -/
def agreeFull (com map : BitVec 16) : Dict := agreeDict com map (.val (.int .u32 0x60000008#32)) (.val (.int .u32 0x60010010#32))

/-- the set-up of a PDO the device sends -/
def agreeSent (dict : Dict) : Env Strict × Outcome Err (Option Rec) :=
  rpdoInit sentDev exampleMem zeros 0x1800#16 0x1A00#16 (Spec.fresh dict 1#8 (agreeDevice 0x1800#16 0x1A00#16))
/-- the set-up of a PDO the device receives -/
def agreeReceived (dict : Dict) : Env Strict × Outcome Err (Option Rec) :=
  tpdoInit sentDev exampleMem zeros 0x1400#16 0x1600#16 (Spec.fresh dict 1#8 (agreeDevice 0x1400#16 0x1600#16))

/-- a PDO was made -/
def madeOne : Outcome Err (Option Rec) → Bool
  | .ok (some _) => true
  | _ => false

private theorem agreeDict_keys (com map : BitVec 16) (one two : HoldAny) : KeysMatch (agreeDict com map one two) := by
  intro k e he
  have hm := get_mem he
  simp only [agreeDict, List.mem_cons, List.not_mem_nil, or_false, Prod.mk.injEq] at hm
  have s1 : ∀ i s dv iv, (Key.ofSub i s).index = (exampleSub i s dv iv).index ∧ ((Key.ofSub i s).hasSub = true → (Key.ofSub i s).subIndex = (exampleSub i s dv iv).subIndex) :=
    fun i s _ _ => ⟨Key.ofSub_index i s, fun _ => Key.ofSub_sub i s⟩
  rcases hm with ⟨rfl, rfl⟩ | ⟨rfl, rfl⟩ | ⟨rfl, rfl⟩ | ⟨rfl, rfl⟩ | ⟨rfl, rfl⟩ | ⟨rfl, rfl⟩ | ⟨rfl, rfl⟩ | ⟨rfl, rfl⟩
  iterate 6 exact s1 _ _ _ _
  iterate 2 exact ⟨by rfl, fun _ => by contradiction⟩

private theorem agree_all (map : BitVec 16) (com : BitVec 16) (hc : mappingCount (agreeFull com map) map = 2)
    (h1 : (agreeFull com map).get (sub map 1) = some (exampleSub map 1 (.val (.int .u32 0x60000008#32)) (.val (.int .u32 0x60000008#32))))
    (h2 : (agreeFull com map).get (sub map 2) = some (exampleSub map 2 (.val (.int .u32 0x60010010#32)) (.val (.int .u32 0x60010010#32)))) :
    AllConfigured (agreeFull com map) map := by
  intro s hs hs'
  rw [hc] at hs'
  have : s = 1 ∨ s = 2 := by omega
  rcases this with rfl | rfl
  · exact ⟨_, _, h1, rfl, rfl⟩
  · exact ⟨_, _, h2, rfl, rfl⟩

/-- the parameter is not mapped into a PDO (a way to compute `Plain`) -/
private def plainNow (k : Key) (e : Env Strict) : Bool := match e.s.data k with | some d => d.rd == .dev && d.wr == .dev | none => true

private theorem plain_now {k : Key} {e : Env Strict} (h : plainNow k e = true) : Plain k e := by
  intro d hd
  unfold plainNow at h
  rw [hd] at h
  simpa using h

private theorem made_one {r : Env Strict × Outcome Err (Option Rec)} (h : madeOne r.2 = true) : ∃ x, r = (r.1, .ok (some x)) := by
  obtain ⟨e, o⟩ := r
  unfold madeOne at h
  split at h
  · rename_i x hx
    exact ⟨x, by simp only at hx; rw [hx]⟩
  · cases h

private theorem agree_plain (com map : BitVec 16) (e : Env Strict) (hc : mappingCount (agreeFull com map) map = 2) (h0 : plainNow (sub com 1) e = true)
    (h1 : plainNow (sub map 0) e = true) (h2 : plainNow (sub map 1) e = true) (h3 : plainNow (sub map 2) e = true) : AllPlain (agreeFull com map) com map e := by
  refine ⟨plain_now h0, fun s hs => ?_⟩
  rw [hc] at hs
  have : s = 0 ∨ s = 1 ∨ s = 2 := by omega
  rcases this with rfl | rfl | rfl
  · exact plain_now h1
  · exact plain_now h2
  · exact plain_now h3

/-- a device with the opposite mapping gets the configured one, and a frame of the PDO is split accordingly -/
example : let com := 0x1400#16; let map := 0x1600#16; let dict := agreeFull com map; let e := Spec.fresh dict 1#8 (agreeDevice com map)
    dict.NodupKeys ∧ KeysMatch dict ∧ Reached sentDev exampleMem zeros 4 4 dict 1#8 e ∧ e.c.w.dev.broken = false ∧ IsPair com map ∧ present dict com map = true ∧
    Proper dict com map ∧ AllConfigured dict map ∧ (∃ x, tpdoInit sentDev exampleMem zeros com map e = ((agreeReceived dict).1, .ok (some x))) ∧
    AllPlain dict com map (agreeReceived dict).1 ∧ e.c.w.dev.store.words map = [0x60010010#32, 0x60000008#32] ∧
    unpack ((agreeReceived dict).1.c.w.dev.store.words map) [1#8, 2#8, 3#8] = [(0x6000#16, 0#8, [1#8]), (0x6001#16, 0#8, [2#8, 3#8])] :=
  ⟨by unfold Dict.NodupKeys; decide +kernel, agreeDict_keys _ _ _ _, .start _, rfl, ⟨0, by omega, .inr rfl⟩, by decide +kernel,
    ⟨_, _, rfl, ⟨rfl, rfl, fun p hp => by cases hp⟩, rfl, rfl⟩, agree_all _ _ (by decide +kernel) rfl rfl, made_one (by decide +kernel),
    agree_plain _ _ _ (by decide +kernel) (by decide +kernel) (by decide +kernel) (by decide +kernel) (by decide +kernel), by decide +kernel, by decide +kernel⟩

example : let com := 0x1800#16; let map := 0x1A00#16; let dict := agreeFull com map; let e := Spec.fresh dict 1#8 (agreeDevice com map)
    dict.NodupKeys ∧ KeysMatch dict ∧ Reached sentDev exampleMem zeros 4 4 dict 1#8 e ∧ e.c.w.dev.broken = false ∧ IsPair com map ∧ present dict com map = true ∧
    Proper dict com map ∧ AllConfigured dict map ∧ (∃ x, rpdoInit sentDev exampleMem zeros com map e = ((agreeSent dict).1, .ok (some x))) ∧
    AllPlain dict com map (agreeSent dict).1 ∧ e.c.w.dev.store.payload map = [0x22#8, 0x33#8, 0x11#8] ∧
    (agreeSent dict).1.c.w.dev.store.payload map = [0x11#8, 0x22#8, 0x33#8] :=
  ⟨by unfold Dict.NodupKeys; decide +kernel, agreeDict_keys _ _ _ _, .start _, rfl, ⟨0, by omega, .inl rfl⟩, by decide +kernel,
    ⟨_, _, rfl, ⟨rfl, rfl, fun p hp => by cases hp⟩, rfl, rfl⟩, agree_all _ _ (by decide +kernel) rfl rfl, made_one (by decide +kernel),
    agree_plain _ _ _ (by decide +kernel) (by decide +kernel) (by decide +kernel) (by decide +kernel) (by decide +kernel), by decide +kernel, by decide +kernel⟩

/-- a PDO in each direction, all entries configured -/
def bothDict : Dict :=
  [(Key.ofSub 0x1800#16 0, exampleSub 0x1800#16 0 (.val (.int .u8 2#8)) .none),
   (Key.ofSub 0x1800#16 1, exampleSub 0x1800#16 1 (.val (.int .u32 0x181#32)) .none),
   (Key.ofSub 0x1800#16 2, exampleSub 0x1800#16 2 (.val (.int .u8 1#8)) .none),
   (Key.ofSub 0x1A00#16 0, exampleSub 0x1A00#16 0 (.val (.int .u8 2#8)) .none),
   (Key.ofSub 0x1A00#16 1, exampleSub 0x1A00#16 1 (.val (.int .u32 0x60000008#32)) (.val (.int .u32 0x60010010#32))),
   (Key.ofSub 0x1A00#16 2, exampleSub 0x1A00#16 2 (.val (.int .u32 0x60010010#32)) (.val (.int .u32 0x60000008#32))),
   (Key.ofSub 0x1400#16 0, exampleSub 0x1400#16 0 (.val (.int .u8 2#8)) .none),
   (Key.ofSub 0x1400#16 1, exampleSub 0x1400#16 1 (.val (.int .u32 0x201#32)) .none),
   (Key.ofSub 0x1400#16 2, exampleSub 0x1400#16 2 (.val (.int .u8 1#8)) .none),
   (Key.ofSub 0x1600#16 0, exampleSub 0x1600#16 0 (.val (.int .u8 1#8)) .none),
   (Key.ofSub 0x1600#16 1, exampleSub 0x1600#16 1 (.val (.int .u32 0x60000008#32)) (.val (.int .u32 0x60020010#32))),
   (Key.ofIndex 0x6000#16, exampleSub 0x6000#16 0 (.empty (.int .u8)) .none),
   (Key.ofIndex 0x6001#16, exampleSub 0x6001#16 0 (.empty (.int .u16)) .none),
   (Key.ofIndex 0x6002#16, exampleSub 0x6002#16 0 (.empty (.int .u16)) .none)]

/-- a fresh device of this kind -/
def bothDevice : Strict where
  store i s := match i.toNat, s.toNat with
    | 0x1800, 0 => [2#8]
    | 0x1800, 1 => [0x81#8, 1#8, 0#8, 0#8]
    | 0x1A00, 0 => [2#8]
    | 0x1A00, 1 => [8#8, 0#8, 0#8, 0x60#8]
    | 0x1A00, 2 => [0x10#8, 0#8, 1#8, 0x60#8]
    | 0x1400, 0 => [2#8]
    | 0x1400, 1 => [1#8, 2#8, 0#8, 0#8]
    | 0x1600, 0 => [1#8]
    | 0x1600, 1 => [8#8, 0#8, 0#8, 0x60#8]
    | 0x6001, _ => [1#8, 2#8]
    | 0x6002, _ => [3#8, 4#8]
    | _, _ => [1#8]
  broken := false

/-- the set-up of its PDOs -/
def bothSetUp : Env Strict × Outcome Err Bool := mapperInit sentDev exampleMem zeros 4 4 (Spec.fresh bothDict 1#8 bothDevice)

private theorem bothDict_keys : KeysMatch bothDict := by
  intro k e he
  have hm := get_mem he
  simp only [bothDict, List.mem_cons, List.not_mem_nil, or_false, Prod.mk.injEq] at hm
  have s1 : ∀ i s dv iv, (Key.ofSub i s).index = (exampleSub i s dv iv).index ∧ ((Key.ofSub i s).hasSub = true → (Key.ofSub i s).subIndex = (exampleSub i s dv iv).subIndex) :=
    fun i s _ _ => ⟨Key.ofSub_index i s, fun _ => Key.ofSub_sub i s⟩
  rcases hm with ⟨rfl, rfl⟩ | ⟨rfl, rfl⟩ | ⟨rfl, rfl⟩ | ⟨rfl, rfl⟩ | ⟨rfl, rfl⟩ | ⟨rfl, rfl⟩ | ⟨rfl, rfl⟩ | ⟨rfl, rfl⟩ | ⟨rfl, rfl⟩ | ⟨rfl, rfl⟩ | ⟨rfl, rfl⟩ |
    ⟨rfl, rfl⟩ | ⟨rfl, rfl⟩ | ⟨rfl, rfl⟩
  iterate 11 exact s1 _ _ _ _
  iterate 3 exact ⟨by rfl, fun _ => by contradiction⟩

private theorem bothDict_pairs (com map : BitVec 16) (hp : IsPair com map) (h : present bothDict com map = true) :
    (com = 0x1800#16 ∧ map = 0x1A00#16) ∨ (com = 0x1400#16 ∧ map = 0x1600#16) := by
  obtain ⟨f1, f2, f3, f4, f5, f6⟩ := pair_facts hp
  have key : ∀ i : BitVec 16, (bothDict.get (sub i 0)).isSome = true → i = 0x1800#16 ∨ i = 0x1A00#16 ∨ i = 0x1400#16 ∨ i = 0x1600#16 := by
    intro i hi
    rw [Option.isSome_iff_exists] at hi
    obtain ⟨x, hx⟩ := hi
    have hk := (bothDict_keys _ _ hx).1
    have hm := get_mem hx
    simp only [bothDict, List.mem_cons, List.not_mem_nil, or_false, Prod.mk.injEq] at hm
    have hsub : (sub i 0).hasSub = true := Key.ofSub_hasSub _ _
    rw [Key.ofSub_index] at hk
    rcases hm with ⟨h1, rfl⟩ | ⟨h1, rfl⟩ | ⟨h1, rfl⟩ | ⟨h1, rfl⟩ | ⟨h1, rfl⟩ | ⟨h1, rfl⟩ | ⟨h1, rfl⟩ | ⟨h1, rfl⟩ | ⟨h1, rfl⟩ | ⟨h1, rfl⟩ | ⟨h1, rfl⟩ |
      ⟨h1, rfl⟩ | ⟨h1, rfl⟩ | ⟨h1, rfl⟩
    iterate 3 exact .inl hk
    iterate 3 exact .inr (.inl hk)
    iterate 3 exact .inr (.inr (.inl hk))
    iterate 2 exact .inr (.inr (.inr hk))
    all_goals (rw [h1] at hsub; exact absurd hsub (by decide))
  unfold present at h
  rw [Bool.or_eq_true] at h
  rcases h with h | h
  · have hmap : map = com + 0x200#16 := by rw [← f5, BitVec.sub_add_cancel]
    rcases key _ h with rfl | rfl | rfl | rfl
    · exact .inl ⟨rfl, hmap⟩
    · exact absurd f1 (by decide)
    · exact .inr ⟨rfl, hmap⟩
    · exact absurd f1 (by decide)
  · rcases key _ h with rfl | rfl | rfl | rfl
    · exact absurd f2 (by decide)
    · exact .inl ⟨f5.symm, rfl⟩
    · exact absurd f2 (by decide)
    · exact .inr ⟨f5.symm, rfl⟩

private theorem both_proper (dict : Dict) (com map : BitVec 16)
    (h : (match dict.get (sub com 1), dict.get (sub map 0) with
      | some c, some m => c.writable && !c.constant && c.initVal.isEmpty && m.writable
      | _, _ => false) = true) : Proper dict com map := by
  split at h
  · rename_i c m h1 h2
    simp only [Bool.and_eq_true, Bool.not_eq_true'] at h
    exact ⟨c, m, h1, ⟨h.1.1.1, h.1.1.2, fun p hp => by rw [hp] at h; exact absurd h.1.2 (by simp [HoldAny.isEmpty])⟩, h2, h.2⟩
  · cases h

private theorem both_sent : Proper bothDict 0x1800#16 0x1A00#16 ∧ AllPlain bothDict 0x1800#16 0x1A00#16 bothSetUp.1 := by
  refine ⟨both_proper _ _ _ (by decide +kernel), plain_now (by decide +kernel), ?_⟩
  have hc : mappingCount bothDict 0x1A00#16 = 2 := by decide +kernel
  have h : ∀ s ≤ 2, plainNow (sub 0x1A00#16 s) bothSetUp.1 = true := by decide +kernel
  exact fun s hs => plain_now (h s (by omega))

private theorem both_received : Proper bothDict 0x1400#16 0x1600#16 ∧ AllPlain bothDict 0x1400#16 0x1600#16 bothSetUp.1 := by
  refine ⟨both_proper _ _ _ (by decide +kernel), plain_now (by decide +kernel), ?_⟩
  have hc : mappingCount bothDict 0x1600#16 = 1 := by decide +kernel
  have h : ∀ s ≤ 1, plainNow (sub 0x1600#16 s) bothSetUp.1 = true := by decide +kernel
  exact fun s hs => plain_now (h s (by omega))

/-- all hypotheses are met, a PDO is used in each direction, and the device has the configured words -/
theorem both_meets : bothDict.NodupKeys ∧ KeysMatch bothDict ∧ Reached sentDev exampleMem zeros 4 4 bothDict 1#8 (Spec.fresh bothDict 1#8 bothDevice) ∧
    succeeded bothSetUp.2 = true ∧ bothSetUp.1.rpdos.map (·.com) = [0x1800#16] ∧ bothSetUp.1.tpdos.map (·.com) = [0x1400#16] ∧
    (∀ com map, IsPair com map → present bothDict com map = true → Proper bothDict com map ∧ AllPlain bothDict com map bothSetUp.1) ∧
    configuredWords bothDict 0x1A00#16 = [0x60010010#32, 0x60000008#32] ∧ bothSetUp.1.c.w.dev.store.words 0x1A00#16 = [0x60010010#32, 0x60000008#32] ∧
    bothSetUp.1.c.w.dev.store.words 0x1600#16 = [0x60020010#32] := by
  refine ⟨by unfold Dict.NodupKeys; decide +kernel, bothDict_keys, .start bothDevice, by decide +kernel, by decide +kernel, by decide +kernel, fun com map hp hq => ?_,
    by decide +kernel, by decide +kernel, by decide +kernel⟩
  rcases bothDict_pairs com map hp hq with ⟨rfl, rfl⟩ | ⟨rfl, rfl⟩
  · exact both_sent
  · exact both_received

example : bothDict.NodupKeys ∧ KeysMatch bothDict ∧ Reached sentDev exampleMem zeros 4 4 bothDict 1#8 (Spec.fresh bothDict 1#8 bothDevice) ∧
    succeeded bothSetUp.2 = true ∧ bothSetUp.1.rpdos.map (·.com) = [0x1800#16] ∧ bothSetUp.1.tpdos.map (·.com) = [0x1400#16] ∧
    (∀ com map, IsPair com map → present bothDict com map = true → Proper bothDict com map ∧ AllPlain bothDict com map bothSetUp.1) ∧
    configuredWords bothDict 0x1A00#16 = [0x60010010#32, 0x60000008#32] ∧ bothSetUp.1.c.w.dev.store.words 0x1A00#16 = [0x60010010#32, 0x60000008#32] ∧
    bothSetUp.1.c.w.dev.store.words 0x1600#16 = [0x60020010#32] := both_meets

/-- C125 is false for a mapping that is not configured: the node takes the default of its EDS and never asks the device, so that a device with
another mapping is misunderstood.  Here the set-up succeeds, the node takes the first byte of the frame for object 0x6000, but the device has
put the first byte of object 0x6001 there. -/
theorem C125_default_false : ∃ (dict : Dict) (d : Strict) (e' : Env Strict) (x : Rec) (words : List (BitVec 32)), dict.NodupKeys ∧ KeysMatch dict ∧
    Proper dict 0x1800#16 0x1A00#16 ∧ d.broken = false ∧
    rpdoInit sentDev exampleMem zeros 0x1800#16 0x1A00#16 (Spec.fresh dict 1#8 d) = (e', .ok (some x)) ∧
    Layout dict 0x1A00#16 true (Spec.fresh dict 1#8 d) e' words x.bufs ∧ words[0]? = some 0x60000008#32 ∧
    e'.c.w.dev.store 0x6000#16 0 = [0x11#8] ∧ e'.c.w.dev.store.payload 0x1A00#16 = [0x22#8, 0x33#8, 0x11#8] := by
  have hn : (agreeDict 0x1800#16 0x1A00#16 .none .none).NodupKeys := by unfold Dict.NodupKeys; decide +kernel
  have hk : KeysMatch (agreeDict 0x1800#16 0x1A00#16 .none .none) := agreeDict_keys _ _ _ _
  obtain ⟨x, hx⟩ := made_one (r := agreeSent (agreeDict 0x1800#16 0x1A00#16 .none .none)) (by decide +kernel)
  have h1 : (agreeSent (agreeDict 0x1800#16 0x1A00#16 .none .none)).1.c.w.dev.store 0x6000#16 0 = [0x11#8] := by decide +kernel
  have h2 : (agreeSent (agreeDict 0x1800#16 0x1A00#16 .none .none)).1.c.w.dev.store.payload 0x1A00#16 = [0x22#8, 0x33#8, 0x11#8] := by decide +kernel
  generalize (agreeSent (agreeDict 0x1800#16 0x1A00#16 .none .none)).1 = e' at hx h1 h2
  unfold agreeSent at hx
  obtain ⟨words, hl⟩ := C79_sent sentDev exampleMem zeros 4 4 _ hn hk 1#8 _ (.start (agreeDevice 0x1800#16 0x1A00#16)) 0x1800#16 0x1A00#16 (by decide) _ x hx
  refine ⟨_, agreeDevice 0x1800#16 0x1A00#16, e', x, words, hn, hk, ⟨_, _, rfl, ⟨rfl, rfl, fun p hp => by cases hp⟩, rfl, rfl⟩, rfl, hx, hl, ?_, h1, h2⟩
  have hlen : words.length = 2 := hl.count.trans (by decide +kernel)
  rw [List.getElem?_eq_getElem (by omega : 0 < words.length)]
  refine congrArg some (hl.default 0 _ (exampleSub 0x1A00#16 1 (.val (.int .u32 0x60000008#32)) .none) 0x60000008#32
    (List.getElem?_eq_getElem (by omega : 0 < words.length)) ?_ rfl (fun p hp => by cases hp) rfl (fun i _ hi => absurd hi (Nat.not_lt_zero _)))
  rfl

end Verif.Props
