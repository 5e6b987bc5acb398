import Verif.Lemmas.StorageBus
import Verif.Lemmas.SdoProgress
import Verif.Props.SdoChannel
import Verif.Props.Storage

/-!
# C109: objects of a node over the bus

The storage, the SDO client, its reader, the frames on the bus and a conforming server together.
-/

set_option linter.unusedSimpArgs false

namespace Verif.Props
open Verif Verif.OD Verif.Sdo Verif.Chan Verif.Spec Verif.Spec.Sdo Verif.Spec.Chan Verif.Spec.Wire

variable {P : Type}

/-- C109.  After the client was initialised the channel is ready, whatever was in its memory before; the server's answers are expected with the identifier
of C95_ids. -/
theorem C109_initialised (junk : Client) (dict : Dict) (node : BitVec 8) (server : Server) (plan : List (List LEv)) (other : P) :
    Ready (channelId dict node 2 0x580#32) (⟨((State.fresh junk).step (.init dict node)).1, server, plan, false, other⟩ : Wire P) server.store :=
  ⟨rfl, rfl, rfl, rfl, rfl, rfl⟩

example : channelId [] 1 2 0x580#32 = exampleSid := by decide

/-- C109.  A user cannot tell the device at the other end of the bus from a memory.  Take any history of opening objects, reading, writing, initialising,
resetting and mapping them and of changes on the device's side, with anything happening on the bus meanwhile.  If the accesses come to their end and are
supported by the client, then the results, the contents of the storage, the accesses made and the values on the device are exactly those of a storage that
reads and writes the device's memory directly. -/
theorem C109_same_as_memory (cfg : Config) (hcfg : cfg.Legal) (sid : Header) (other : Bus P) (mem : Mem) (s : Storage) (w : Wire P) (log : List Acc)
    (acts : List Act) (hw : Ready sid w w.server.store) :
    let real := runWired cfg sid other mem s ⟨w, log⟩ acts
    let ideal := runDirect cfg other mem s ⟨⟨w.server.store, true, w.other⟩, log⟩ acts
    real.2.1.w.hung = false → ideal.2.1.w.fair = true →
      real.2.2 = ideal.2.2 ∧ real.1 = ideal.1 ∧ real.2.1.log = ideal.2.1.log ∧ real.2.1.w.server.store = ideal.2.1.w.store ∧
      real.2.1.w.other = ideal.2.1.w.other := by
  intro real ideal h1 h2
  have h := agree_run cfg hcfg sid other mem acts s (c := ⟨w, log⟩) (c' := ⟨⟨w.server.store, true, w.other⟩, log⟩) ⟨⟨hw, rfl, rfl⟩, rfl⟩
  rcases h with h | h | ⟨h3, ⟨⟨h4, h5, h6⟩, h7⟩, h8⟩
  · have : real.2.1.w.hung = true := h
    rw [h1] at this; cases this
  · have : ideal.2.1.w.fair = false := h
    rw [h2] at this; cases this
  · exact ⟨h8, h3, h7, h4.holds, h6⟩

/-- a node with the objects of `exampleDict`; the answers come at once, or late and with other traffic -/
private def wire109 : Wire Unit :=
  ⟨((State.fresh exampleClient).step (.init [] 1)).1, ⟨fun _ => [1, 2, 3, 4], .idle⟩,
   [[.serve, .take], [.take, .foreign { exampleFrame (shortFrame 0#8) with id := 0x582#29 }, .serve, .serve, .take, .take], [.serve, .take]], false, ()⟩

private def acts109 : List Act :=
  [.use (.open (Key.ofIndex 0x1000#16) (.int .u32)), .use (.get (Key.ofIndex 0x1000#16) true), .deviceChanges ⟨0x1000#16, 0⟩ [5, 6, 7, 8],
   .use (.get (Key.ofIndex 0x1000#16) true), .use (.get (Key.ofIndex 0x1000#16) false), .use .initAll]

example : (runWired exampleCfg exampleSid noPdo exampleMem (Storage.fresh exampleDict 1) ⟨wire109, []⟩ acts109).2.1.w.hung = false ∧
    (runWired exampleCfg exampleSid noPdo exampleMem (Storage.fresh exampleDict 1) ⟨wire109, []⟩ acts109).2.1.w.server.store ⟨0x6081#16, 0⟩ = [100, 0, 0, 0] ∧
    (runWired exampleCfg exampleSid noPdo exampleMem (Storage.fresh exampleDict 1) ⟨wire109, []⟩ acts109).2.1.log =
      [.read .dev 0x1000#16 0, .read .dev 0x1000#16 0, .write .dev 0x6081#16 0 [100, 0, 0, 0]] := by decide +kernel

example : (runDirect exampleCfg noPdo exampleMem (Storage.fresh exampleDict 1) ⟨⟨wire109.server.store, true, ()⟩, []⟩ acts109).2.1.w.fair = true := by
  decide +kernel

/-- C109.  One object: every history of `get`, `get_cached`, `set`, `set_cached` and of changes on the device's side gives, over the bus, the answers and the
accesses of the specification and leaves the device with its value; no other object of the device is touched.  The values have the size of the type; texts
have 1 to 255 bytes and need a server that tells their size. -/
theorem C109_object (cfg : Config) (hcfg : cfg.Legal) (sid : Header) (d : Data) (w : Wire Unit) (es : List ObjEvent) (hw : Ready sid w w.server.store)
    (hd1 : d.rd = .dev) (hd2 : d.wr = .dev) (hs : SizedFor d.ty d.buffer) (hv : Transferable cfg d.ty (w.server.store (objOf d.entry)))
    (he : ∀ e ∈ es, EventTransferable cfg d.ty e) :
    let r := evRunWired cfg sid d ⟨w, []⟩ es
    let spec := (ObjState.mk (w.server.store (objOf d.entry)) d.cache).run (rightsOf d.entry) es
    r.2.1.w.hung = false →
      r.2.2 = (es.zip spec.2.1).map (fun p => shown p.1 p.2) ∧ r.2.1.log = spec.2.2.map (accOf d.entry) ∧
      r.2.1.w.server.store (objOf d.entry) = spec.1.dev ∧ ∀ o, o ≠ objOf d.entry → r.2.1.w.server.store o = w.server.store o := by
  intro r spec hh
  have hsz : ∀ e ∈ es, EventSized d.ty e := by
    intro e hx
    have := he e hx
    cases e with
    | set v => exact this.1
    | setCached v => exact this.1
    | deviceChanges v => exact this.1
    | _ => trivial
  have hrel : OD.Rel d (⟨w.server.store (objOf d.entry), []⟩ : Ctx (List Byte)) ⟨w.server.store (objOf d.entry), d.cache⟩ := ⟨hd1, hd2, hs, rfl, hv.1, rfl⟩
  obtain ⟨g1, g2, g3⟩ := OD.evRun_ok es hrel hsz
  have hst : (fun o' => if o' = objOf d.entry then w.server.store (objOf d.entry) else w.server.store o') = w.server.store := by
    funext o'
    by_cases h : o' = objOf d.entry
    · rw [if_pos h, h]
    · rw [if_neg h]
  have hhold : Holds cfg sid (objOf d.entry) d.ty w.server.store w (w.server.store (objOf d.entry)) := ⟨by rw [hst]; exact hw, hv⟩
  have := handle_run cfg hcfg sid d.ty w.server.store d.entry es he d ⟨w, []⟩ _ _ ⟨rfl, rfl, hrel, ⟨hhold, rfl⟩⟩
  rcases this with h | ⟨⟨s', h1⟩, h2⟩
  · have : r.2.1.w.hung = true := h
    rw [hh] at this; cases this
  · obtain ⟨⟨k1, k2⟩, k3⟩ := h1.twin
    refine ⟨h2.trans g1, k3.trans (g2.trans (by simp [spec])), ?_, ?_⟩
    · rw [show r.2.1.w.server.store = _ from k1.holds]
      simp only [if_true]
      exact g3
    · intro o ho
      rw [show r.2.1.w.server.store = _ from k1.holds]
      simp only [ho, if_false]

private def data109 : Data := Data.new (exampleEntry 0x6081#16 true true .none .none) (.int .u32)

example : data109.rd = .dev ∧ data109.wr = .dev ∧ SizedFor data109.ty data109.buffer ∧
    Transferable exampleCfg data109.ty (wire109.server.store (objOf data109.entry)) ∧
    (∀ e ∈ [ObjEvent.getCached, .deviceChanges [8, 0, 0, 0], .get, .set [9, 0, 0, 0]], EventTransferable exampleCfg data109.ty e) ∧
    (evRunWired exampleCfg exampleSid data109 ⟨wire109, []⟩ [.getCached, .deviceChanges [8, 0, 0, 0], .get, .set [9, 0, 0, 0]]).2.1.w.hung = false := by
  refine ⟨rfl, rfl, fun _ => rfl, ⟨fun _ => rfl, by decide, by decide, fun h => by cases h⟩, ?_, by decide +kernel⟩
  intro e he
  simp only [List.mem_cons, List.not_mem_nil, or_false] at he
  rcases he with rfl | rfl | rfl | rfl
  · trivial
  · exact ⟨fun _ => rfl, by decide, by decide, fun h => by cases h⟩
  · trivial
  · exact ⟨fun _ => rfl, by decide, by decide, fun h => by cases h⟩

private theorem filter_rounds (rounds : List (List LEv)) : rounds.flatten.filter during = (rounds.map (·.filter during)).flatten := by
  induction rounds with
  | nil => rfl
  | cons r rs ih => simp [ih]

/-- C109.  Accesses come to their end: every supported access returns if during it the server answers and then the call reads 256 times, whatever else
happens in between. -/
theorem C109_returns (cfg : Config) (hcfg : cfg.Legal) (sid : Header) (w : Wire P) (hw : Ready sid w w.server.store) (o : Obj) (data : List Byte) (up : Bool)
    (hs : supported cfg w.server.store o data up = true) :
    ∀ (rounds : List (List LEv)) (later : List (List LEv)), 256 ≤ rounds.length → (∀ r ∈ rounds, [LEv.serve, LEv.take].Sublist r) →
      (({ w with plan := rounds.flatten :: later } : Wire P).access cfg sid o data up).1.hung = w.hung ∧
      (({ w with plan := rounds.flatten :: later } : Wire P).access cfg sid o data up).2 = some (.ok (if up then w.server.store o else [])) := by
  have hi : LInv cfg sid w.server.store ⟨w.ch, w.server, w.ch.client.sent.length, [], []⟩ :=
    ⟨hw.listens, hw.one, fun _ => Or.inl ⟨hw.idle, hw.empty, hw.disabled, rfl, rfl, hw.holds⟩⟩
  have hl := linv_run cfg hcfg sid w.server.store [.call o data up] _ hi
  have hc : ((⟨w.ch, w.server, w.ch.client.sent.length, [], []⟩ : Link).run cfg sid [.call o data up]).calls = [(o, data, up)] := by
    simp [Link.run, Link.step, hw.idle]
  have hres : ((⟨w.ch, w.server, w.ch.client.sent.length, [], []⟩ : Link).run cfg sid [.call o data up]).results = [] := by
    simp [Link.run, Link.step]
  have hp : Proper cfg w.server.store ((⟨w.ch, w.server, w.ch.client.sent.length, [], []⟩ : Link).run cfg sid [.call o data up]).calls := by
    rw [hc]
    unfold supported at hs
    cases up <;> simpa [Proper] using hs
  rcases hl.now hp with hr | hb
  · have := hr.res
    rw [hres, hc] at this
    simp [replay] at this
  · obtain ⟨n, a, hm, hn⟩ := busyN_of_busy hl.lst hl.len hb
    intro rounds later hr hsub
    have hrun : ∀ (l : Link) (a b : List LEv), l.run cfg sid (a ++ b) = (l.run cfg sid a).run cfg sid b := by
      intro l a b; simp [Link.run]
    have hpos := busyN_rounds (rounds.map (·.filter during)) (by
      intro r hx
      obtain ⟨r', h1, rfl⟩ := List.mem_map.1 hx
      exact (hsub r' h1).filter during) hn (by simp; omega) (busyN_zero hn)
    rw [← filter_rounds, ← hrun] at hpos
    have hready : Ready sid ({ w with plan := rounds.flatten :: later } : Wire P) w.server.store :=
      ⟨hw.listens, hw.idle, hw.empty, hw.disabled, hw.one, hw.holds⟩
    rcases access_ok cfg hcfg sid ({ w with plan := rounds.flatten :: later } : Wire P) w.server.store hready o data up hs with ⟨-, ha⟩ | ⟨a1, a2, a3, a4⟩
    · exfalso
      have hz : ((⟨w.ch, w.server, w.ch.client.sent.length, [], []⟩ : Link).run cfg sid
          ([.call o data up] ++ (rounds.flatten.filter during ++ [.leave]))).results = [] := ha
      rw [hz, hres] at hpos
      simp at hpos
    · exact ⟨a4, a1⟩

example : supported exampleCfg wire109.server.store exampleObj [] true = true ∧ [LEv.serve, LEv.take].Sublist [.serve, .take] := by
  exact ⟨by decide, List.Sublist.refl _⟩

end Verif.Props
