import Verif.Spec.PyStart
import Verif.Props.Python
import Verif.Props.PySession

/-!
# Property theorem C140: the start of a session of Python programs
-/

namespace Trax
open Py Py.Spec Handle
open Trax.Spec (ValidKey Plain Connected bytes Introducible)

/-! ## Lemmas -/

theorem toNat_ascii : ∀ {t : Text}, (∀ c ∈ t, c < 128) → (ascii t).map UInt8.toNat = t
  | [], _ => rfl
  | c :: t, h => by
    have := toNat_ascii (t := t) fun c hc => h c (by simp [hc])
    unfold ascii at this ⊢
    rw [List.map_cons, List.map_cons, this, Py.toNat_ofNat (by have := h c (by simp); omega)]

theorem ascii_prefix {p t : Text} (hp : ∀ c ∈ p, c < 128) (ht : ∀ c ∈ t, c < 128) (h : ascii p <+: ascii t) : p <+: t := by
  have := h.map UInt8.toNat
  rwa [toNat_ascii hp, toNat_ascii ht] at this

theorem ascii_plain {t : Text} (h : ∀ c ∈ t, 0 < c ∧ c < 128) : Plain (ascii t) := by
  intro x hx
  obtain ⟨y, hy, rfl⟩ := List.mem_map.1 hx
  obtain ⟨h1, h2⟩ := h y hy
  have : (UInt8.ofNat y).toNat = y := Py.toNat_ofNat (by omega)
  refine ⟨fun e => ?_, by omega⟩
  rw [e] at this
  simp at this
  omega

theorem textOrEmpty_ascii {t : Text} (h : ∀ c ∈ t, c < 128) : textOrEmpty (some (ascii t)) = .ok t := by
  simp only [textOrEmpty, fromC, decode_encode (ascii_encode h)]

theorem clientSetup_custom {stream : Stream} {c : Handle} (h : clientSetup stream = .ok (some c)) : c.metadata.custom.WF := by
  have hf : ∀ (l : List (Str × Str)) (d : Properties), d.WF → (l.foldl Properties.copyExternalOverwrite d).WF := by
    intro l
    induction l with
    | nil => exact fun d hd => hd
    | cons kv l ih =>
      intro d hd
      refine ih _ ?_
      unfold Properties.copyExternalOverwrite
      split
      · exact hd
      · exact Properties.wf_set hd _ _
  have hcopy : ∀ p d : Properties, d.WF → (copyExternal p d).WF := fun p d hd => hf p.enumerate d hd
  have hcreate : ∀ {r i ch n d f fl m}, Metadata.create r i ch n d f fl = .ok m → m.custom = Properties.create := by
    intro r i ch n d f fl m h
    unfold Metadata.create at h
    split at h
    · cases h; rfl
    · cases h
  unfold clientSetup at h
  dsimp only at h
  split at h
  · cases h
  split at h
  · cases h
  obtain ⟨version, -, h⟩ := Region.bind_eq_ok h
  split at h
  · cases h
  split at h
  · cases h
  obtain ⟨channels, -, h⟩ := Region.bind_eq_ok h
  obtain ⟨multi, -, h⟩ := Region.bind_eq_ok h
  obtain ⟨m, hm, h⟩ := Region.map_eq_ok h
  cases h
  exact hcopy _ _ (by rw [hcreate hm]; exact Properties.wf_create)

theorem find_setItem (d : List (Text × CustomValue)) (k m : Text) (v : CustomValue) :
    ((setItem d m v).find? fun e => e.1 = k).map Prod.snd = if k = m then some v else (d.find? fun e => e.1 = k).map Prod.snd := by
  unfold setItem
  by_cases ha : d.any fun e => e.1 = m
  · rw [if_pos ha]
    induction d with
    | nil => simp at ha
    | cons e d ih =>
      rw [List.map_cons, List.find?_cons, List.find?_cons]
      by_cases he : e.1 = m
      · rw [if_pos he]
        by_cases hk : k = m
        · subst hk; simp
        · rw [if_neg hk]
          have h1 : ¬ m = k := fun h => hk h.symm
          simp only [h1, he, decide_false]
          by_cases ha' : d.any fun e => e.1 = m
          · have := ih ha'
            rw [if_neg hk] at this
            exact this
          · congr 1
            have : d.map (fun e => if e.1 = m then (m, v) else e) = d := by
              conv_rhs => rw [← List.map_id d]
              refine List.map_congr_left fun x hx => ?_
              rw [if_neg]
              · rfl
              · intro hxm
                exact ha' (List.any_eq_true.2 ⟨x, hx, by simpa using hxm⟩)
            rw [this]
      · rw [if_neg he]
        have ha' : d.any fun e => e.1 = m := by simpa [he] using ha
        have := ih ha'
        by_cases hek : e.1 = k
        · have : ¬ k = m := fun h => he (hek.trans h)
          simp [hek, this]
        · simp only [hek, decide_false]
          exact this
  · rw [if_neg ha, List.find?_append]
    by_cases hk : k = m
    · subst hk
      have : (d.find? fun e => e.1 = k) = none := by
        rw [List.find?_eq_none]
        intro x hx hxk
        exact ha (List.any_eq_true.2 ⟨x, hx, hxk⟩)
      rw [this]; simp
    · rw [if_neg hk]
      have : ¬ m = k := fun h => hk h.symm
      simp [this]

theorem find_text (d : Dict) (k : Text) :
    ((d.map fun e => (e.1, CustomValue.text e.2)).find? fun e => e.1 = k).map Prod.snd = (lookup d k).map .text := by
  unfold lookup
  induction d with
  | nil => rfl
  | cons e d ih =>
    rw [List.map_cons, List.find?_cons, List.find?_cons]
    by_cases h : e.1 = k
    · simp [h]
    · simp only [h, decide_false]
      exact ih

/-- The names that come back are those that were given. -/
theorem names_same {table : List (Text × Nat)} {encode : List Text → Except Exc Nat} {decode : Nat → List Text} (h : NameLists table encode decode)
    (hn : (table.map Prod.fst).Nodup) {l : List Text} (hl : ∀ s ∈ l, ∃ f, (s, f) ∈ table) :
    ∃ n, encode l = .ok n ∧ n < 2 ^ table.length ∧ (∀ e ∈ table, n &&& e.2 ≠ 0 ↔ e.1 ∈ l) ∧ SameNames l (decode n) := by
  obtain ⟨n, h1, h2, h3, h4⟩ := h.1 l hl
  refine ⟨n, h1, h2, h3, ?_, fun s => ?_⟩
  · rw [h4]; exact hn.filter _
  · rw [h4, List.mem_filter]
    constructor
    · intro hs
      obtain ⟨f, hf⟩ := hl s hs
      exact ⟨List.mem_map.2 ⟨_, hf, rfl⟩, by simpa using hs⟩
    · rintro ⟨-, hs⟩
      simpa using hs

/-! ## The start -/

/-- **C140.** For everything that a tracker can declare, `Server` raises no exception, `Client` raises none when it reads the introduction, with whatever follows it, and it has the lists, names, custom
properties and the support of several objects that the tracker declared; if nothing follows, the programs are connected (as C139 needs it). Missing from the full claim: what is not `Declarable`, see below. -/
theorem C140_start_partial (a : ServerArgs) (ha : Declarable a) (junk : UInt32) (stream : Stream) (hout : stream.out.Reliable) :
    ∃ s news, serverInit junk a stream = .ok (.ok s) ∧ s.stream.out.sent = stream.out.sent ++ news ∧
      ∀ (mt : Option MsgType) (rest : List InEv) (out : Writer), ∃ i c, clientInit true ⟨mt, bytes news ++ rest, out⟩ = .ok (.ok (i, c)) ∧ Introduced a i ∧
        (stream.input = [] → rest = [] → out.Reliable → Connected c s 0) := by
  obtain ⟨r, r1, r2, r3, r4⟩ := names_same C135_regions (by decide) (l := a.regions) fun s hs => by
    have := ha.regions s hs
    simp only [List.mem_cons, List.not_mem_nil, or_false] at this
    rcases this with rfl | rfl | rfl
    · exact ⟨2, by decide⟩
    · exact ⟨4, by decide⟩
    · exact ⟨8, by decide⟩
  obtain ⟨i, i1, i2, -, i4⟩ := names_same C135_images (by decide) (l := a.images) fun s hs => by
    have := ha.images s hs
    simp only [List.mem_cons, List.not_mem_nil, or_false] at this
    rcases this with rfl | rfl | rfl | rfl
    · exact ⟨1, by decide⟩
    · exact ⟨2, by decide⟩
    · exact ⟨4, by decide⟩
    · exact ⟨8, by decide⟩
  have hchn : ∀ s ∈ a.channels, ∃ f, (s, f) ∈ channelNames := fun s hs => by
    have := ha.channels s hs
    simp only [List.mem_cons, List.not_mem_nil, or_false] at this
    rcases this with rfl | rfl | rfl
    · exact ⟨1, by decide⟩
    · exact ⟨2, by decide⟩
    · exact ⟨4, by decide⟩
  obtain ⟨ch, c1, c2, c3, c4⟩ := names_same C135_channels.1 (by decide) (l := a.channels) hchn
  have r0 : r &&& 1 = 0 := by
    by_contra h
    have := ha.regions _ ((r3 (t!"special", 1) (by decide)).1 h)
    revert this
    decide
  have ch0 : ch ≠ 0 := by
    obtain ⟨s, hs⟩ := List.exists_mem_of_ne_nil _ ha.channel
    obtain ⟨f, hf⟩ := hchn s hs
    intro h
    rw [h] at c3
    exact (c3 _ hf).2 hs (Nat.zero_and _)
  have hn7 : ∀ {t : Text}, (∀ c ∈ t, 0 < c ∧ c < 128) → ∀ c ∈ t, c < 128 := fun h c hc => (h c hc).2
  have hto : ∀ {t : Text}, (∀ c ∈ t, 0 < c ∧ c < 128) → toC t = .ok (ascii t) := fun h => ascii_toC (hn7 h) (plain_noNul (ascii_plain h))
  have hcs : ∀ {t : Text}, (∀ c ∈ t, 0 < c ∧ c < 128) → (some (ascii t)).map cstr = some (ascii t) := fun h => by
    rw [Option.map_some, cstr_of_noNul (plain_noNul (ascii_plain h))]
  have hr16 : ∀ n : Fin 16, n.val &&& 1 = 0 → UInt32.ofNat n.val &&& 14 = UInt32.ofNat n.val := by decide
  have hi16 : ∀ n : Fin 16, UInt32.ofNat n.val &&& 15 = UInt32.ofNat n.val ∧ (UInt32.ofNat n.val).toNat = n.val := by decide
  have hc8 : ∀ n : Fin 8, UInt32.ofNat n.val &&& 7 = UInt32.ofNat n.val ∧ (UInt32.ofNat n.val).toNat = n.val ∧ (n.val ≠ 0 → UInt32.ofNat n.val ≠ 0) := by decide
  set m : Metadata := ⟨.ofNat r, .ofNat i, .ofNat ch, some (ascii a.name), some (ascii a.description), some (ascii a.family), Properties.ofPairs (pairs a.custom),
    if a.multiobject then 1 else 0⟩ with hm
  have hmeta : a.metadata = .ok (.ok m) := by
    have henc : a.encoded = .ok ((r, i, ch), ascii a.name, ascii a.description, ascii a.family) := by
      unfold ServerArgs.encoded
      rw [r1]
      simp only [Except.bind]
      rw [i1]
      dsimp only
      rw [c1]
      simp only [hto ha.name, hto ha.description, hto ha.family]
    unfold ServerArgs.metadata
    rw [henc]
    dsimp only
    unfold Metadata.create
    rw [if_pos ((hc8 ⟨ch, c2⟩).2.2 ch0), hcs ha.name, hcs ha.description, hcs ha.family]
    simp only [Outcome.map, Outcome.bind_ok]
    rw [show propSetAll Properties.create a.custom = .ok (Properties.ofPairs (pairs a.custom)) from ha.custom.new]
    rfl
  have hI : Introducible m (pairs a.custom) 4 := by
    refine ⟨by decide, hr16 ⟨r, r2⟩ r0, (hi16 ⟨i, i2⟩).1, ⟨(hc8 ⟨ch, c2⟩).1, (hc8 ⟨ch, c2⟩).2.2 ch0⟩, fun h => absurd h (by decide), ?_, rfl, ?_⟩
    · rintro s (h | h | h) <;> cases h
      · exact ascii_plain ha.name
      · exact ascii_plain ha.description
      · exact ascii_plain ha.family
    · intro kv hkv
      obtain ⟨e, he, rfl⟩ := List.mem_map.1 hkv
      obtain ⟨h7, hk, hv⟩ := ha.custom.2 e he
      exact ⟨hk, hv, fun h => (ha.external e he).1 (ascii_prefix (p := t!"trax.") (by decide) (fun c hc => h7 c (List.mem_append_left _ hc)) h)⟩
  obtain ⟨s, news, s1, s2, s3, s4, s5, s6, s7, s8, s9, s10, s11, s12, s13⟩ := C31_handshake_partial m _ 4 hI junk stream hout
  refine ⟨s, news, ?_, s2, fun mt rest out => ?_⟩
  · unfold serverInit
    rw [hmeta, Outcome.bind_ok]
    dsimp only
    rw [show serverSetup junk m stream 0 = serverSetup junk m stream 4 from rfl, s1]
    simp only [Outcome.map, Outcome.bind_ok, s4, if_true]
  · obtain ⟨c, g1, g2, g3, g4, g5, g6, g7, g8, g9, g10, g11, g12, g13, g14⟩ := s13 mt rest out
    have hmul : c.isMulti = a.multiobject := by
      rw [Bool.eq_iff_iff, g12]
      show _ ∧ (if a.multiobject then (1 : UInt32) else 0) &&& 1 ≠ 0 ↔ _
      cases a.multiobject <;> decide
    have hrep : PropRep c.metadata.custom m.custom.get := ⟨clientSetup_custom g1, fun k hk => g13 k hk⟩
    have hrep' : PropRep m.custom m.custom.get := ⟨Properties.wf_ofPairs _, fun _ _ => rfl⟩
    have hdict : ∀ k, lookup (propDict c.metadata.custom) k = lookup a.custom k := by
      intro k
      have hs := ha.custom.shown
      refine Option.ext fun v => ?_
      rw [lookup_mem (propDict_spec hrep).1, lookup_mem ha.custom.1, (propDict_spec hrep).2, hs.2, show Properties.ofPairs (pairs a.custom) = m.custom from rfl, (propDict_spec hrep').2]
    refine ⟨⟨regionDecodeList r, imageDecodeList i, channelDecodeList ch, a.name, a.family, a.description,
      setItem ((propDict c.metadata.custom).map fun e => (e.1, .text e.2)) t!"multiobject" (.flag a.multiobject)⟩, c, ?_, ⟨r4, i4, c4, rfl, rfl, rfl, ?_, ?_⟩, ?_⟩
    · unfold clientInit
      rw [if_neg (by decide), g1]
      simp only [Outcome.map, Outcome.bind_ok, g3, if_true]
      unfold clientInfo
      rw [g9, g10, g11, show m.name = some (ascii a.name) from rfl, show m.description = some (ascii a.description) from rfl, show m.family = some (ascii a.family) from rfl,
        textOrEmpty_ascii (hn7 ha.name), textOrEmpty_ascii (hn7 ha.description), textOrEmpty_ascii (hn7 ha.family), g6, g7, g8]
      simp only [Except.bind, Except.map]
      rw [show m.regions.toNat = r from (hi16 ⟨r, r2⟩).2, show m.images.toNat = i from (hi16 ⟨i, i2⟩).2, show m.channels.toNat = ch from (hc8 ⟨ch, c2⟩).2.1]
      have hpar : decide (((c.getParameter false 5).2.getD 0) ≠ 0) = a.multiobject := by
        unfold getParameter
        rw [if_neg (by simpa [isAlive] using g3), hmul]
        cases a.multiobject <;> simp
      rw [hpar]
    · intro k hk
      unfold ClientInfo.get
      rw [find_setItem, if_neg hk, find_text, hdict]
    · unfold ClientInfo.get
      rw [find_setItem, if_pos rfl]
    · rintro hin rfl ho
      refine ⟨⟨g4, s5⟩, ⟨g3, s4⟩, g2, by rw [g8, s11], by rw [s11]; exact hI.channels.1, ?_, ⟨by rw [g14], by rw [s7, hin]⟩, ⟨by rw [g14]; exact ho, s8⟩, g5, s6⟩
      rw [Bool.eq_iff_iff, g12, s12 rfl]
      simp

/-- A tracker that declares several formats, in any order and more than once, texts with quotes and custom properties. -/
example : Declarable ⟨[t!"polygon", t!"rectangle", t!"polygon"], [t!"memory", t!"path"], [t!"ir", t!"color"], t!"demo", t!"a \"demo\"", [], [(t!"x.y", t!"1=2"), (t!"z", [])], true⟩ := by
  refine ⟨by decide, by decide, by decide, by decide, by decide, by decide, by decide, by unfold SendableDict; decide, by decide⟩

/-- Names that are not known raise an exception, and nothing is written. -/
theorem C140_names (a : ServerArgs) (junk : UInt32) (stream : Stream)
    (h : (∃ s ∈ a.regions, s ∉ regionNames.map Prod.fst) ∨ (∃ s ∈ a.images, s ∉ imageNames.map Prod.fst) ∨ ∃ s ∈ a.channels, s ∉ channelNames.map Prod.fst) :
    serverInit junk a stream = .ok (.error .index) := by
  have key : ∀ {table : List (Text × Nat)} {encode : List Text → Except Exc Nat} {decode : Nat → List Text}, NameLists table encode decode → ∀ (l : List Text),
      (encode l = .error .index ∨ (∃ n, encode l = .ok n) ∧ ¬ ∃ s ∈ l, s ∉ table.map Prod.fst) := by
    intro table encode decode h l
    by_cases hl : ∃ s ∈ l, s ∉ table.map Prod.fst
    · obtain ⟨s, hs, hn⟩ := hl
      exact .inl (h.2.1 l ⟨s, hs, fun f hf => hn (List.mem_map.2 ⟨_, hf, rfl⟩)⟩)
    · refine .inr ⟨?_, hl⟩
      obtain ⟨n, hn, -⟩ := h.1 l fun s hs => by
        by_contra hc
        refine hl ⟨s, hs, fun hm => ?_⟩
        obtain ⟨⟨s', f⟩, hf, rfl⟩ := List.mem_map.1 hm
        exact hc ⟨f, hf⟩
      exact ⟨n, hn⟩
  have henc : a.encoded = .error .index := by
    unfold ServerArgs.encoded
    rcases key C135_regions a.regions with hr | ⟨⟨r, hr⟩, hr'⟩
    · rw [hr]; rfl
    rw [hr]
    simp only [Except.bind]
    rcases key C135_images a.images with hi | ⟨⟨i, hi⟩, hi'⟩
    · rw [hi]
    rw [hi]
    dsimp only
    rcases key C135_channels.1 a.channels with hc | ⟨⟨c, hc⟩, hc'⟩
    · rw [hc]
    rcases h with h | h | h
    · exact absurd h hr'
    · exact absurd h hi'
    · exact absurd h hc'
  unfold serverInit ServerArgs.metadata
  rw [henc]
  rfl

example : ∃ s ∈ [t!"color", t!"infrared"], s ∉ channelNames.map Prod.fst := by decide

/-! ## Violations -/

/-- **C140, violated for clients without a log**: `Client(stream)`, with the default value of `log`, always raises an exception. -/
theorem C140_log_false (stream : Stream) : clientInit false stream = .ok (.error .argument) := rfl

/-- **C140, violated for trackers without a channel**: the process of the tracker is ended by the library. -/
theorem C140_channels_false : serverInit 0 ⟨[t!"rectangle"], [t!"path"], [], [], [], [], [], false⟩ ⟨none, [], Demo.out⟩ = .abort := by decide +kernel

namespace Demo

/-- What a client is told of a tracker. -/
def introduced (a : ServerArgs) : Option ClientInfo := match serverInit 0 a ⟨none, [], Demo.out⟩ with
  | .ok (.ok s) => match clientInit true ⟨none, bytes s.stream.out.sent, Demo.out⟩ with
    | .ok (.ok (i, _)) => some i
    | _ => none
  | _ => none

end Demo

/-- **C140, violated for special regions, custom properties named `multiobject` and properties of the library**: the client is not told of them. -/
theorem C140_declared_false :
    ((Demo.introduced ⟨[t!"special", t!"rectangle"], [t!"path"], [t!"color"], [], [], [], [], false⟩).map fun i => i.regions) = some [t!"rectangle"] ∧
    ((Demo.introduced ⟨[], [], [t!"color"], [], [], [], [(t!"multiobject", t!"slow")], false⟩).map fun i => i.get t!"multiobject") = some (some (.flag false)) ∧
    ((Demo.introduced ⟨[], [], [t!"color"], [], [], [], [(t!"trax.note", t!"hi")], false⟩).map fun i => i.get t!"trax.note") = some none := by
  refine ⟨?_, ?_, ?_⟩ <;> decide +kernel

/-- **C140, violated for names that are not ASCII**: the introduction of a tracker named `é` makes the client read a NULL pointer. -/
theorem C140_texts_false : ∃ s, serverInit 0 ⟨[], [], [t!"color"], [0xE9], [], [], [], false⟩ ⟨none, [], Demo.out⟩ = .ok (.ok s) ∧
    clientInit true ⟨none, bytes s.stream.out.sent, Demo.out⟩ = .ub := by
  have h : (match serverInit 0 ⟨[], [], [t!"color"], [0xE9], [], [], [], false⟩ ⟨none, [], Demo.out⟩ with
    | .ok (.ok s) => decide (clientInit true ⟨none, bytes s.stream.out.sent, Demo.out⟩ = .ub)
    | _ => false) = true := by decide +kernel
  split at h
  · rename_i s hs
    exact ⟨s, hs, of_decide_eq_true h⟩
  · cases h

end Trax
