import Verif.Lemmas.CppHandle
import Verif.Props.Handshake

/-!
# Property theorems C107, C108, C109: C++ metadata and images
-/

namespace Trax

open Cpp Spec

/-! ## C107: what a tracker declares in C++ is what the client reads in C++ -/

/-- A declaration that can be sent: known formats and channels, at least one channel, texts of plain
characters, custom properties with valid keys outside of the protocol's own `trax.` space. -/
structure Spec.CppDeclaration (a : MetaArgs) (custom : List (Str × Str)) : Prop where
  regions : a.regions &&& 14 = a.regions
  images : a.images &&& 15 = a.images
  channels : a.channels &&& 7 = a.channels ∧ a.channels ≠ 0
  name : Plain a.name
  description : Plain a.description
  family : Plain a.family
  custom : ∀ kv ∈ custom, ValidKey kv.1 ∧ Plain kv.2 ∧ ¬ b!"trax." <+: kv.1

theorem declare_eq {a : MetaArgs} {custom : List (Str × Str)} (h : CppDeclaration a custom) :
    declare a custom = .ok ⟨a.regions, a.images, a.channels, textArg a.name, textArg a.description, textArg a.family,
      Properties.ofPairs custom, a.flags⟩ := by
  have ht : ∀ s, Plain s → (textArg s).map cstr = textArg s := by
    intro s hs
    unfold textArg
    split
    · rfl
    · simp only [Option.map_some, cstr_of_noNul (plain_noNul hs)]
  have hf : ∀ (l : List (Str × Str)) (m : Metadata), l.foldl (fun m kv => Cpp.setCustom m kv.1 kv.2) m =
      { m with custom := l.foldl (fun p kv => p.set kv.1 kv.2) m.custom } := by
    intro l
    induction l with
    | nil => intro m; rfl
    | cons kv l ih => intro m; simp only [List.foldl_cons]; rw [ih]; rfl
  unfold declare MetaArgs.record Metadata.create
  rw [if_pos h.channels.2]
  simp only [Outcome.map, Outcome.bind_ok, ht _ h.name, ht _ h.description, ht _ h.family]
  rw [hf]
  rfl

/-- Such a declaration can be sent in both versions of the protocol. -/
theorem Spec.CppDeclaration.introducible {a : MetaArgs} {custom : List (Str × Str)} (h : CppDeclaration a custom) (multi : Bool) :
    Introducible ⟨a.regions, a.images, a.channels, textArg a.name, textArg a.description, textArg a.family,
      Properties.ofPairs custom, a.flags⟩ custom (if multi then 4 else 3) := by
  have hplain : ∀ s t, Plain s → textArg s = some t → Plain t := by
    intro s t hs ht
    unfold textArg at ht
    split at ht
    · cases ht
    · cases ht; exact hs
  refine ⟨by cases multi <;> decide, h.regions, h.images, h.channels, (by cases multi <;> intro h <;> cases h), ?_, rfl, h.custom⟩
  rintro s (hs | hs | hs)
  · exact hplain _ _ h.name hs
  · exact hplain _ _ h.description hs
  · exact hplain _ _ h.family hs

/-- **C107, without the custom properties.** A tracker makes a `Metadata` object, sets custom properties and constructs a
`ServerSOT` or a `ServerMOT` with it; a client is constructed on what the server sent. Then `metadata()` of the client
gives exactly the formats, channels and texts that the tracker declared, and the C record of the client's handle has the
custom properties. -/
theorem C107_declared_partial (a : MetaArgs) (custom : List (Str × Str)) (h : CppDeclaration a custom) (multi : Bool) (junk : UInt32)
    (stream : Stream) (hout : stream.out.Reliable) :
    ∃ m s news, declare a custom = .ok m ∧ constructServer multi junk m stream = .ok s ∧ s.stream.out.sent = stream.out.sent ++ news ∧
      ∀ (mt : Option MsgType) (rest : List InEv) (out : Writer),
        ∃ c r, Handle.clientSetup ⟨mt, bytes news ++ rest, out⟩ = .ok (some c) ∧ handleMetadata (some c) = .ok r ∧
          regionFormats r = a.regions ∧ imageFormats r = a.images ∧ metadataChannels r = a.channels ∧
          trackerName r = a.name ∧ trackerDescription r = a.description ∧ trackerFamily r = a.family ∧
          (∀ k, NoNul k → c.metadata.custom.get k = (custom.foldl (fun (b : AMap) kv => AMap.set b kv.1 kv.2) AMap.empty) k) ∧
          (c.isMulti = true ↔ multi = true ∧ a.flags &&& 1 ≠ 0) := by
  have hback : ∀ s, Plain s → (match (textArg s).map cstr with | some s => s | none => []) = s := fun s hs => text_arg (plain_noNul hs)
  have hrep : ∀ (l : List (Str × Str)) (p : Properties) (b : AMap), PropRep p b → (∀ kv ∈ l, ValidKey kv.1 ∧ Plain kv.2 ∧ ¬ b!"trax." <+: kv.1) →
      PropRep (l.foldl (fun p kv => p.set kv.1 kv.2) p) (l.foldl (fun (b : AMap) kv => AMap.set b kv.1 kv.2) b) := by
    intro l
    induction l with
    | nil => exact fun _ _ hp _ => hp
    | cons kv l ih =>
      intro p b hp hl
      have := hl kv List.mem_cons_self
      exact ih _ _ (propRep_set hp this.1.noNul (plain_noNul this.2.1)) fun kv' h' => hl kv' (List.mem_cons_of_mem _ h')
  have hv4 : ∀ m, constructServer multi junk m stream = Handle.serverSetup junk m stream (if multi then 4 else 3) := by
    intro m
    cases multi <;> rfl
  have hI := h.introducible multi
  obtain ⟨s, news, e1, e2, -, -, -, -, -, -, -, -, -, -, hc⟩ := C31_handshake_partial _ custom _ hI junk stream hout
  refine ⟨_, s, news, declare_eq h, by rw [hv4]; exact e1, e2, fun mt rest out => ?_⟩
  obtain ⟨c, c1, -, -, -, -, c2, c3, c4, c5, c6, c7, c8, c9, -⟩ := hc mt rest out
  have hr : handleMetadata (some c) = .ok ⟨c.metadata.regions, c.metadata.images, c.metadata.channels, c.metadata.name.map cstr,
      c.metadata.description.map cstr, c.metadata.family.map cstr, Properties.create, c.metadata.flags⟩ := by
    simp only [handleMetadata, recordOf, Metadata.create]
    rw [if_pos (by rw [c4]; exact h.channels.2)]
  refine ⟨c, _, c1, hr, c2, c3, c4, ?_, ?_, ?_, ?_, ?_⟩
  · simp only [trackerName]; rw [c5]; exact hback _ h.name
  · simp only [trackerDescription]; rw [c6]; exact hback _ h.description
  · simp only [trackerFamily]; rw [c7]; exact hback _ h.family
  · intro k hk
    rw [c9 k hk]
    exact (hrep custom _ _ PropRep.create h.custom).2 k hk
  · rw [c8]
    cases multi <;> simp

/-- A declaration with texts, custom properties and several formats. -/
example : CppDeclaration ⟨14, 13, 5, b!"demo", b!"a \"demo\"", [], 1⟩ [(b!"x.y", b!"1=2"), (b!"z", b!"")] :=
  ⟨by decide, by decide, by decide, by decide, by decide, by decide, by decide⟩

/-- **C107, violated.** The custom properties cannot be read in C++: whatever arrived with the handle, `metadata()` gives
an object without any. -/
theorem C107_custom_false :
    (∀ (c : Handle) (r : Metadata) (k : Str), handleMetadata (some c) = .ok r → getCustom r k = []) ∧
    ∃ m c r, declare ⟨2, 1, 1, [], [], [], 0⟩ [(b!"mode", b!"fast")] = .ok m ∧ getCustom m b!"mode" = b!"fast" ∧
      handshake m 3 = .ok (some c) ∧ c.metadata.custom.get b!"mode" = some b!"fast" ∧
      handleMetadata (some c) = .ok r ∧ getCustom r b!"mode" = [] := by
  have hall : ∀ (c : Handle) (r : Metadata) (k : Str), handleMetadata (some c) = .ok r → getCustom r k = [] := by
    intro c r k h
    simp only [handleMetadata, recordOf, Metadata.create] at h
    split at h
    · cases h
      simp only [getCustom, Properties.get_create]
    · cases h
  refine ⟨hall, ?_⟩
  have h1 : (match declare ⟨2, 1, 1, [], [], [], 0⟩ [(b!"mode", b!"fast")] with
      | .ok m => decide (getCustom m b!"mode" = b!"fast") && (match handshake m 3 with
        | .ok (some c) => decide (c.metadata.custom.get b!"mode" = some b!"fast") && (match handleMetadata (some c) with
          | .ok _ => true
          | _ => false)
        | _ => false)
      | _ => false) = true := by decide +kernel
  split at h1
  · next m hm =>
    simp only [Bool.and_eq_true, decide_eq_true_eq] at h1
    obtain ⟨g1, g2⟩ := h1
    split at g2
    · next c hc =>
      simp only [Bool.and_eq_true, decide_eq_true_eq] at g2
      obtain ⟨g2, g3⟩ := g2
      split at g3
      · next r hr => exact ⟨m, c, r, hm, g1, hc, g2, hr, hall c r _ hr⟩
      · cases g3
    · cases g2
  · cases h1

/-! ## C108: `Metadata` objects are values -/

/-- **C108, for programs that do not assign an object to itself, do not copy an object that was moved from, and set no custom
property while the value is shared with a copy.** Whatever such a program does with `Metadata` objects, no step aborts or is
undefined behaviour, and at the end every object says what its own history has made: a change of one object has never
changed another one. -/
theorem C108_value_semantics_partial (ops : List MetaOp) (s : Cpp.Spec.Values Cpp.Spec.MetaVal)
    (hs : Cpp.Spec.metaRun ops .start = some s) (hc : Cpp.Spec.MetaCarefulRun ops .start) :
    ∃ m, runMetaOps ops .start = .ok m ∧ ∀ x t b, s.vars x = some (.val t b) → ∃ r, m.readMetadata x = .ok r ∧
      regionFormats r = b.regions ∧ imageFormats r = b.images ∧ metadataChannels r = b.channels ∧ r.flags = b.flags ∧
      trackerName r = b.name ∧ trackerDescription r = b.description ∧ trackerFamily r = b.family ∧
      ∀ k, NoNul k → getCustom r k = (b.custom k).getD [] := by
  obtain ⟨m, v, e, h⟩ := VInv.metaRun ops VInv.start hc hs
  refine ⟨m, e, fun x t b hx => ?_⟩
  obtain ⟨r, hr, g1, g2, g3, g4, g5, g6, g7, g8⟩ := h.readMetadata hx
  refine ⟨r, hr, g1, g2, g3, g4, g5, g6, g7, fun k hk => ?_⟩
  unfold getCustom
  rw [g8.2 k hk]
  cases b.custom k <;> rfl

/-- A program that declares, copies, assigns, moves and sets custom properties. -/
def metaDemo : List MetaOp :=
  [.create 0 ⟨2, 1, 1, b!"a", [], b!"kcf", 0⟩, .setCustom 0 b!"mode" b!"fast", .construct 1, .moveAssign 1 0, .setCustom 1 b!"n" b!"1",
    .copy 2 1, .create 3 ⟨4, 1, 3, [], b!"b", [], 1⟩, .assign 2 3, .move 4 3, .setCustom 1 b!"n" b!"2", .destroy 3]

/-- The hypotheses are met. -/
example : (∃ s b₁ b₂ b₄, Cpp.Spec.metaRun metaDemo .start = some s ∧
      (∃ t, s.vars 1 = some (.val t b₁)) ∧ (∃ t, s.vars 2 = some (.val t b₂)) ∧ (∃ t, s.vars 4 = some (.val t b₄)) ∧
      b₁.family = b!"kcf" ∧ b₁.custom b!"mode" = some b!"fast" ∧ b₁.custom b!"n" = some b!"2" ∧ b₂.regions = 4 ∧ b₂.custom b!"n" = none ∧ b₄.description = b!"b") ∧
    Cpp.Spec.MetaCarefulRun metaDemo .start := by
  refine ⟨⟨_, _, _, _, rfl, ⟨_, rfl⟩, ⟨_, rfl⟩, ⟨_, rfl⟩, rfl, rfl, rfl, rfl, rfl, rfl⟩, ?_⟩
  simp only [metaDemo, Cpp.Spec.MetaCarefulRun, Cpp.Spec.MetaCareful]
  repeat' first | decide | (refine ⟨?_, ?_⟩) | (intro _ h; cases h) | trivial
  all_goals first
    | (intro h; cases h; done)
    | (rintro ⟨y, t, b, c, h1, h2, h3⟩
       simp only [Cpp.Spec.Values.own, Cpp.Spec.Values.put, Cpp.Spec.Values.start] at h2 h3
       cases h2
       repeat' split at h3
       all_goals first | exact absurd (by assumption) h1 | cases h3)

/-- **C108, violated.** Copies share their custom properties: after `Metadata y = x;` a custom property set in `y` is also
set in `x`. -/
theorem C108_custom_false :
    let ops : List MetaOp := [.construct 0, .copy 1 0, .setCustom 1 b!"k" b!"v"]
    ∃ s b, Cpp.Spec.metaRun ops .start = some s ∧ (∃ t, s.vars 0 = some (.val t b)) ∧ b.custom b!"k" = none ∧
      ((runMetaOps ops .start).bind fun m => (m.readMetadata 0).map fun r => getCustom r b!"k") = .ok b!"v" :=
  ⟨_, _, rfl, ⟨_, rfl⟩, rfl, by decide +kernel⟩

/-! ## C109: `Image` objects are values -/

/-- **C109, for programs that do not assign an object to itself, do not copy an object that was moved from, write no pixels
while the value is shared with a copy, and write only to the first row or to images of one column.** Whatever such a program
does with `Image` objects, no step aborts or is undefined behaviour, and at the end the methods of every object give what its
own history has made (the rows other than the first one only for images of one column, see C29). -/
theorem C109_value_semantics_partial (ops : List ImageOp) (s : Cpp.Spec.Values (Option Image))
    (hs : Cpp.Spec.imageRun ops .start = some s) (hc : Cpp.Spec.ImageCarefulRun ops .start) :
    ∃ m, runImageOps ops .start = .ok m ∧ ∀ x t b, s.vars x = some (.val t b) →
      (b = none → m.imageType x = .ok 0) ∧
      (∀ p, b = some (.path p) → m.imageType x = .ok 1 ∧ m.imagePath x = .ok p) ∧
      (∀ u, b = some (.url u) → m.imageType x = .ok 2 ∧ m.imageUrl x = .ok u) ∧
      (∀ w h f d, b = some (.memory w h f d) → m.imageType x = .ok 4 ∧ m.imageHeader x = .ok (w, h, f) ∧
        ∀ row j, 0 ≤ row → row < h → 0 ≤ j → j < w * pixelBytes f → row = 0 ∨ w = 1 →
          ∃ u, d[(row * (w * pixelBytes f) + j).toNat]? = some u ∧ m.imageByte x row j = .ok u) ∧
      (∀ f d, b = some (.buffer f d) → m.imageType x = .ok 8 ∧ m.imageBuffer x = .ok (f, d)) := by
  obtain ⟨m, v, e, h⟩ := VInv.imageRun ops VInv.start hc hs
  refine ⟨m, e, fun x t b hx => ?_⟩
  obtain ⟨w, hw, h1, h2, h3⟩ := h.readImage hx
  refine ⟨fun hb => ?_, ?_, ?_, ?_, ?_⟩
  · simp only [Mem.imageType, hw, Outcome.bind_ok, h1 hb]
  · rintro p rfl
    obtain ⟨n, hn, ho⟩ := h2 _ rfl
    simp only [Mem.imageType, Mem.imagePath, hw, Outcome.bind_ok, hn, ho, Outcome.map, Image.type, and_self]
  · rintro p rfl
    obtain ⟨n, hn, ho⟩ := h2 _ rfl
    simp only [Mem.imageType, Mem.imageUrl, hw, Outcome.bind_ok, hn, ho, Outcome.map, Image.type, and_self]
  · rintro wd ht f d rfl
    obtain ⟨n, hn, ho⟩ := h2 _ rfl
    refine ⟨by simp only [Mem.imageType, hw, Outcome.bind_ok, hn, ho, Outcome.map, Image.type],
      by simp only [Mem.imageHeader, hw, Outcome.bind_ok, hn, ho], fun row j a1 a2 a3 a4 a5 => ?_⟩
    obtain ⟨k1, k2, k3⟩ := imageWrite_eq (h3 _ _ _ _ rfl) 0 a1 a2 a3 a4 a5
    obtain ⟨u, hu⟩ : ∃ u, d[(row * (wd * pixelBytes f) + j).toNat]? = some u := ⟨_, List.getElem?_eq_getElem (by omega)⟩
    refine ⟨u, hu, ?_⟩
    simp only [Mem.imageByte, hw, Outcome.bind_ok, hn, ho, imageRead, k1, hu]
    rw [if_pos (by omega)]
  · rintro f d rfl
    obtain ⟨n, hn, ho⟩ := h2 _ rfl
    simp only [Mem.imageType, Mem.imageBuffer, hw, Outcome.bind_ok, hn, ho, Outcome.map, Image.type, and_self]

/-- A program that creates images of every type, copies, assigns, moves and writes. -/
def imagesDemo : List ImageOp :=
  [.memory 0 2 1 3 (fun _ => 0), .write 0 0 4 7, .path 1 b!"a.png", .copy 2 1, .moveAssign 1 0, .memory 3 1 3 2 (fun _ => 9), .write 3 2 1 5,
    .assign 2 3, .move 4 3, .url 5 b!"http://x", .buffer 6 [0xFF, 0xD8, 0xFF, 0xE0, 1], .construct 7, .destroy 3]

/-- The hypotheses are met. -/
example : (∃ s, Cpp.Spec.imageRun imagesDemo .start = some s ∧
      (∃ t, s.vars 0 = some (.val t (some (.path b!"a.png")))) ∧ (∃ t, s.vars 1 = some (.val t (some (.memory 2 1 3 [0, 0, 0, 0, 7, 0])))) ∧
      (∃ t, s.vars 2 = some (.val t (some (.memory 1 3 2 [9, 9, 9, 9, 9, 5])))) ∧ (∃ t, s.vars 7 = some (.val t none))) ∧
    Cpp.Spec.ImageCarefulRun imagesDemo .start := by
  refine ⟨⟨_, rfl, ⟨_, rfl⟩, ⟨_, rfl⟩, ⟨_, rfl⟩, ⟨_, rfl⟩⟩, ?_⟩
  simp only [imagesDemo, Cpp.Spec.ImageCarefulRun, Cpp.Spec.ImageCareful]
  repeat' first | decide | (refine ⟨?_, ?_⟩) | (intro _ h; cases h) | trivial
  all_goals first
    | (intro h; cases h; done)
    | (exact .inl trivial)
    | (right; intro t w h f d h2
       simp only [Cpp.Spec.Values.own, Cpp.Spec.Values.put, Cpp.Spec.Values.start] at h2
       cases h2; rfl)
    | (rintro ⟨y, t, b, c, h1, h2, h3⟩
       simp only [Cpp.Spec.Values.own, Cpp.Spec.Values.put, Cpp.Spec.Values.start] at h2 h3
       cases h2
       repeat' split at h3
       all_goals first | exact absurd (by assumption) h1 | cases h3)

/-- **C109, violated.** `write_memory_row` gives access to the pixels of all copies: after `Image y = x;` a byte written
through `y` is seen in `x`. -/
theorem C109_write_false :
    let ops : List ImageOp := [.memory 0 2 1 1 (fun _ => 0), .copy 1 0, .write 1 0 0 7]
    ∃ s, Cpp.Spec.imageRun ops .start = some s ∧ (∃ t, s.vars 0 = some (.val t (some (.memory 2 1 1 [0, 0])))) ∧
      ((runImageOps ops .start).bind fun m => m.imageByte 0 0 0) = .ok 7 :=
  ⟨_, rfl, ⟨_, rfl⟩, rfl⟩

/-- **C109, violated.** A write to the second row of an image with several columns changes the first row instead. -/
theorem C109_row_false :
    let ops : List ImageOp := [.memory 0 2 2 1 (fun _ => 0), .write 0 1 0 7]
    ∃ s, Cpp.Spec.imageRun ops .start = some s ∧ (∃ t, s.vars 0 = some (.val t (some (.memory 2 2 1 [0, 0, 7, 0])))) ∧
      ((runImageOps ops .start).bind fun m => m.imageByte 0 0 1) = .ok 7 :=
  ⟨_, rfl, ⟨_, rfl⟩, rfl⟩

end Trax
