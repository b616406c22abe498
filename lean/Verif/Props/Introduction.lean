import Verif.Props.Handshake
import Verif.Props.FormatTexts
import Verif.Spec.Introduction

/-!
# Property theorems C161: what a client takes from an introduction
-/

namespace Trax
open Spec Handle
open Region (bind_eq_ok map_eq_ok)

theorem setOf_ne_zero {table : List (Str × Nat)} {ws : List Str} {f : UInt32} (h : SetOf table ws f) (hk : AllKnown table ws) :
    f = 0 ↔ ws = [] := by
  constructor
  · rintro rfl
    cases ws with
    | nil => rfl
    | cons w ws =>
      obtain ⟨i, hi⟩ := hk w (by simp)
      have := (h i).2 ⟨w, by simp, hi⟩
      simp at this
  · rintro rfl
    apply UInt32.toNat_inj.1
    apply Nat.eq_of_testBit_eq
    intro i
    have : ¬ f.toNat.testBit i = true := fun hb => by obtain ⟨w, hw, _⟩ := (h i).1 hb; cases hw
    simpa using this

theorem everything_minus : Everything 0xFFFFFFFF := by
  unfold Everything
  decide

/-- What `client_setup` makes of an introduction. -/
theorem clientSetup_introduces {stream : Stream} {v : Int} {rs is cs : List Str} {multi : Bool}
    (h : Introduces stream.read.1 v rs is cs multi) :
    ∃ rt it ch c, Listing rs rt ∧ Listing is it ∧
      (v < 2 → ch = 1) ∧
      (2 ≤ v → ∃ ct, Listing cs ct ∧ ch = (if formatsInt (channelsDecode ct) = 0 then 1 else formatsInt (channelsDecode ct))) ∧
      clientSetup stream = .ok (some c) ∧ c.version = v ∧ c.isAlive = true ∧
      c.metadata.regions = formatsInt (regionFormatsDecode rt) ∧ c.metadata.images = formatsInt (imageFormatsDecode it) ∧
      c.metadata.channels = ch ∧ (c.isMulti = true ↔ 4 ≤ v ∧ multi = true) ∧
      c.metadata.name = (stream.read.1.props.get b!"trax.name").map cstr ∧
      c.metadata.description = (stream.read.1.props.get b!"trax.description").map cstr ∧
      c.metadata.family = (stream.read.1.props.get b!"trax.family").map cstr := by
  obtain ⟨h1, h2, h3, h4, ⟨rt, h5, h6⟩, ⟨it, h7, h8⟩, h9, h10⟩ := h
  have hv := getInt_of_get h4 ⟨by omega, by omega⟩ 1
  have hm : ∃ k : Int, (if v > 3 then stream.read.1.props.getInt b!"trax.multiobject" 0 else .ok 0) = .ok k ∧ (k ≠ 0 ↔ 4 ≤ v ∧ multi = true) := by
    by_cases h4 : v > 3
    · rw [if_pos h4]
      rcases h10 with ⟨hn, rfl⟩ | ⟨n, hn1, hn2, hn, hm⟩
      · exact ⟨0, by unfold Properties.getInt; rw [hn], by simp⟩
      · exact ⟨n, getInt_of_get hn ⟨by omega, by omega⟩ 0, by rw [hm]; constructor <;> intro h; exact ⟨by omega, h⟩; exact h.2⟩
    · rw [if_neg h4]
      exact ⟨0, rfl, by constructor <;> intro h; exact absurd rfl h; omega⟩
  obtain ⟨k, hk, hk'⟩ := hm
  have hc : ∃ ch : UInt32, ch ≠ 0 ∧ (v < 2 → ch = 1) ∧
      (2 ≤ v → ∃ ct, Listing cs ct ∧ ch = (if formatsInt (channelsDecode ct) = 0 then 1 else formatsInt (channelsDecode ct))) ∧
      (if v < 2 then (.ok 1 : Outcome UInt32) else match stream.read.1.props.get b!"trax.channels" with
        | none => .ub
        | some text => .ok (if formatsInt (channelsDecode text) = 0 then 1 else formatsInt (channelsDecode text))) = .ok ch := by
    by_cases h2 : v < 2
    · exact ⟨1, by decide, fun _ => rfl, fun h => by omega, by rw [if_pos h2]⟩
    · obtain ⟨ct, hct, hl⟩ := h9 (by omega)
      refine ⟨_, ?_, fun h => absurd h h2, fun _ => ⟨ct, hl, rfl⟩, by rw [if_neg h2, hct]⟩
      split
      · decide
      · assumption
  obtain ⟨ch, hc0, hc1, hc2, hc3⟩ := hc
  have he : ∃ m, Metadata.create (formatsInt (regionFormatsDecode rt)) (formatsInt (imageFormatsDecode it)) ch
      (stream.read.1.props.get b!"trax.name") (stream.read.1.props.get b!"trax.description") (stream.read.1.props.get b!"trax.family")
      (if k ≠ 0 then 1 else 0) = .ok m ∧ clientSetup stream =
        .ok (some ⟨false, false, v, 0, .none, { m with custom := copyExternal stream.read.1.props m.custom }, stream.read.2⟩) := by
    refine ⟨_, by unfold Metadata.create; rw [if_pos hc0], ?_⟩
    unfold clientSetup
    dsimp only
    rw [if_neg (by simp [h1]), if_neg (by simp [h2]), hv, Outcome.bind_ok, h5, h7]
    dsimp only
    refine (congrArg (Outcome.bind · _) (show _ = Outcome.ok ch from hc3)).trans ?_
    rw [Outcome.bind_ok, hk, Outcome.bind_ok]
    unfold Metadata.create
    rw [if_pos hc0]
    rfl
  obtain ⟨m, hm, he⟩ := he
  unfold Metadata.create at hm
  rw [if_pos hc0] at hm
  cases hm
  refine ⟨rt, it, ch, _, h6, h8, hc1, hc2, he, ?_⟩
  · refine ⟨rfl, rfl, rfl, rfl, rfl, ?_, rfl, rfl, rfl⟩
    unfold isMulti
    dsimp only
    rw [← hk']
    by_cases h0 : k = 0
    · simp [h0, supports]
    · simp [h0, supports]

/-- **C161, what holds.** Whatever the tracker says in its introduction: if the version is one of the four that exist and all names in it are
names the client knows, the client takes from it exactly this version, exactly the named kinds of regions and images, exactly the named
channels (the visible light if none is named), and the texts and the multi-object declaration as given. Missing from the full claim:
introductions with other names or versions (see `C161_unknown_false`, `C161_version_false`) or without some of these properties (C33). -/
theorem C161_understood_partial (stream : Stream) (v : Int) (regions images channels : List Str) (multi : Bool)
    (h : Introduces stream.read.1 v regions images channels multi) (hv : 1 ≤ v ∧ v ≤ 4)
    (hr : AllKnown regionNames regions) (hi : AllKnown imageNames images) (hc : AllKnown channelNames channels) :
    ∃ c, clientSetup stream = .ok (some c) ∧ c.version = v ∧ c.isAlive = true ∧
      SetOf regionNames regions c.metadata.regions ∧ SetOf imageNames images c.metadata.images ∧
      SetOf channelNames (if 2 ≤ v ∧ channels ≠ [] then channels else [b!"color"]) c.metadata.channels ∧
      (c.isMulti = true ↔ v = 4 ∧ multi = true) ∧
      c.metadata.name = (stream.read.1.props.get b!"trax.name").map cstr ∧
      c.metadata.description = (stream.read.1.props.get b!"trax.description").map cstr ∧
      c.metadata.family = (stream.read.1.props.get b!"trax.family").map cstr := by
  obtain ⟨rt, it, ch, c, h1, h2, h3, h4, h5, h6, h7, h8, h9, h10, h11, h12⟩ := clientSetup_introduces h
  obtain ⟨f, hf, hf'⟩ := (C106_format_lists.2.1 _ _ h1).1 hr
  obtain ⟨g, hg, hg'⟩ := (C106_format_lists.1 _ _ h2).1 hi
  have hcolor : SetOf channelNames [b!"color"] 1 := by
    intro i
    constructor
    · intro hb
      have h1 : i = 0 := by
        by_contra hne
        have : (1 : UInt32).toNat = 2 ^ 0 := rfl
        rw [this, Nat.testBit_two_pow] at hb
        simp at hb; omega
      subst h1
      exact ⟨b!"color", by decide, by decide⟩
    · rintro ⟨w, hw, hm⟩
      rw [List.mem_singleton] at hw
      subst hw
      have : i = 0 := by
        simp only [channelNames, List.mem_cons, List.not_mem_nil, or_false, Prod.mk.injEq] at hm
        rcases hm with ⟨_, rfl⟩ | ⟨hm, _⟩ | ⟨hm, _⟩
        · rfl
        · exact absurd hm (by decide)
        · exact absurd hm (by decide)
      subst this
      decide
  refine ⟨c, h5, h6, h7, ?_, ?_, ?_, ?_, h12⟩
  · rw [h8, hf]; exact hf'
  · rw [h9, hg]; exact hg'
  · rw [h10]
    by_cases h2 : 2 ≤ v
    · obtain ⟨ct, hl, rfl⟩ := h4 h2
      obtain ⟨d, hd, hd'⟩ := (C106_format_lists.2.2.1 _ _ hl).1 hc
      rw [hd]
      have hz := setOf_ne_zero hd' hc
      show SetOf channelNames _ (if d = 0 then 1 else d)
      by_cases h0 : channels = []
      · rw [if_pos (hz.2 h0), if_neg (fun h => h.2 h0)]; exact hcolor
      · rw [if_neg (fun h => h0 (hz.1 h)), if_pos ⟨h2, h0⟩]; exact hd'
    · rw [if_neg (fun h => h2 h.1), h3 (by omega)]; exact hcolor
  · rw [h11]
    constructor
    · rintro ⟨a, b⟩; exact ⟨by omega, b⟩
    · rintro ⟨a, b⟩; exact ⟨by omega, b⟩

/-- An introduction. -/
def Demo.introduction (s : Str) : Stream := ⟨none, bytes (b!"@@TRAX:hello " ++ s ++ b!" \n"), Demo.out⟩

/-- A tracker that takes rectangles and polygons, files and pixels, and two channels. -/
example : ∃ stream : Stream, Introduces stream.read.1 4 [b!"rectangle", b!"polygon"] [b!"path", b!"memory"] [b!"color", b!"depth"] true ∧
    AllKnown regionNames [b!"rectangle", b!"polygon"] ∧ AllKnown imageNames [b!"path", b!"memory"] ∧
    AllKnown channelNames [b!"color", b!"depth"] := by
  refine ⟨Demo.introduction (b!"\"trax.version=4\" \"trax.region=rectangle;polygon\" \"trax.image=path;memory;\" " ++
      b!"\"trax.channels=color;depth\" \"trax.multiobject=1\""),
    ⟨by decide +kernel, by decide +kernel, by decide, by decide +kernel, ⟨b!"rectangle;polygon", by decide +kernel, ?_⟩,
      ⟨b!"path;memory;", by decide +kernel, ?_⟩, fun _ => ⟨b!"color;depth", by decide +kernel, ?_⟩,
      .inr ⟨1, by decide, by decide, by decide +kernel, by decide⟩⟩, ?_, ?_, ?_⟩
  · exact .cons (w := b!"rectangle") (s := b!"polygon") (by unfold ListWord; decide) (.last (by unfold ListWord; decide))
  · exact .cons (w := b!"path") (s := b!"memory;") (by unfold ListWord; decide)
      (.cons (w := b!"memory") (s := []) (by unfold ListWord; decide) .nil)
  · exact .cons (w := b!"color") (s := b!"depth") (by unfold ListWord; decide) (.last (by unfold ListWord; decide))
  · intro w hw; simp only [List.mem_cons, List.not_mem_nil, or_false] at hw
    rcases hw with rfl | rfl
    · exact ⟨1, by decide⟩
    · exact ⟨2, by decide⟩
  · intro w hw; simp only [List.mem_cons, List.not_mem_nil, or_false] at hw
    rcases hw with rfl | rfl
    · exact ⟨0, by decide⟩
    · exact ⟨2, by decide⟩
  · intro w hw; simp only [List.mem_cons, List.not_mem_nil, or_false] at hw
    rcases hw with rfl | rfl
    · exact ⟨0, by decide⟩
    · exact ⟨1, by decide⟩

/-- **C161, violated.** One name that the client does not know is enough, and the client takes the tracker for one that takes every
kind of region (or image, or needs every channel), whatever else the list says. -/
theorem C161_unknown_false (stream : Stream) (v : Int) (regions images channels : List Str) (multi : Bool)
    (h : Introduces stream.read.1 v regions images channels multi) :
    ∃ c, clientSetup stream = .ok (some c) ∧ c.isAlive = true ∧
      (¬ AllKnown regionNames regions → Everything c.metadata.regions) ∧
      (¬ AllKnown imageNames images → Everything c.metadata.images) ∧
      (2 ≤ v → ¬ AllKnown channelNames channels → Everything c.metadata.channels) := by
  obtain ⟨rt, it, ch, c, h1, h2, h3, h4, h5, h6, h7, h8, h9, h10, h11, h12⟩ := clientSetup_introduces h
  refine ⟨c, h5, h7, fun hr => ?_, fun hi => ?_, fun h2 hc => ?_⟩
  · rw [h8, (C106_format_lists.2.1 _ _ h1).2 hr]; exact everything_minus
  · rw [h9, (C106_format_lists.1 _ _ h2).2 hi]; exact everything_minus
  · obtain ⟨ct, hl, rfl⟩ := h4 h2
    rw [h10, (C106_format_lists.2.2.1 _ _ hl).2 hc]
    exact everything_minus

/-- **C161, violated.** Any version is accepted, also versions that do not exist, and the client goes on with it. -/
theorem C161_version_false (stream : Stream) (v : Int) (regions images channels : List Str) (multi : Bool)
    (h : Introduces stream.read.1 v regions images channels multi) (hv : v < 1 ∨ 4 < v) :
    ∃ c, clientSetup stream = .ok (some c) ∧ c.isAlive = true ∧ c.getParameter false 0 = (1, some v) ∧ ¬ (1 ≤ v ∧ v ≤ 4) := by
  obtain ⟨rt, it, ch, c, h1, h2, h3, h4, h5, h6, h7, h8, h9, h10, h11, h12⟩ := clientSetup_introduces h
  refine ⟨c, h5, h7, ?_, by omega⟩
  unfold getParameter
  unfold isAlive at h7
  rw [if_neg (by simp [h7]), if_pos rfl, h6]

/-- A tracker of a later version, for rectangles and ellipses. -/
def Demo.ellipses : Stream :=
  Demo.introduction b!"\"trax.version=7\" \"trax.region=rectangle;ellipse\" \"trax.image=path;\" \"trax.channels=color;\""

example : Introduces Demo.ellipses.read.1 7 [b!"rectangle", b!"ellipse"] [b!"path"] [b!"color"] false ∧
    ¬ AllKnown regionNames [b!"rectangle", b!"ellipse"] := by
  refine ⟨⟨by decide +kernel, by decide +kernel, by decide, by decide +kernel, ⟨b!"rectangle;ellipse", by decide +kernel, ?_⟩,
      ⟨b!"path;", by decide +kernel, ?_⟩, fun _ => ⟨b!"color;", by decide +kernel, ?_⟩, .inl ⟨by decide +kernel, rfl⟩⟩, ?_⟩
  · exact .cons (w := b!"rectangle") (s := b!"ellipse") (by unfold ListWord; decide) (.last (by unfold ListWord; decide))
  · exact .cons (w := b!"path") (s := []) (by unfold ListWord; decide) .nil
  · exact .cons (w := b!"color") (s := []) (by unfold ListWord; decide) .nil
  · intro h
    obtain ⟨i, hi⟩ := h b!"ellipse" (by decide)
    simp only [regionNames, List.mem_cons, List.not_mem_nil, or_false, Prod.mk.injEq] at hi
    rcases hi with ⟨hi, _⟩ | ⟨hi, _⟩ | ⟨hi, _⟩ <;> exact absurd hi (by decide)

/-- What the client writes when it starts to track `r` with the tracker that introduced itself. -/
def Demo.begun (stream : Stream) (images : ImageList) (r : Region) : Option (Int × Str) :=
  match clientSetup stream with
  | .ok (some c) =>
    match c.clientInitialize Demo.env images [(some r, Properties.create)] none with
    | .ok (ret, c') => some (ret, c'.stream.out.sent)
    | _ => none
  | _ => none

/-- **C161, violated.** To a tracker that takes rectangles and ellipses a mask is sent as it is; to one that takes rectangles only, its bounds. -/
theorem C161_mask_false :
    Demo.begun Demo.ellipses Demo.images (.mask 1 2 2 2 [0, 1, 1, 1]) =
      some (TRAX_OK, b!"@@TRAX:initialize \"mask:1,2,2,2,1,3\" \n@@TRAX:frame \"file:///a.jpg\" \n") ∧
    Demo.begun (Demo.introduction b!"\"trax.version=4\" \"trax.region=rectangle;\" \"trax.image=path;\" \"trax.channels=color;\"") Demo.images
      (.mask 1 2 2 2 [0, 1, 1, 1]) =
      some (TRAX_OK, b!"@@TRAX:initialize \"1.0000,2.0000,2.0000,2.0000\" \n@@TRAX:frame \"file:///a.jpg\" \n") := by
  decide +kernel

/-- **C161, violated.** The documented name of encoded images (`data`) and the documented separator of channels (a comma) are not known to the
client: it takes such a tracker for one that takes every kind of image and needs every channel, and then refuses to send a frame with just the
channels that were asked for. -/
theorem C161_documented_false :
    ((clientSetup (Demo.introduction b!"\"trax.version=4\" \"trax.region=rectangle;\" \"trax.image=data\" \"trax.channels=color,depth\"")).map
      fun c => c.map fun c => (c.metadata.images, c.metadata.channels)) = .ok (some (0xFFFFFFFF, 0xFFFFFFFF)) ∧
    ((Demo.begun (Demo.introduction b!"\"trax.version=4\" \"trax.region=rectangle;\" \"trax.image=path\" \"trax.channels=color,depth\"")
      [some (.path b!"/a.jpg"), some (.path b!"/d.jpg"), none] (.rectangle (.ofInt 1) (.ofInt 2) (.ofInt 3) (.ofInt 4))).map fun r => r.1) = some TRAX_ERROR ∧
    ((Demo.begun (Demo.introduction b!"\"trax.version=4\" \"trax.region=rectangle;\" \"trax.image=path\" \"trax.channels=color;depth\"")
      [some (.path b!"/a.jpg"), some (.path b!"/d.jpg"), none] (.rectangle (.ofInt 1) (.ofInt 2) (.ofInt 3) (.ofInt 4))).map fun r => r.1) = some TRAX_OK := by
  decide +kernel

end Trax
