import Verif.Lemmas.CliImages

/-!
# The images of a sequence in `traxclient` (C102–C104)
-/

namespace Trax.Cli
open Trax.Cli.Spec

/-! ## C102: the size of an image -/

/-- The files for which the size is found: PNG, GIF, and JPEG files that begin with a JFIF segment. -/
def Supported (width height : Nat) (file : List UInt8) : Prop :=
  Png width height file ∨ Gif width height file ∨
    ∃ s segments, s.Jfif ∧ Jpeg width height (s :: segments) file

theorem size_png {w h : Nat} {file : List UInt8} (hf : Png w h file) :
    headerSize (file.take 24) (some ⟨-1, -1⟩) = some ⟨w, h⟩ ∧ isJfif (file.take 24) = false ∧ 24 ≤ file.length := by
  obtain ⟨hw, hh, l, rest, hl, rfl⟩ := hf
  obtain ⟨a, b, c, d, rfl⟩ : ∃ a b c d, l = [a, b, c, d] := by
    match l, hl with
    | [a, b, c, d], _ => exact ⟨a, b, c, d, rfl⟩
  have hval : ∀ n, n < 2147483648 →
      wrap32 (((UInt8.ofNat (n / 65536 / 256)).toNat * 16777216 + (UInt8.ofNat (n / 65536 % 256)).toNat * 65536 +
        (UInt8.ofNat (n % 65536 / 256)).toNat * 256 + (UInt8.ofNat (n % 65536 % 256)).toNat : Nat) : Int) = n := by
    intro n hn
    have h1 := be16_value (n := n / 65536) (by omega)
    have h2 := be16_value (n := n % 65536) (by omega)
    have : (UInt8.ofNat (n / 65536 / 256)).toNat * 16777216 + (UInt8.ofNat (n / 65536 % 256)).toNat * 65536 +
        (UInt8.ofNat (n % 65536 / 256)).toNat * 256 + (UInt8.ofNat (n % 65536 % 256)).toNat = n := by
      generalize (UInt8.ofNat (n / 65536 / 256)).toNat = a at h1 ⊢
      generalize (UInt8.ofNat (n / 65536 % 256)).toNat = b at h1 ⊢
      generalize (UInt8.ofNat (n % 65536 / 256)).toNat = c at h2 ⊢
      generalize (UInt8.ofNat (n % 65536 % 256)).toNat = d at h2 ⊢
      have h3 := Nat.div_add_mod n 65536
      rw [← h1, ← h2] at h3
      clear h1 h2 hw hh hn
      omega
    rw [this]
    unfold wrap32
    omega
  refine ⟨?_, ?_, ?_⟩
  · have h1 := hval w hw
    have h2 := hval h hh
    simp only [be32, be16, List.cons_append, List.nil_append, List.take_succ_cons, List.take_zero,
      headerSize, byteAt, List.getD_cons_succ, List.getD_cons_zero, List.drop_succ_cons, List.drop_zero]
    rw [if_pos (by simp), h1, h2]
  · rfl
  · simp [be32, be16]

theorem size_gif {w h : Nat} {file : List UInt8} (hf : Gif w h file) :
    headerSize (file.take 24) (some ⟨-1, -1⟩) = some ⟨w, h⟩ ∧ isJfif (file.take 24) = false ∧ 24 ≤ file.length := by
  obtain ⟨hw, hh, v, rest, hv, hr, rfl⟩ := hf
  obtain ⟨a, b, c, rfl⟩ : ∃ a b c, v = [a, b, c] := by
    match v, hv with
    | [a, b, c], _ => exact ⟨a, b, c, rfl⟩
  refine ⟨?_, ?_, ?_⟩
  · have h1 := be16_value hw
    have h2 := be16_value hh
    simp only [le16, List.cons_append, List.nil_append, List.take_succ_cons, List.take_zero,
      headerSize, byteAt, List.getD_cons_succ, List.getD_cons_zero, List.drop_succ_cons, List.drop_zero]
    rw [if_neg (by rintro ⟨h, -⟩; cases h), if_pos trivial]
    simp only [Option.some.injEq, ImageSize.mk.injEq]
    omega
  · rfl
  · simp [le16]; omega

theorem size_jfif {w h : Nat} {s : Segment} {segs : List Segment} {file : List UInt8} (hj : s.Jfif)
    (hf : Jpeg w h (s :: segs) file) :
    isJfif (file.take 24) = true ∧ 24 ≤ file.length ∧
      headerSize (scanSegments file (file.take 24) 2) (some ⟨-1, -1⟩) = some ⟨w, h⟩ := by
  obtain ⟨hw, hh, hv, m, bits, count, l, rest, hm, hl, hr, hfile⟩ := hf
  obtain ⟨c, d, rfl⟩ : ∃ c d, l = [c, d] := by
    match l, hl with
    | [c, d], _ => exact ⟨c, d, rfl⟩
  obtain ⟨hE0, pay, hpay⟩ := hj
  obtain ⟨tail, htail⟩ : ∃ tail, tail = 0xFF :: m :: c :: d :: bits :: UInt8.ofNat (h / 256) :: UInt8.ofNat (h % 256) ::
      UInt8.ofNat (w / 256) :: UInt8.ofNat (w % 256) :: count :: rest := ⟨_, rfl⟩
  have hfile' : file = [0xFF, 0xD8] ++ ((s :: segs).flatMap Segment.bytes ++ tail) := by
    rw [hfile, htail]; simp [be16]
  have hlen : file.length = 2 + (pay.length + 9 + ((segs.flatMap Segment.bytes).length + (rest.length + 10))) := by
    rw [hfile', htail]
    simp [Segment.bytes, be16, ← hpay]
    omega
  have h24 : 24 ≤ file.length := by omega
  have hstart : file.take 24 = [0xFF, 0xD8] ++ (file.drop 2).take 12 ++ (file.drop 14).take 10 := by
    have h1 : file.take 24 = (file.take 14) ++ (file.drop 14).take 10 := by
      rw [show (24 : Nat) = 14 + 10 from rfl, List.take_add]
    have h2 : file.take 14 = file.take 2 ++ (file.drop 2).take 12 := by
      rw [show (14 : Nat) = 2 + 12 from rfl, List.take_add]
    have h3 : file.take 2 = [0xFF, 0xD8] := by rw [hfile']; rfl
    rw [h1, h2, h3]
  refine ⟨?_, h24, ?_⟩
  · rw [hfile']
    simp only [List.flatMap_cons, Segment.bytes, hE0, ← hpay, be16, List.cons_append, List.nil_append,
      List.append_assoc, List.take_succ_cons, isJfif, List.drop_succ_cons, List.drop_zero]
    rfl
  · have hscan := scanSegments_all (s :: segs) file 0xFF 0xD8 [0xFF, 0xD8] tail ((file.drop 14).take 10) hv hfile'
      (by rw [htail]; simp; omega) ⟨m, _, htail, hm⟩ (by simp; omega)
    rw [hstart]
    refine (congrArg (headerSize · _) hscan).trans ?_
    have h1 := be16_value hw
    have h2 := be16_value hh
    rw [htail]
    simp only [List.cons_append, List.nil_append, List.take_succ_cons, List.take_zero,
      headerSize, byteAt, List.getD_cons_succ, List.getD_cons_zero, List.drop_succ_cons, List.drop_zero]
    rw [if_neg (by rintro ⟨h, -⟩; cases h), if_neg (by decide), if_pos trivial]
    simp only [Option.some.injEq, ImageSize.mk.injEq]
    omega

/-- **C102, what holds.** For an image given by its path, the size that is found is the one in the
file, for all PNG and GIF files and all JPEG files that begin with a JFIF segment, with whatever other
segments before the picture. The colour image of a frame is the one that counts. Missing
from the full claim: other JPEG files and images that are not given by a path, see below. -/
theorem C102_size_partial («open» : Str → Option (List UInt8)) (p : Str) (file : List UInt8) (w h : Nat)
    (depth ir : Option Image) (hopen : «open» p = some file) (hf : Supported w h file) :
    imagesGetSize «open» { color := some (.path p), depth, ir } = .ok ⟨w, h⟩ := by
  have key : 24 ≤ file.length ∧ headerSize (if isJfif (file.take 24) then scanSegments file (file.take 24) 2
      else file.take 24) (some ⟨-1, -1⟩) = some ⟨w, h⟩ := by
    rcases hf with hf | hf | ⟨s, segs, hj, hf⟩
    · obtain ⟨h1, h2, h3⟩ := size_png hf
      rw [h2]; exact ⟨h3, h1⟩
    · obtain ⟨h1, h2, h3⟩ := size_gif hf
      rw [h2]; exact ⟨h3, h1⟩
    · obtain ⟨h1, h2, h3⟩ := size_jfif hj hf
      rw [h1]; exact ⟨h2, h3⟩
  show imageGetSize «open» (some (.path p)) = _
  simp only [imageGetSize, hopen]
  rw [if_neg (by omega), key.2]
  rfl

/-- A JPEG file with a JFIF segment, a comment and a picture of 640 times 480. -/
example : Supported 640 480 ([0xFF, 0xD8] ++ [0xFF, 0xE0, 0, 7] ++ b!"JFIF" ++ [0] ++ [0xFF, 0xFE, 0, 3, 65] ++
    [0xFF, 0xC2, 0, 11, 8, 1, 0xE0, 2, 0x80, 1, 1, 0x11, 0]) :=
  Or.inr (Or.inr ⟨⟨0xE0, b!"JFIF" ++ [0]⟩, [⟨0xFE, [65]⟩], ⟨rfl, List.prefix_refl _⟩, by decide, by decide,
    by simp [Segment.Valid, pictureMarkers], 0xC2, 8, 1, [0, 11], [1, 0x11, 0], by decide, rfl, by decide, by decide⟩)

/-- **C102, violated.** JPEG files with an EXIF segment in place of the JFIF segment are not
recognized: the bytes of that segment are taken for the size. -/
theorem C102_exif_false :
    ¬ ∀ («open» : Str → Option (List UInt8)) (p : Str) (file : List UInt8) (w h : Nat) (segments : List Segment),
        «open» p = some file → Jpeg w h segments file →
        imagesGetSize «open» { color := some (.path p) } = .ok ⟨w, h⟩ := by
  intro h
  have hx := h (fun _ => some ([0xFF, 0xD8] ++ [0xFF, 0xE1, 0, 8] ++ b!"Exif" ++ [0, 0] ++
    [0xFF, 0xC0, 0, 11, 8, 1, 0xE0, 2, 0x80, 1, 1, 0x11, 0])) b!"a.jpg" _ 640 480 [⟨0xE1, b!"Exif" ++ [0, 0]⟩] rfl
    ⟨by decide, by decide, by simp [Segment.Valid, pictureMarkers],
      0xC0, 8, 1, [0, 11], [1, 0x11, 0], by decide, rfl, by decide, by decide⟩
  revert hx
  simp only [imagesGetSize, imageGetSize, Option.isSome_some, if_true]
  rw [if_neg (by decide), if_neg (by decide)]
  decide

/-- **C102, violated (2).** For images in memory and for images in buffers the program writes
through a null pointer, whatever the image is. -/
theorem C102_memory_false («open» : Str → Option (List UInt8)) (image : Image)
    (h : image.type = 4 ∨ image.type = 8) (depth ir : Option Image) :
    imagesGetSize «open» { color := some image, depth, ir } = .ub := by
  cases image with
  | path p => rcases h with h | h <;> cases h
  | url u => rcases h with h | h <;> cases h
  | memory w hh f d => rfl
  | buffer f d => rfl

/-! ## C103: the list of images -/

/-- **C103, what holds.** Each line of the list gives the images of one frame, in order, filled up
with empty names to three; what follows the last line break is ignored. Missing from the full
claim: the last line counts also if no line break follows it, see below. -/
theorem C103_rows_partial (rows : List (List Str)) (hrows : ∀ row ∈ rows, row ≠ [] ∧ ∀ p ∈ row, Listable p)
    (rest : Str) (hrest : ch%'\n' ∉ rest) :
    readImages (listText rows ++ rest) = rows.map fun row => row ++ List.replicate (3 - row.length) [] := by
  unfold readImages
  induction rows with
  | nil => rw [show listText [] = [] from rfl, List.nil_append, goodLines_tail rest hrest]; rfl
  | cons row rows ih =>
    obtain ⟨hne, hp⟩ := hrows row (by simp)
    have hsplit : listText (row :: rows) ++ rest = rowText row ++ b!"\n" ++ (listText rows ++ rest) := by
      simp [listText]
    rw [hsplit, goodLines_line _ _ (rowText_noLine row fun p h => (hp p h).2), List.map_cons, List.map_cons,
      ih fun row h => hrows row (by simp [h])]
    congr 1
    rw [splitColumns_row row hne fun p h => (hp p h).1]
    unfold padColumns
    split
    · rfl
    · next h => rw [show 3 - row.length = 0 by omega]; simp

example : ∀ row ∈ [[b!"1.jpg", b!"1.png"], [b!"2.jpg", [], b!"2.tif"]], row ≠ [] ∧ ∀ p ∈ row, Listable p := by
  simp [Listable]

/-- **C103, violated.** A last line without a line break at its end is lost. -/
theorem C103_last_line_false :
    ¬ ∀ rows : List (List Str), (∀ row ∈ rows, row ≠ [] ∧ ∀ p ∈ row, Listable p) → ∀ row : List Str,
        row ≠ [] → (∀ p ∈ row, Listable p ∧ p ≠ []) →
        (readImages (listText rows ++ rowText row)).length = rows.length + 1 := by
  intro h
  have hx := h [[b!"1.jpg"]] (by simp [Listable]) [b!"2.jpg"] (by simp) (by simp [Listable])
  rw [C103_rows_partial [[b!"1.jpg"]] (by simp [Listable]) _ (by decide)] at hx
  simp at hx

/-! ## C104: the images of a frame -/

/-- The images that a tracker has asked for: one for every channel it has declared and for which there
is a file, and each in a format it accepts. -/
def AsAsked (row : List Str) (imageFormats channels : Nat) (l : FrameImages) : Prop :=
  (l.color.isSome = true ↔ channels &&& 1 ≠ 0 ∧ row.getD 0 [] ≠ []) ∧
  (l.depth.isSome = true ↔ channels &&& 2 ≠ 0 ∧ row.getD 1 [] ≠ []) ∧
  (l.ir.isSome = true ↔ channels &&& 4 ≠ 0 ∧ row.getD 2 [] ≠ []) ∧
  ∀ image, l.color = some image ∨ l.depth = some image ∨ l.ir = some image → image.type &&& imageFormats ≠ 0

/-- **C104, violated.** A tracker that accepts files in buffers gets no image at all; the formats and
the channels are mixed up. -/
theorem C104_images_false :
    (¬ ∀ («open» : Str → Option (List UInt8)) (row : List Str) (imageFormats channels : Nat) (l : FrameImages),
        frameImages «open» row imageFormats channels = .ok (.ok l) → AsAsked row imageFormats channels l) ∧
    (∀ («open» : Str → Option (List UInt8)) (row : List Str), frameImages «open» row 8 1 = .ok (.ok {})) ∧
    (∀ («open» : Str → Option (List UInt8)) (row : List Str), frameImages «open» row 1 2 = .ok (.error .noFormat)) := by
  refine ⟨?_, fun _ _ => rfl, fun _ _ => rfl⟩
  intro h
  have hx := h (fun _ => none) [b!"1.jpg", [], []] 8 1 {} rfl
  exact absurd (hx.1.mpr (by decide)) (by decide)

theorem loadChannel_path («open» : Str → Option (List UInt8)) (wanted : Bool) (path : Str) (formats : Nat)
    (hf : formats &&& 1 ≠ 0) :
    ∃ i, loadChannel «open» wanted path formats = .ok (.ok i) ∧
      (i.isSome = true ↔ wanted = true ∧ path ≠ []) ∧ ∀ image, i = some image → image = Image.createPath path := by
  unfold loadChannel
  cases wanted with
  | false => exact ⟨none, rfl, by simp, by simp⟩
  | true =>
    unfold loadImage
    simp only [if_pos hf, if_true]
    rw [if_neg (by decide)]
    by_cases hp : path = []
    · exact ⟨none, by rw [if_pos hp], by simp [hp], by simp⟩
    · exact ⟨some (Image.createPath path), by rw [if_neg hp], by simp [hp], by simp⟩

/-- **C104, what holds.** If the numbers of the formats and of the channels that a tracker accepts
agree in their last three bits and the last bit is set - as for a tracker of colour images that takes paths,
and possibly buffers - it gets the images it has asked for, as paths of the files of the frame. -/
theorem C104_images_partial («open» : Str → Option (List UInt8)) (row : List Str) (imageFormats channels : Nat)
    (hsame : ∀ b, b = 1 ∨ b = 2 ∨ b = 4 → (imageFormats &&& b ≠ 0 ↔ channels &&& b ≠ 0))
    (hpath : imageFormats &&& 1 ≠ 0) :
    ∃ l, frameImages «open» row imageFormats channels = .ok (.ok l) ∧ AsAsked row imageFormats channels l ∧
      ∀ image, (l.color = some image → image = .path (cstr (row.getD 0 []))) ∧
        (l.depth = some image → image = .path (cstr (row.getD 1 []))) ∧
        (l.ir = some image → image = .path (cstr (row.getD 2 []))) := by
  have hc := (hsame 1 (Or.inl rfl)).mp hpath
  obtain ⟨i0, e0, s0, p0⟩ := loadChannel_path «open» (imageFormats &&& 1 != 0) (row.getD 0 []) channels hc
  obtain ⟨i1, e1, s1, p1⟩ := loadChannel_path «open» (imageFormats &&& 2 != 0) (row.getD 1 []) channels hc
  obtain ⟨i2, e2, s2, p2⟩ := loadChannel_path «open» (imageFormats &&& 4 != 0) (row.getD 2 []) channels hc
  refine ⟨{ color := i0, depth := i1, ir := i2 }, ?_, ⟨?_, ?_, ?_, ?_⟩, fun image => ⟨p0 image, p1 image, p2 image⟩⟩
  · unfold frameImages loadImages andLoad
    rw [e0, Outcome.bind_ok]; dsimp only
    rw [e1, Outcome.bind_ok]; dsimp only
    rw [e2, Outcome.bind_ok]
  · rw [s0, bne_iff_ne, hsame 1 (Or.inl rfl)]
  · rw [s1, bne_iff_ne, hsame 2 (Or.inr (Or.inl rfl))]
  · rw [s2, bne_iff_ne, hsame 4 (Or.inr (Or.inr rfl))]
  · intro image h
    have hi : image.type = 1 := by
      rcases h with h | h | h
      · rw [p0 image h]; rfl
      · rw [p1 image h]; rfl
      · rw [p2 image h]; rfl
    rw [hi, Nat.and_comm]
    exact hpath

example : (∀ b, b = 1 ∨ b = 2 ∨ b = 4 → (9 &&& b ≠ 0 ↔ 1 &&& b ≠ 0)) ∧ 9 &&& 1 ≠ 0 := by
  refine ⟨?_, by decide⟩
  rintro b (rfl | rfl | rfl) <;> decide

end Trax.Cli
