import Verif.Model.Bytes

/-!
# Specification of image files and image lists

The beginnings of PNG, GIF and JPEG files, as the standards of these formats define them, and the text
of an image list.
-/

namespace Trax.Cli.Spec

/-- A number as two bytes, the high one first. -/
def be16 (n : Nat) : List UInt8 := [UInt8.ofNat (n / 256), UInt8.ofNat (n % 256)]

/-- A number as two bytes, the low one first. -/
def le16 (n : Nat) : List UInt8 := [UInt8.ofNat (n % 256), UInt8.ofNat (n / 256)]

/-- A number as four bytes, the high one first. -/
def be32 (n : Nat) : List UInt8 := be16 (n / 65536) ++ be16 (n % 65536)

/-- A PNG file: the signature, then the header chunk with the size. Widths and heights are less than
2^31. -/
structure Png (width height : Nat) (file : List UInt8) : Prop where
  width_lt : width < 2147483648
  height_lt : height < 2147483648
  text : ∃ length rest : List UInt8, length.length = 4 ∧
    file = [0x89, 0x50, 0x4E, 0x47, 0x0D, 0x0A, 0x1A, 0x0A] ++ length ++ b!"IHDR" ++ be32 width ++ be32 height ++ rest

/-- A GIF file: `GIF` and the version, then the size. A file with a picture has at least 24 bytes. -/
structure Gif (width height : Nat) (file : List UInt8) : Prop where
  width_lt : width < 65536
  height_lt : height < 65536
  text : ∃ version rest : List UInt8, version.length = 3 ∧ 14 ≤ rest.length ∧
    file = b!"GIF" ++ version ++ le16 width ++ le16 height ++ rest

/-- A segment of a JPEG file before the picture: tables, application data, comments. -/
structure Segment where
  marker : UInt8
  payload : List UInt8

/-- The markers of the pictures of JPEG files: Huffman or arithmetic coding, not differential. -/
def pictureMarkers : List UInt8 := [0xC0, 0xC1, 0xC2, 0xC3, 0xC9, 0xCA, 0xCB]

/-- The bytes of a segment: its marker, the length with the two bytes of the length, the payload. -/
def Segment.bytes (s : Segment) : List UInt8 := [0xFF, s.marker] ++ be16 (s.payload.length + 2) ++ s.payload

/-- The segment does not begin a picture and its length can be written. -/
def Segment.Valid (s : Segment) : Prop := s.marker ∉ pictureMarkers ∧ s.payload.length + 2 < 65536

/-- A JPEG file: any segments, then the header of the picture with the number of bits of a
sample, the height, the width and the components (of three bytes each, at least one). -/
structure Jpeg (width height : Nat) (segments : List Segment) (file : List UInt8) : Prop where
  width_lt : width < 65536
  height_lt : height < 65536
  valid : ∀ s ∈ segments, s.Valid
  text : ∃ (marker bits count : UInt8) (length rest : List UInt8), marker ∈ pictureMarkers ∧ length.length = 2 ∧
    3 ≤ rest.length ∧
    file = [0xFF, 0xD8] ++ segments.flatMap Segment.bytes ++ [0xFF, marker] ++ length ++ [bits] ++ be16 height ++
      be16 width ++ [count] ++ rest

/-- The segment that makes a JPEG file a JFIF file. -/
def Segment.Jfif (s : Segment) : Prop := s.marker = 0xE0 ∧ b!"JFIF" ++ [0] <+: s.payload

/-- A line of an image list: the file names of the images, separated by semicolons. -/
def rowText : List Str → Str
  | [] => []
  | [p] => p
  | p :: q :: row => p ++ b!";" ++ rowText (q :: row)

/-- A file name can be in the list. -/
def Listable (p : Str) : Prop := ch%';' ∉ p ∧ ch%'\n' ∉ p

/-- The text of an image list: one line for each frame. -/
def listText (rows : List (List Str)) : Str := rows.flatMap fun row => rowText row ++ b!"\n"

end Trax.Cli.Spec
