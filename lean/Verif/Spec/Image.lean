import Verif.Model.Outcome
import Verif.Model.Bytes

/-!
# Specification of the contents of images
-/

namespace Trax.Spec

/-- The bytes of a pixel: one for 8-bit grey (format 1), two for 16-bit grey (2), three for RGB (3). -/
def pixelBytes (format : Int) : Int := if format = 1 then 1 else if format = 2 then 2 else 3

/-- The pixels of an image of this width, height and format; the sizes of the library are `int`s. -/
structure PixelData (w h f : Int) (data : List UInt8) : Prop where
  format : f = 1 ∨ f = 2 ∨ f = 3
  width : 1 ≤ w
  height : 1 ≤ h
  length : (data.length : Int) = w * h * pixelBytes f
  fits : data.length < 2147483648

/-- The data of a file in a buffer: JPEG (format 2) or PNG (1), told by the first four bytes, with
something after them. -/
def FileData (f : Int) (data : List UInt8) : Prop :=
  5 ≤ data.length ∧
    ((f = 2 ∧ data.take 4 = [0xFF, 0xD8, 0xFF, 0xE0]) ∨ (f = 1 ∧ data.take 4 = [0x89, 0x50, 0x4E, 0x47]))

end Trax.Spec
