import Verif.Model.PyValues
import Verif.Model.Decimal

/-!
# The texts of images and regions in Python (`__str__` in `support/python/trax/image.py` and `support/python/trax/region.py`)

`str.format` puts the `str` of its argument in place of `{}`; the `str` of a `bytes` object is its `repr` (Python documentation, `bytes.__repr__` and `str`). `ctypes` returns a `bytes` object for `c_char_p`
(`support/python/trax/_ctypes.py` 866–875). How a `float` is written is a parameter.
-/

namespace Trax.Py

/-- A digit of `\x`. -/
def hexDigit (n : Nat) : Nat := if n < 10 then 48 + n else 87 + n

/-- A byte in the `repr` of a `bytes` object in the given quotes. -/
def reprByte (quote : Nat) (b : UInt8) : Text :=
  if b.toNat = quote ∨ b.toNat = 92 then [92, b.toNat]
  else if b.toNat = 9 then t!"\\t"
  else if b.toNat = 10 then t!"\\n"
  else if b.toNat = 13 then t!"\\r"
  else if b.toNat < 32 ∨ 127 ≤ b.toNat then [92, 120, hexDigit (b.toNat / 16), hexDigit (b.toNat % 16)]
  else [b.toNat]

/-- The `repr` of a `bytes` object: in double quotes if there is a single one in it and no double one. -/
def bytesRepr (s : Str) : Text :=
  let quote : Nat := if (39 : UInt8) ∈ s ∧ (34 : UInt8) ∉ s then 34 else 39
  98 :: quote :: ((s.map (reprByte quote)).flatten ++ [quote])

/-- The `str` of an `int`. -/
def intStr (n : Int) : Text := (fmtInt n).map UInt8.toNat

/-- `__str__` of the four kinds of images (`support/python/trax/image.py` 183–185, 206–212, 284–291, 334–339); `none` is a `KeyError`. -/
def imageStr : Image → Option Text
  | .path p => some (t!"File resource at '" ++ bytesRepr p ++ t!"'")
  | .url u => some (t!"URL resource at '" ++ bytesRepr u ++ t!"'")
  | .memory w h f _ =>
    let name : Option Text := if f = 3 then some t!"rgb" else if f = 1 then some t!"gray8" else if f = 2 then some t!"gray16" else none
    name.map fun name => t!"Raw image of size " ++ intStr w ++ t!"x" ++ intStr h ++ t!", format " ++ name
  | .buffer f data =>
    let name : Option Text := if f = 1 then some t!"jpeg" else if f = 2 then some t!"png" else none
    name.map fun name => t!"Encoded image (format: " ++ name ++ t!", size: " ++ intStr data.length ++ t!")"

/-- `Mask.__str__` (`support/python/trax/region.py` 354–365), from the header of the mask. -/
def maskStr (x y width height : Int) : Text :=
  t!"Mask of size " ++ intStr width ++ t!"x" ++ intStr height ++ t!" with offset x=" ++ intStr x ++ t!", y=" ++ intStr y

/-- `Rectangle.__str__` (`support/python/trax/region.py` 168–179), for a way to write a number of type `float`. -/
def rectangleStr {α : Type} (repr : α → Text) (x y width height : α) : Text :=
  t!"Rectangle " ++ repr x ++ t!"," ++ repr y ++ t!" " ++ repr width ++ t!"x" ++ repr height

/-- `Polygon.__str__` (`support/python/trax/region.py` 269–275), from the number of points. -/
def polygonStr (points : Int) : Text := t!"Polygon with " ++ intStr points ++ t!" points"

/-- `Special.__str__` (`support/python/trax/region.py` 128–134), from the code. -/
def specialStr (code : Int) : Text := t!"Special region (code " ++ intStr code ++ t!")"

end Trax.Py
