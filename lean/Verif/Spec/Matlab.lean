import Verif.Model.Matlab
import Verif.Spec.Image
import Verif.Spec.OpenCv
import Verif.Spec.Float

/-!
# Specification: arrays of MATLAB

An array with `h` rows and `w` columns is stored by columns, one layer after the other: the element in row `i`, column `j`
and layer `k` is the one at position `i + h * (j + w * k)`. An image is stored by rows (`pixelByte`).
-/

namespace Trax.Spec

/-- Byte `b` of the element in row `i`, column `j` and layer `k` of an array with elements of `n` bytes. -/
def arrayByte (n h w : Nat) (data : List UInt8) (i j k b : Nat) : Option UInt8 := data[n * (i + h * (j + w * k)) + b]?

/-- The array with the same pixels as the image: grey images have one layer, colour images the layers red, green and blue. -/
inductive SamePixels (w h : Nat) (image : List UInt8) : Int → Mex.Mx → Prop where
  | gray8 (array : List UInt8) (hl : array.length = h * w)
      (hp : ∀ i j, i < h → j < w → arrayByte 1 h w array i j 0 0 = pixelByte 1 w image i j 0) :
      SamePixels w h image 1 (.bytes 1 [h, w] array)
  | gray16 (array : List UInt8) (hl : array.length = 2 * (h * w))
      (hp : ∀ i j b, i < h → j < w → b < 2 → arrayByte 2 h w array i j 0 b = pixelByte 2 w image i j b) :
      SamePixels w h image 2 (.bytes 2 [h, w] array)
  | rgb (array : List UInt8) (hl : array.length = 3 * (h * w))
      (hp : ∀ i j k, i < h → j < w → k < 3 → arrayByte 1 h w array i j k 0 = pixelByte 3 w image i j k) :
      SamePixels w h image 3 (.bytes 1 [h, w, 3] array)

/-- An array of `h` rows and `w` columns that can be an image: `uint8` with one or three layers, `uint16` with one. It is
not empty and its size in bytes fits in an `int`. -/
inductive Picture (w h : Nat) : Mex.Mx → Prop where
  | gray8 (array : List UInt8) (hw : 1 ≤ w) (hh : 1 ≤ h) (hl : array.length = h * w) (hf : array.length < 2147483648) :
      Picture w h (.bytes 1 [h, w] array)
  | gray16 (array : List UInt8) (hw : 1 ≤ w) (hh : 1 ≤ h) (hl : array.length = 2 * (h * w)) (hf : array.length < 2147483648) :
      Picture w h (.bytes 2 [h, w] array)
  | rgb (array : List UInt8) (hw : 1 ≤ w) (hh : 1 ≤ h) (hl : array.length = 3 * (h * w)) (hf : array.length < 2147483648) :
      Picture w h (.bytes 1 [h, w, 3] array)

/-- The value of a finite `double`. -/
def doubleValue : Flt → ℚ
  | .fin neg m => (if neg then -(m : ℚ) else m) / 2 ^ 1074
  | _ => 0

/-- The `double` `y` is the same number as the `float` `x`. -/
def SameNumber (x y : Flt) : Prop :=
  match x with
  | .nan => y = .nan
  | .inf neg => y = .inf neg
  | .fin .. => y.IsFinite ∧ doubleValue y = x.value

/-- The `float` `y` is as near as possible to the `double` `x`, if `x` is not beyond the largest `float`. -/
def NextFloat (x y : Flt) : Prop :=
  match x with
  | .nan => y = .nan
  | .inf neg => y = .inf neg
  | .fin .. => |doubleValue x| ≤ (2 ^ 24 - 1) * 2 ^ 104 → Nearest (doubleValue x) y

/-- The pixel in row `r` and column `c` of an image of which a mask of width `w` and height `h` with its upper left corner in
column `x` and row `y` is a part; 0 outside of the mask. -/
def maskAt (x y w h : Nat) (data : List UInt8) (r c : Nat) : UInt8 :=
  if y ≤ r ∧ r < y + h ∧ x ≤ c ∧ c < x + w then data[w * (r - y) + (c - x)]?.getD 0 else 0

/-- A key that MATLAB takes as the name of a field: a letter, then letters, digits and `_`. -/
def FieldName (k : Str) : Prop :=
  ∃ c s, k = c :: s ∧ isAlpha c = true ∧ ∀ d ∈ s, isAlnum d = true ∨ d = ch%'_'

/-- The names of the region formats a user of MATLAB writes. -/
def mexRegions : List (Str × UInt32) := [(b!"rectangle", 2), (b!"polygon", 4), (b!"mask", 8)]

/-- The names of the image formats. -/
def mexImages : List (Str × UInt32) := [(b!"path", 1), (b!"url", 2), (b!"buffer", 8), (b!"memory", 4)]

/-- The names of the channels. -/
def mexChannels : List (Str × UInt32) := [(b!"color", 1), (b!"depth", 2), (b!"ir", 4)]

/-- `s` is the name of `code`, in letters of either case. -/
def Names (table : List (Str × UInt32)) (s : Str) (code : UInt32) : Prop :=
  ∃ name, (name, code) ∈ table ∧
    List.Forall₂ (fun a b : UInt8 => a = b ∨ (65 ≤ a.toNat ∧ a.toNat ≤ 90 ∧ b.toNat = a.toNat + 32)) s name

/-- The codes of the set `c` are those that `l` names, and `c` has no others. -/
def Union (table : List (Str × UInt32)) (l : List Str) (c : UInt32) : Prop :=
  (∀ name code, (name, code) ∈ table → (c &&& code ≠ 0 ↔ ∃ s ∈ l, Names table s code)) ∧
  ∀ i, c.toNat.testBit i = true → ∃ name code, (name, code) ∈ table ∧ code.toNat = 2 ^ i

/-- The images of which the array is an image again: pixels, and files. -/
inductive HasArray : Image → Prop where
  | memory (w h : Nat) (f : Int) (data : List UInt8) (hp : PixelData w h f data) : HasArray (.memory w h f data)
  | path (p : Str) (hp : NoNul p) : HasArray (.path p)

end Trax.Spec
