import Verif.Model.PyValues
import Verif.Spec.Python
import Verif.Spec.Image
import Verif.Spec.Matlab
import Mathlib.Data.List.Forall2

/-!
# Specification of images and regions in the Python package

Arrays are described by their elements; how the elements are placed in memory does not matter.
-/

namespace Trax.Py.Spec

/-- Where the element with these indices begins. -/
def position (a : NdArray) (idx : List Nat) : Int := a.base + (List.zipWith (fun (i : Nat) (s : Int) => i * s) idx a.strides).sum

/-- The byte `b` of the element with these indices; `none` outside of the memory of the array. -/
def byteAt (a : NdArray) (idx : List Nat) (b : Nat) : Option UInt8 :=
  if 0 ≤ position a idx + b then a.mem[(position a idx + b).toNat]? else none

/-- Indices of an element. -/
def Within (a : NdArray) (idx : List Nat) : Prop := List.Forall₂ (· < ·) idx a.shape

/-- An array as NumPy makes them: there is a stride for each dimension, and the elements are in its memory. -/
structure Readable (a : NdArray) : Prop where
  strides : a.strides.length = a.shape.length
  elements : ∀ idx, Within a idx → ∀ b < a.dtype.size, (byteAt a idx b).isSome = true

/-- The number that is spelled by bytes, the low one first. -/
def spell (bs : List UInt8) : Int := bs.foldr (fun b n => b.toNat + 256 * n) 0

/-- The value of an element of an array of integers, on a machine that stores the low byte first. -/
def value (a : NdArray) (idx : List Nat) : Option Int :=
  let bs := (List.range a.dtype.size).filterMap (byteAt a idx)
  let n := spell (if a.dtype.swapped then bs.reverse else bs)
  match a.dtype.kind with
  | .unsigned => some n
  | .signed => some (if 2 * n ≥ 256 ^ a.dtype.size then n - 256 ^ a.dtype.size else n)
  | .bool => some (if n = 0 then 0 else 1)
  | .float => none

/-- An array that is an image with `h` rows, `w` columns, `c` samples per pixel and the format `f` of the library: 8-bit or 16-bit grey with or without a third dimension, or 8-bit
colour. It is not empty, and its size in bytes fits in an `int`. -/
structure Picture (a : NdArray) (h w c : Nat) (f : Int) : Prop where
  shape : (a.shape = [h, w] ∧ c = 1) ∨ a.shape = [h, w, c]
  type : (a.dtype = ⟨.unsigned, 1, false⟩ ∧ (c = 1 ∧ f = 1 ∨ c = 3 ∧ f = 3)) ∨ (a.dtype = ⟨.unsigned, 2, false⟩ ∧ c = 1 ∧ f = 2)
  rows : 1 ≤ h
  columns : 1 ≤ w
  fits : a.dtype.size * (h * (w * c)) < 2147483648
  readable : Readable a

/-- The byte `b` of sample `k` of the pixel in row `i` and column `j` of such an array. -/
def sample (a : NdArray) (i j k b : Nat) : Option UInt8 := byteAt a ([i, j, k].take a.shape.length) b

/-- The arrays that have one of the shapes of `Picture`, with elements of the sizes there. -/
def ImageShape (a : NdArray) : Prop :=
  (∃ h w, a.shape = [h, w] ∨ a.shape = [h, w, 1]) ∧ (a.dtype.size = 1 ∨ a.dtype.size = 2) ∨ (∃ h w, a.shape = [h, w, 3]) ∧ a.dtype.size = 1

/-- A matrix of `uint8` whose elements follow one another in memory, row by row; it is not empty and its size fits in an `int`. -/
structure RowByRow (a : NdArray) (rows cols : Nat) : Prop where
  type : a.dtype = ⟨.unsigned, 1, false⟩
  shape : a.shape = [rows, cols]
  hasRows : 1 ≤ rows
  hasColumns : 1 ≤ cols
  fits : rows * cols < 2147483648
  readable : Readable a
  order : ∀ i j, i < rows → j < cols → position a [i, j] = position a [0, 0] + (i * cols + j : Nat)

/-- The matrices `a` and `b` of `uint8` have the same elements. -/
def SameMatrix (a b : NdArray) : Prop :=
  a.dtype = b.dtype ∧ a.shape = b.shape ∧ ∀ idx, Within a idx → byteAt a idx 0 = byteAt b idx 0

/-- `a` is the matrix `b` with `y` rows of zeros above and `x` columns of zeros left of it. -/
def Padded (a b : NdArray) (x y rows cols : Nat) : Prop :=
  a.dtype = ⟨.unsigned, 1, false⟩ ∧ a.shape = [y + rows, x + cols] ∧
    (∀ i j, i < rows → j < cols → byteAt a [y + i, x + j] 0 = byteAt b [i, j] 0) ∧
    ∀ i j, i < y + rows → j < x + cols → (i < y ∨ j < x) → byteAt a [i, j] 0 = some 0

end Trax.Py.Spec
