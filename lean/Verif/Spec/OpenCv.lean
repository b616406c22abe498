import Verif.Model.OpenCv
import Verif.Spec.Float

/-!
# Specification: matrices of OpenCV
-/

namespace Trax.Spec

/-- Byte `k` of the element in row `i` and column `j`, of elements of `n` bytes. -/
def elementByte (m : Ocv.Mat) (n i j k : Nat) : Option UInt8 := m.bytes[m.step * i + n * j + k]?

/-- A matrix with elements of `n` bytes whose memory exists: it is not empty, rows do not overlap, and the
last row ends within the memory. Its size in bytes fits in an `int`. It may be a part of a larger one. -/
structure MatOk (n : Nat) (m : Ocv.Mat) : Prop where
  rows : 1 ≤ m.rows
  cols : 1 ≤ m.cols
  step : n * m.cols ≤ m.step
  memory : m.step * (m.rows - 1) + n * m.cols ≤ m.bytes.length
  fits : n * (m.rows * m.cols) < 2 ^ 31

/-- Byte `k` of the pixel in row `i` and column `j` of an image with pixels of `n` bytes and this width. -/
def pixelByte (n width : Nat) (data : List UInt8) (i j k : Nat) : Option UInt8 := data[n * (width * i + j) + k]?

/-- `r` is the integer next to `q`; of two that are equally near, the one away from zero. -/
def RoundsTo (q : ℚ) (r : Int) : Prop :=
  |q - r| ≤ 1 / 2 ∧ (|q - r| = 1 / 2 → |q| ≤ |(r : ℚ)|)

end Trax.Spec
