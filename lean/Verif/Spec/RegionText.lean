import Verif.Spec.Float
import Verif.Model.Bytes

/-!
# Specification of the texts of regions

Regions as they are written in files and messages (docs/protocol.rst, "Region formats"): numbers that are separated
by commas, possibly behind the name of the format.
-/

namespace Trax.Spec

/-- An exponent: `e` or `E`, possibly a sign, digits. -/
structure Exponent where
  capital : Bool := false
  neg : Bool := false
  plus : Bool := false
  digits : Str

/-- A decimal number: blanks, possibly a sign, digits, possibly a point with more digits, possibly an exponent, blanks. -/
structure Numeral where
  before : Str := []
  neg : Bool := false
  plus : Bool := false
  whole : Str
  frac : Option Str := none
  exponent : Option Exponent := none
  after : Str := []

/-- The number that a row of digits stands for. -/
def digits (s : Str) : Nat := s.foldl (fun n c => 10 * n + (c.toNat - 48)) 0

/-- The characters of a sign. -/
def signText (neg plus : Bool) : Str := if neg then b!"-" else if plus then b!"+" else []

/-- The characters of an exponent. -/
def Exponent.text (e : Exponent) : Str := (if e.capital then b!"E" else b!"e") ++ signText e.neg e.plus ++ e.digits

/-- The value of an exponent. -/
def Exponent.value (e : Exponent) : ℤ := (if e.neg then -1 else 1) * (Spec.digits e.digits : ℤ)

/-- The characters of the decimals. -/
def pointText : Option Str → Str
  | none => []
  | some d => b!"." ++ d

/-- The characters of a possible exponent. -/
def exponentText : Option Exponent → Str
  | none => []
  | some e => e.text

/-- The value of a possible exponent. -/
def exponentValue : Option Exponent → ℤ
  | none => 0
  | some e => e.value

/-- The characters of the number. -/
def Numeral.text (n : Numeral) : Str :=
  n.before ++ signText n.neg n.plus ++ n.whole ++ pointText n.frac ++ exponentText n.exponent ++ n.after

/-- The number. -/
def Numeral.value (n : Numeral) : ℚ :=
  ((if n.neg then -1 else 1) * ((digits (n.whole ++ n.frac.getD []) : ℚ) / 10 ^ (n.frac.getD []).length)) * (10 : ℚ) ^ exponentValue n.exponent

/-- A decimal number as it is written: there are digits before or behind the point, and in the exponent. -/
structure Numeral.WellFormed (n : Numeral) : Prop where
  blanks : ∀ c ∈ n.before ++ n.after, c = ch%' ' ∨ c = ch%'\t'
  nonempty : n.whole ++ n.frac.getD [] ≠ []
  digits : ∀ c ∈ n.whole ++ n.frac.getD [], ch%'0' ≤ c ∧ c ≤ ch%'9'
  exponent : ∀ e, n.exponent = some e → e.digits ≠ [] ∧ ∀ c ∈ e.digits, ch%'0' ≤ c ∧ c ≤ ch%'9'

/-- A number without an exponent, with up to eight decimals, below 2^24. -/
structure Numeral.Short (n : Numeral) : Prop where
  exponent : n.exponent = none
  decimals : (n.frac.getD []).length ≤ 8
  small : |n.value| < 2 ^ 24

/-- `y` is a single precision number for `q` that is as near to it as possible, up to one part in 2^52 of `q` (and 2^-1074, below the
smallest double precision number). -/
def Close (q : ℚ) (y : Flt) : Prop :=
  y.IsFloat ∧ y.IsFinite ∧ ∀ z : Flt, z.IsFloat → z.IsFinite → |y.value - q| ≤ |z.value - q| + (|q| / 2 ^ 52 + 1 / 2 ^ 1074)

/-- What may be read for a number: the nearest single precision number for a short one; nearly the nearest one for any number in the range of single precision;
an infinite one for a number beyond this range. -/
structure Numeral.ReadAs (n : Numeral) (y : Flt) : Prop where
  short : n.Short → Nearest n.value y
  close : |n.value| ≤ (2 ^ 24 - 1) * 2 ^ 104 → Close n.value y
  infinite : 2 ^ 128 ≤ |n.value| → y = .inf n.neg

/-- Numbers separated by commas. -/
def joined : List Numeral → Str
  | [] => []
  | [n] => n.text
  | n :: ns => n.text ++ b!"," ++ joined ns

/-- The text consists of commas, possibly behind a name of up to fifteen small letters and `+`, `.`, `-`, and a colon. -/
def OnlyCommas (s : Str) : Prop :=
  ∃ front commas, s = front ++ commas ∧ (∀ c ∈ commas, c = ch%',') ∧
    (front = [] ∨ ∃ name, front = name ++ b!":" ∧ name.length ≤ 15 ∧
      ∀ c ∈ name, (ch%'a' ≤ c ∧ c ≤ ch%'z') ∨ c = ch%'+' ∨ c = ch%'.' ∨ c = ch%'-')

/-- The text from one of its numbers on: from its start, or from behind one of its commas. -/
def NumberAt (s rest : Str) : Prop := s = rest ∨ ∃ front, s = front ++ b!"," ++ rest

/-- The pixels of a mask: the runs in turn, the first of them background, then background. -/
def unrolled (pixel : UInt8) : List Nat → Nat → List UInt8
  | [], size => List.replicate size 0
  | n :: runs, size => List.replicate (min n size) pixel ++ unrolled (1 - pixel) runs (size - n)

end Trax.Spec
