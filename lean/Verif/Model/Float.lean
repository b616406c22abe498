import Verif.Model.Decimal
import Verif.Model.Outcome

/-!
# Single and double precision numbers, `strtod`, `printf("%.4f")`

IEEE-754 binary32 and binary64 with round-to-nearest-even, written over natural numbers: a
finite binary32 number is a sign and a multiple of 2^-149, a finite binary64 number is a sign
and a multiple of 2^-1074. The text conversions are those of a correctly rounding C library in
the "C" locale (trusted base, see `DESIGN.md`).
-/

namespace Trax

/-- `n / d` rounded to the nearest integer, ties to even. -/
def rhe (n d : Nat) : Nat :=
  let q := n / d
  let r := n % d
  if 2 * r < d then q else if d < 2 * r then q + 1 else if q % 2 = 0 then q else q + 1

/-- `n / d` rounded to the nearest number with at most `p` significant bits (and no fraction
below 1, the unit of the format), ties to even. -/
def fround (p n d : Nat) : Nat :=
  let k := (n / d).log2 + 1 - p
  rhe n (d * 2 ^ k) * 2 ^ k

/-- A floating point number: `fin neg mag` is `±mag` units of the format. -/
inductive Flt where
  | nan
  | inf (neg : Bool)
  | fin (neg : Bool) (mag : Nat)
  deriving DecidableEq, Repr

/-- The magnitudes of binary32 numbers. -/
def Rep32 (mag : Nat) : Prop := 2 ^ (mag.log2 + 1 - 24) ∣ mag ∧ mag < 2 ^ 277

instance (mag : Nat) : Decidable (Rep32 mag) := inferInstanceAs (Decidable (_ ∧ _))

/-- A binary32 number (unit 2^-149). -/
def Flt.IsFloat : Flt → Prop
  | .fin _ mag => Rep32 mag
  | _ => True

instance (x : Flt) : Decidable x.IsFloat := by cases x <;> unfold Flt.IsFloat <;> infer_instance

/-- The result of a rational operation rounded to binary64: `n / d` times 2^-1074. -/
def mkDouble (neg : Bool) (n d : Nat) : Flt :=
  let m := fround 53 n d
  if 2 ^ 2098 ≤ m then .inf neg else .fin neg m

/-- The result of a rational operation rounded to binary32: `n / d` times 2^-149. -/
def mkFloat (neg : Bool) (n d : Nat) : Flt :=
  let m := fround 24 n d
  if 2 ^ 277 ≤ m then .inf neg else .fin neg m

/-- The conversion `(float)` of a binary64 number. -/
def Flt.toFloat : Flt → Flt
  | .nan => .nan
  | .inf neg => .inf neg
  | .fin neg m => mkFloat neg m (2 ^ 925)

/-- A number as read by `strtod` before it is rounded: `num / den`, without the sign. -/
inductive Num where
  | nan
  | inf
  | fin (num den : Nat)
  deriving DecidableEq, Repr

/-- The value of a hexadecimal digit. -/
def hexDigit (c : UInt8) : Option Nat :=
  if isDigit c then some (c.toNat - 48)
  else if 97 ≤ (toLower c).toNat ∧ (toLower c).toNat ≤ 102 then some ((toLower c).toNat - 87) else none

/-- A run of digits, an optional point and digits behind it: the digits before and after the point
and the text behind. -/
def splitMantissa (isD : UInt8 → Bool) (s : Str) : Str × Str × Str :=
  let ip := s.takeWhile isD
  let t := s.dropWhile isD
  match t with
  | c :: t' => if c = ch%'.' then (ip, t'.takeWhile isD, t'.dropWhile isD) else (ip, [], t)
  | [] => (ip, [], [])

/-- An optional exponent `e[+-]digits` (`p` for hexadecimal numbers): its value and the text behind. -/
def splitExponent (mark : UInt8) (s : Str) : Int × Str :=
  match s with
  | c :: t =>
    if toLower c = mark then
      let (neg, u) := splitSign t
      let ds := u.takeWhile isDigit
      if ds = [] then (0, s) else (if neg then -(digitsValue ds : Int) else digitsValue ds, u.dropWhile isDigit)
    else (0, s)
  | [] => (0, [])

/-- `m * base^e` as a fraction. -/
def scaled (m base : Nat) (e : Int) : Num :=
  match e with
  | .ofNat k => .fin (m * base ^ k) 1
  | .negSucc k => .fin m (base ^ (k + 1))

/-- The text in parentheses that may follow "nan". -/
def skipNanChars (s : Str) : Str :=
  match s with
  | c :: t =>
    if c = ch%'(' then
      let u := t.dropWhile fun c => isAlnum c || c = ch%'_'
      if u.head? = some ch%')' then u.tail else s
    else s
  | [] => []

/-- `strtod(s, &end)` before rounding: the sign, the number, and the text at `end`; `none` if there
is no number at all. -/
def strtodNum (s : Str) : Option (Bool × Num × Str) :=
  let (neg, t) := splitSign (s.dropWhile isSpace)
  if eqNoCase (t.take 3) b!"inf" then
    some (neg, .inf, if eqNoCase (t.take 8) b!"infinity" then t.drop 8 else t.drop 3)
  else if eqNoCase (t.take 3) b!"nan" then some (neg, .nan, skipNanChars (t.drop 3))
  else
    let isX := fun c => (hexDigit c).isSome
    let (hi, hf, hrest) := splitMantissa isX (t.drop 2)
    if eqNoCase (t.take 2) b!"0x" ∧ hi ++ hf ≠ [] then
      let m := (hi ++ hf).foldl (fun acc c => acc * 16 + (hexDigit c).getD 0) 0
      let (e, rest) := splitExponent ch%'p' hrest
      some (neg, scaled m 2 (e - 4 * hf.length), rest)
    else
      let (ip, fp, mrest) := splitMantissa isDigit t
      if ip ++ fp = [] then none
      else
        let (e, rest) := splitExponent ch%'e' mrest
        some (neg, scaled (digitsValue (ip ++ fp)) 10 (e - fp.length), rest)

/-- Rounding of what was read to binary64. -/
def Num.toDouble (neg : Bool) : Num → Flt
  | .nan => .nan
  | .inf => .inf neg
  | .fin n d => mkDouble neg (n * 2 ^ 1074) d

/-- `strtod(s, &end)`: the value (0 if there is no number) and the text at `end`, `none` for `end == s`. -/
def strtod (s : Str) : Flt × Option Str :=
  match strtodNum s with
  | none => (.fin false 0, none)
  | some (neg, x, rest) => (x.toDouble neg, some rest)

/-- `(float) atof(s)`. -/
def atofFloat (s : Str) : Flt := (strtod s).1.toFloat

/-- The digits behind the point, filled up with zeros. -/
def padDigits (width n : Nat) : Str :=
  let ds := natDigits n
  List.replicate (width - ds.length) ch%'0' ++ ds

/-- `printf("%.<prec>f", x)` of a binary32 number (converted to `double` without change). -/
def fmtFloat (prec : Nat) : Flt → Str
  | .nan => b!"nan"
  | .inf neg => if neg then b!"-inf" else b!"inf"
  | .fin neg m =>
    let n := rhe (m * 10 ^ prec) (2 ^ 149)
    (if neg then b!"-" else []) ++ natDigits (n / 10 ^ prec) ++ b!"." ++ padDigits prec (n % 10 ^ prec)

/-- The conversion `(int)` of a binary32 number: towards zero; out of range it is undefined. -/
def Flt.toInt : Flt → Outcome Int
  | .fin neg m =>
    let v : Int := if neg then -((m / 2 ^ 149 : Nat) : Int) else ((m / 2 ^ 149 : Nat) : Int)
    if InInt32 v then .ok v else .ub
  | _ => .ub

/-- The conversion `(int)` of a binary64 number. -/
def Flt.doubleToInt : Flt → Outcome Int
  | .fin neg m =>
    let v : Int := if neg then -((m / 2 ^ 1074 : Nat) : Int) else ((m / 2 ^ 1074 : Nat) : Int)
    if InInt32 v then .ok v else .ub
  | _ => .ub

/-- The conversion of an `int` to `float`. -/
def Flt.ofInt (n : Int) : Flt := mkFloat (decide (n < 0)) (n.natAbs * 2 ^ 149) 1

end Trax
