import Verif.Model.Bytes

/-!
# Decimal numbers: `printf("%d")` and `strtol` of the C library

Written out from the C standard (trusted base, see `DESIGN.md`).
-/

namespace Trax

/-- The last `fuel` decimal digits of `n`, most significant first, without leading zeros. -/
def digitsAux : Nat → Nat → Str
  | 0, _ => []
  | fuel + 1, n =>
    if n < 10 then [UInt8.ofNat (48 + n)] else digitsAux fuel (n / 10) ++ [UInt8.ofNat (48 + n % 10)]

/-- The decimal digits of `n`. -/
def natDigits (n : Nat) : Str := digitsAux (n.log2 + 1) n

/-- `printf("%d", n)`. -/
def fmtInt (n : Int) : Str :=
  match n with
  | .ofNat m => natDigits m
  | .negSucc m => ch%'-' :: natDigits (m + 1)

/-- The value of a string of digits. -/
def digitsValue (s : Str) : Nat := s.foldl (fun acc c => acc * 10 + (c.toNat - 48)) 0

/-- `isspace` of the "C" locale. -/
def isSpace (c : UInt8) : Bool := c = 32 || (9 ≤ c.toNat && c.toNat ≤ 13)

/-- An optional sign: whether it is negative, and what follows it. -/
def splitSign (s : Str) : Bool × Str :=
  match s with
  | c :: t => if c = ch%'-' then (true, t) else if c = ch%'+' then (false, t) else (false, s)
  | [] => (false, [])

/-- `strtol(s, &end, 10)` with a 64-bit `long`: the value (clipped to its range) and the text at
`end`. Without any digit the value is 0 and `end` is `s`. -/
def strtol (s : Str) : Int × Str :=
  let (neg, t) := splitSign (s.dropWhile isSpace)
  let ds := t.takeWhile isDigit
  if ds = [] then (0, s)
  else
    let v : Int := digitsValue ds
    (if neg then max (-v) (-9223372036854775808) else min v 9223372036854775807, t.dropWhile isDigit)

end Trax
