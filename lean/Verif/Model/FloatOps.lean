import Verif.Model.Float

/-!
# Floating point arithmetic

The operations of IEEE-754 with round-to-nearest-even, evaluated in the type of their operands
(`FLT_EVAL_METHOD == 0`, as on x86-64 and ARM64): the exact rational result is rounded once. The names
ending in `F` are those of `float`, those ending in `D` of `double`. The sign of a NaN is not modelled.
-/

namespace Trax

/-- The checked result of an `int` operation: overflow is undefined behaviour. -/
def chk32 (n : Int) : Outcome Int := if InInt32 n then .ok n else .ub

namespace Flt

/-- `±m` as an integer. -/
def signed (neg : Bool) (m : Nat) : Int := if neg then -(m : Int) else m

/-- The unary minus. -/
def neg : Flt → Flt
  | .nan => .nan
  | .inf s => .inf (!s)
  | .fin s m => .fin (!s) m

/-- The comparison `<` (of two numbers of the same format). -/
def lt : Flt → Flt → Bool
  | .nan, _ => false
  | _, .nan => false
  | .inf s, .inf t => s && !t
  | .inf s, .fin _ _ => s
  | .fin _ _, .inf t => !t
  | .fin s m, .fin t n => decide (signed s m < signed t n)

/-- The comparison `==`. -/
def feq : Flt → Flt → Bool
  | .nan, _ => false
  | _, .nan => false
  | .inf s, .inf t => s == t
  | .inf _, .fin _ _ => false
  | .fin _ _, .inf _ => false
  | .fin s m, .fin t n => decide (signed s m = signed t n)

/-- The comparison `<=`. -/
def le (a b : Flt) : Bool := a.lt b || a.feq b

/-- The macro `MIN` (`src/region.h` 34). -/
def minF (a b : Flt) : Flt := if a.lt b then a else b

/-- The macro `MAX` (`src/region.h` 30). -/
def maxF (a b : Flt) : Flt := if b.lt a then a else b

/-- Addition; `mk` rounds to the format. An exact zero is positive unless both operands are negative. -/
def addWith (mk : Bool → Nat → Nat → Flt) : Flt → Flt → Flt
  | .nan, _ => .nan
  | _, .nan => .nan
  | .inf s, .inf t => if s = t then .inf s else .nan
  | .inf s, .fin _ _ => .inf s
  | .fin _ _, .inf t => .inf t
  | .fin s m, .fin t n =>
    let v := signed s m + signed t n
    if v = 0 then .fin (s && t) 0 else mk (decide (v < 0)) v.natAbs 1

/-- Multiplication; `unit` is the number of units of the format in 1. -/
def mulWith (mk : Bool → Nat → Nat → Flt) (unit : Nat) : Flt → Flt → Flt
  | .nan, _ => .nan
  | _, .nan => .nan
  | .inf s, .inf t => .inf (s != t)
  | .inf s, .fin t n => if n = 0 then .nan else .inf (s != t)
  | .fin s m, .inf t => if m = 0 then .nan else .inf (s != t)
  | .fin s m, .fin t n => mk (s != t) (m * n) unit

/-- Division. -/
def divWith (mk : Bool → Nat → Nat → Flt) (unit : Nat) : Flt → Flt → Flt
  | .nan, _ => .nan
  | _, .nan => .nan
  | .inf _, .inf _ => .nan
  | .inf s, .fin t _ => .inf (s != t)
  | .fin s _, .inf t => .fin (s != t) 0
  | .fin s m, .fin t n =>
    if n = 0 then (if m = 0 then .nan else .inf (s != t)) else mk (s != t) (m * unit) n

/-- `a + b` in `float`. -/
def addF (a b : Flt) : Flt := addWith mkFloat a b
/-- `a - b` in `float`. -/
def subF (a b : Flt) : Flt := addF a b.neg
/-- `a * b` in `float`. -/
def mulF (a b : Flt) : Flt := mulWith mkFloat (2 ^ 149) a b
/-- `a / b` in `float`. -/
def divF (a b : Flt) : Flt := divWith mkFloat (2 ^ 149) a b
/-- `a + b` in `double`. -/
def addD (a b : Flt) : Flt := addWith mkDouble a b
/-- `a * b` in `double`. -/
def mulD (a b : Flt) : Flt := mulWith mkDouble (2 ^ 1074) a b
/-- `a / b` in `double`. -/
def divD (a b : Flt) : Flt := divWith mkDouble (2 ^ 1074) a b

/-- The conversion of a `float` to `double`, which is exact. -/
def widen : Flt → Flt
  | .nan => .nan
  | .inf s => .inf s
  | .fin s m => .fin s (m * 2 ^ 925)

/-- `floor` of a `float`. -/
def floorF : Flt → Flt
  | .fin s m => .fin s ((if s then (m + (2 ^ 149 - 1)) / 2 ^ 149 else m / 2 ^ 149) * 2 ^ 149)
  | x => x

/-- `ceil` of a `float`. -/
def ceilF : Flt → Flt
  | .fin s m => .fin s ((if s then m / 2 ^ 149 else (m + (2 ^ 149 - 1)) / 2 ^ 149) * 2 ^ 149)
  | x => x

/-- `round` of a `float`: to the nearest integer, halves away from zero. -/
def roundF : Flt → Flt
  | .fin s m => .fin s ((m + 2 ^ 148) / 2 ^ 149 * 2 ^ 149)
  | x => x

/-- The literal 0 as `float`. -/
def zero : Flt := .fin false 0

/-- The literal 1 as `float`. -/
def one : Flt := .fin false (2 ^ 149)

/-- `FLT_MAX`. -/
def fltMax : Flt := .fin false ((2 ^ 24 - 1) * 2 ^ 253)

/-- `FLT_MIN`, the smallest positive normalised number 2^-126. -/
def fltMin : Flt := .fin false (2 ^ 23)

end Flt

end Trax
