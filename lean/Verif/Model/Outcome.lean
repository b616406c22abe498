/-!
# Outcomes of C functions
-/

namespace Trax

/-- How a call can end: with a value, with a failed `assert` (the asserts are taken as enabled,
i.e. the library is compiled without `NDEBUG`), or with undefined behaviour. -/
inductive Outcome (α : Type) where
  | ok (a : α)
  | abort
  | ub
  deriving DecidableEq, Repr

namespace Outcome

def bind {α β : Type} (x : Outcome α) (f : α → Outcome β) : Outcome β :=
  match x with
  | ok a => f a
  | abort => abort
  | ub => ub

def map {α β : Type} (f : α → β) (x : Outcome α) : Outcome β :=
  x.bind fun a => ok (f a)

instance : Monad Outcome where
  pure := ok
  bind := bind

@[simp] theorem bind_ok {α β : Type} (a : α) (f : α → Outcome β) : (ok a).bind f = f a := rfl
@[simp] theorem bind_abort {α β : Type} (f : α → Outcome β) : (abort : Outcome α).bind f = abort := rfl
@[simp] theorem bind_ub {α β : Type} (f : α → Outcome β) : (ub : Outcome α).bind f = ub := rfl

end Outcome

/-- The range of a C `int`. -/
def InInt32 (n : Int) : Prop := -2147483648 ≤ n ∧ n ≤ 2147483647

instance (n : Int) : Decidable (InInt32 n) := inferInstanceAs (Decidable (_ ∧ _))

/-- A multiplication of `int`s: overflow is undefined behaviour. -/
def mul32 (a b : Int) : Outcome Int := if InInt32 (a * b) then .ok (a * b) else .ub

/-- Conversion of a wider integer to `int` (modulo 2^32, as on the modelled platforms). -/
def wrap32 (n : Int) : Int := (n + 2147483648) % 4294967296 - 2147483648

end Trax
