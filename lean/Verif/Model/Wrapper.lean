import Verif.Model.Outcome

/-!
# The reference counted C++ wrappers (`src/traxpp.cpp` 57–109 and the wrapper classes)

`Region`, `Image`, `Properties`, `Metadata` share the same scheme: a pointer `pn` to a shared counter
(class `Wrapper`) and a pointer to the C object. The model keeps the C++ objects as numbered variables, the
counters and the C objects on two heaps whose blocks are never reused, so that every use of a released
block is noticed and is undefined behaviour. Counters do not overflow and allocation succeeds.
Returning a new wrapper by value (`create_rectangle` and the like) is taken to construct it in place.
-/

namespace Trax.Cpp

/-- A raw pointer to a C object: NULL, a block, or an indeterminate value. -/
inductive Ptr where
  | null
  | obj (n : Nat)
  | wild
deriving DecidableEq, Repr

/-- A wrapper object: the member `pn` (`include/trax.h` 723) and the member with the C object. -/
structure Wrapper where
  pn : Option Nat
  ptr : Ptr
deriving DecidableEq, Repr

/-- What differs between the wrapper classes. -/
structure Kind where
  /-- the move constructor copies the pointer (`Metadata`, `Image`) instead of swapping it with the
  member that is not initialised yet (`Region`, `Properties`) -/
  moveKeeps : Bool
deriving DecidableEq, Repr

/-- `Region` (`src/traxpp.cpp` 784–806). -/
def Kind.region : Kind := ⟨false⟩
/-- `Properties` (`src/traxpp.cpp` 1030–1046). `include/trax.h` (1382) declares a move assignment for it, which is
defined nowhere: a program with `x = std::move(y)` does not link, so the step `moveAssign` is no step of such a program. -/
def Kind.properties : Kind := ⟨false⟩
/-- `Image` (`src/traxpp.cpp` 512–534). -/
def Kind.image : Kind := ⟨true⟩
/-- `ObjectList` and `ImageList` (`src/traxpp.cpp` 618–645, 704–726). -/
def Kind.list : Kind := ⟨false⟩
/-- `Metadata` (`src/traxpp.cpp` 115–121, 194–204). -/
def Kind.metadata : Kind := ⟨true⟩

/-- The state of a program: its variables (`none`: not constructed or already destroyed), the counters
(`none`: deleted), the C objects (`none`: released) and the releases so far, the latest first. -/
structure Mem (α : Type) where
  vars : Nat → Option Wrapper
  counters : List (Option Int)
  objects : List (Option α)
  released : List Nat

namespace Mem

variable {α : Type}

/-- A program that has done nothing. -/
def start : Mem α := ⟨fun _ => none, [], [], []⟩

/-- The variable `x` gets a new value. -/
def setVar (m : Mem α) (x : Nat) (w : Option Wrapper) : Mem α :=
  { m with vars := fun y => if y = x then w else m.vars y }

/-- Access to a C++ object in its lifetime. -/
def var (m : Mem α) (x : Nat) : Outcome Wrapper :=
  match m.vars x with
  | some w => .ok w
  | none => .ub

/-- Reading a counter. -/
def counter (m : Mem α) (c : Nat) : Outcome Int :=
  match m.counters[c]? with
  | some (some n) => .ok n
  | _ => .ub

/-- Reading a C object through a pointer. -/
def object (m : Mem α) : Ptr → Outcome α
  | .obj n => match m.objects[n]? with
    | some (some a) => .ok a
    | _ => .ub
  | _ => .ub

/-- A new C object. -/
def newObject (m : Mem α) (a : α) : Nat × Mem α := (m.objects.length, { m with objects := m.objects ++ [some a] })

/-- Changing a C object in place. -/
def setObject (m : Mem α) (p : Ptr) (a : α) : Outcome (Mem α) :=
  match p with
  | .obj n => (m.object p).map fun _ => { m with objects := m.objects.set n (some a) }
  | _ => .ub

/-- `Wrapper::claims` (`src/traxpp.cpp` 84–91). -/
def claims (m : Mem α) (x : Nat) : Outcome Int :=
  (m.var x).bind fun w => match w.pn with
    | none => .ok 0
    | some c => m.counter c

/-- `Wrapper::acquire()` (`src/traxpp.cpp` 93–98). -/
def acquire (m : Mem α) (x : Nat) : Outcome (Mem α) :=
  (m.var x).bind fun w => match w.pn with
    | none => .ok { m.setVar x (some { w with pn := some m.counters.length }) with counters := m.counters ++ [some 1] }
    | some c => (m.counter c).map fun n => { m with counters := m.counters.set c (some (n + 1)) }

/-- `Region::cleanup`, `Image::cleanup`, `Properties::cleanup` (`src/traxpp.cpp` 931–934, 596–599, 1120–1123);
`Metadata::cleanup` (181–185) leaves the test for NULL to `trax_metadata_release` (`src/trax.c` 735–749). -/
def cleanup (m : Mem α) (x : Nat) : Outcome (Mem α) :=
  (m.var x).bind fun w => match w.ptr with
    | .null => .ok m
    | .obj n => (m.object w.ptr).map fun _ =>
        { m.setVar x (some { w with ptr := .null }) with objects := m.objects.set n none, released := n :: m.released }
    | .wild => .ub

/-- The member `pn` becomes NULL. -/
def dropCounter (m : Mem α) (x : Nat) : Outcome (Mem α) :=
  (m.var x).map fun w => m.setVar x (some { w with pn := none })

/-- `Wrapper::release()` (`src/traxpp.cpp` 100–109). -/
def release (m : Mem α) (x : Nat) : Outcome (Mem α) :=
  (m.var x).bind fun w => match w.pn with
    | none => .ok m
    | some c => (m.counter c).bind fun n =>
        let m : Mem α := { m with counters := m.counters.set c (some (n - 1)) }
        if n - 1 = 0 then
          (m.cleanup x).bind fun m => ({ m with counters := m.counters.set c none } : Mem α).dropCounter x
        else m.dropCounter x

/-- Sets the member with the C object. -/
def setPtr (m : Mem α) (x : Nat) (p : Ptr) : Outcome (Mem α) :=
  (m.var x).map fun w => m.setVar x (some { w with ptr := p })

/-- `wrap` of a new C object (`src/traxpp.cpp` 187–192, 601–606, 943–948, 1125–1130). -/
def wrapNew (m : Mem α) (x : Nat) (a : α) : Outcome (Mem α) :=
  let (n, m) := m.newObject a
  (m.release x).bind fun m => (m.acquire x).bind fun m => m.setPtr x (.obj n)

/-- The default constructors (`src/traxpp.cpp` 512–514, 784–786, 1030–1032). -/
def construct (m : Mem α) (x : Nat) : Mem α := m.setVar x (some ⟨none, .null⟩)

/-- The constructors `ObjectList(int)` and `ImageList()` (`src/traxpp.cpp` 612–616, 699–702): a new C list is
created, but nothing is acquired. (The vectors with the wrappers of the elements are in `Verif/Model/ListWrapper.lean`.) -/
def constructList (m : Mem α) (x : Nat) (a : α) : Mem α :=
  let (n, m) := m.newObject a
  m.setVar x (some ⟨none, .obj n⟩)

/-- The copy constructors (`src/traxpp.cpp` 61–63 and 119–121, 516–518, 788–790, 1034–1036). -/
def copyConstruct (m : Mem α) (x y : Nat) : Outcome (Mem α) :=
  (m.var y).bind fun o => ((m.setVar x (some ⟨o.pn, .wild⟩)).acquire x).bind fun m => m.setPtr x o.ptr

/-- The move constructors (`src/traxpp.cpp` 66–68 and 115–117, 520–522, 792–794, 1038–1040). -/
def moveConstruct (k : Kind) (m : Mem α) (x y : Nat) : Outcome (Mem α) :=
  (m.var y).map fun o =>
    (m.setVar y (some ⟨none, if k.moveKeeps then o.ptr else .wild⟩)).setVar x (some o)

/-- The copy assignments (`src/traxpp.cpp` 74–78 and 194–198, 524–528, 796–800, 1042–1046). The two objects
can be the same. -/
def assign (m : Mem α) (x y : Nat) : Outcome (Mem α) :=
  (m.release x).bind fun m => (m.var y).bind fun o => (m.var x).bind fun w =>
    ((m.setVar x (some { w with pn := o.pn })).acquire x).bind fun m => (m.var y).bind fun o => m.setPtr x o.ptr

/-- The move assignments (`src/traxpp.cpp` 80–82 and 200–204, 530–534, 802–806): a swap. -/
def moveAssign (m : Mem α) (x y : Nat) : Outcome (Mem α) :=
  (m.var x).bind fun w => (m.var y).map fun o => (m.setVar x (some o)).setVar y (some w)

/-- The destructors (`src/traxpp.cpp` 142–144, 560–562, 840–842, 1048–1050). -/
def destroy (m : Mem α) (x : Nat) : Outcome (Mem α) :=
  (m.release x).map fun m => m.setVar x none

end Mem

/-- The steps of a program on wrapper objects, where `x` and `y` are variables. -/
inductive Op (α : Type) where
  /-- `T x;` -/
  | construct (x : Nat)
  /-- `T x = T::create(...)`: a wrapper of a new C object -/
  | create (x : Nat) (a : α)
  /-- `ImageList x;` or `ObjectList x(n);` -/
  | createList (x : Nat) (a : α)
  /-- `T x(y);` -/
  | copy (x y : Nat)
  /-- `T x(std::move(y));` -/
  | move (x y : Nat)
  /-- `x = y;` -/
  | assign (x y : Nat)
  /-- `x = std::move(y);` -/
  | moveAssign (x y : Nat)
  /-- `x` is made to wrap a new C object -/
  | wrap (x : Nat) (a : α)
  /-- the end of the lifetime of `x` -/
  | destroy (x : Nat)
deriving DecidableEq, Repr

/-- One step. -/
def step (k : Kind) (m : Mem α) : Op α → Outcome (Mem α)
  | .construct x => .ok (m.construct x)
  | .create x a => (m.construct x).wrapNew x a
  | .createList x a => .ok (m.constructList x a)
  | .copy x y => m.copyConstruct x y
  | .move x y => m.moveConstruct k x y
  | .assign x y => m.assign x y
  | .moveAssign x y => m.moveAssign x y
  | .wrap x a => m.wrapNew x a
  | .destroy x => m.destroy x

/-- A program. -/
def run (k : Kind) : List (Op α) → Mem α → Outcome (Mem α)
  | [], m => .ok m
  | op :: ops, m => (step k m op).bind (run k ops)

end Trax.Cpp
