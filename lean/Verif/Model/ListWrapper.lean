import Verif.Model.Wrapper
import Mathlib.Data.Nat.Pairing

/-!
# The C++ classes `ObjectList` and `ImageList` with their elements (`src/traxpp.cpp` 608–781)

A list object consists of a wrapper of a C list (which holds raw pointers to its elements) and a vector of wrappers of the
elements. The elements of the vectors are variables of the memory `items`, the list objects are variables of the memory `lists`,
whose C objects are the arrays of raw pointers. For `ObjectList` the elements are regions; its vector of properties follows the same
scheme, except that there is no way to set an element of it.
Not modelled: channels that do not exist.
-/

namespace Trax.Cpp

/-- An entry of a C list: `none` is the object that the C library created together with the list (which no wrapper knows). -/
abbrev Raw := Option Ptr

/-- What differs between the list classes. -/
structure ListKind (α : Type) where
  /-- the wrapper class of the elements -/
  item : Kind
  /-- `cleanup` also clears the vector of wrappers -/
  clears : Bool
  /-- the entries of a new C list: NULL or an object -/
  blank : Option α

/-- `ImageList` (`src/traxpp.cpp` 699–781; `trax_image_list_create`, `src/trax.c` 2134–2144). -/
def ListKind.images : ListKind α := ⟨.image, false, none⟩

/-- `ObjectList` (`src/traxpp.cpp` 608–696); `special` is the region `trax_region_create_special(0)` (`trax_object_list_create`,
`src/trax.c` 2049–2066). -/
def ListKind.objects (special : α) : ListKind α := ⟨.region, true, some special⟩

/-- The state of a program with elements and lists: the members `images` and `_regions` are vectors of `size` elements. -/
structure ListMem (α : Type) where
  items : Mem α
  lists : Mem (List Raw)
  size : Nat → Nat

/-- The variable of the program with number `x`. -/
def user (x : Nat) : Nat := 2 * (x + 1)
/-- Element `i` of the vector of list `l`. -/
def elem (l i : Nat) : Nat := 2 * Nat.pair l i + 1
/-- The parameter `image` or `region` of `set`. -/
def param : Nat := 0

/-- The steps of a program on variables and lists. -/
inductive ListOp (α : Type) where
  /-- a step on the variables -/
  | var (op : Op α)
  /-- `ObjectList l;` -/
  | empty (l : Nat)
  /-- `ImageList l;` (with `n` = 3) or `ObjectList l(n);` -/
  | new (l n : Nat)
  /-- `l.set(x, channel)` with index `i` of the channel, or `l.set(i, x)` -/
  | set (l i x : Nat)
  /-- `T x = l.get(...)` -/
  | get (x l i : Nat)
  /-- a `wait` that fills `l` with a C list that was received; NULL entries are `none` -/
  | receive (l : Nat) (xs : List (Option α))
  /-- `l = std::move(k)` -/
  | swap (l k : Nat)
  /-- `T l(k)` -/
  | copy (l k : Nat)
  /-- `l = k` -/
  | assign (l k : Nat)
  /-- `T l(std::move(k))` -/
  | move (l k : Nat)
  /-- the end of the lifetime of `l` -/
  | drop (l : Nat)

/-- The step with renamed variables. -/
def Op.onVars (f : Nat → Nat) : Op α → Op α
  | .construct x => .construct (f x)
  | .create x a => .create (f x) a
  | .createList x a => .createList (f x) a
  | .copy x y => .copy (f x) (f y)
  | .move x y => .move (f x) (f y)
  | .assign x y => .assign (f x) (f y)
  | .moveAssign x y => .moveAssign (f x) (f y)
  | .wrap x a => .wrap (f x) a
  | .destroy x => .destroy (f x)

namespace ListMem

variable {α : Type}

/-- A program that has done nothing. -/
def start : ListMem α := ⟨.start, .start, fun _ => 0⟩

/-- The steps `op` on the elements `from`, `from + 1`, ... (`n` of them) of list `l`. -/
def each (k : ListKind α) (op : Nat → Op α) (l : Nat) : Nat → Nat → Mem α → Outcome (Mem α)
  | _, 0, m => .ok m
  | i, n + 1, m => (step k.item m (op (elem l i))).bind (each k op l (i + 1) n)

/-- The vector gets the size `n` (`std::vector::resize`). -/
def resize (k : ListKind α) (m : ListMem α) (l n : Nat) : Outcome (ListMem α) :=
  ((each k .destroy l n (m.size l - n) m.items).bind fun items => each k .construct l (m.size l) (n - m.size l) items).map fun items =>
    { m with items := items, size := fun j => if j = l then n else m.size j }

/-- The constructors `ImageList()` and `ObjectList(int)` (`src/traxpp.cpp` 699–702, 612–616). -/
def new (k : ListKind α) (m : ListMem α) (l n : Nat) : Outcome (ListMem α) :=
  resize k { m with lists := m.lists.constructList l (List.replicate n (Option.none : Raw)), size := fun j => if j = l then 0 else m.size j } l n

/-- The constructor `ObjectList()` (`src/traxpp.cpp` 608–610). -/
def noList (m : ListMem α) (l : Nat) : ListMem α :=
  { m with lists := m.lists.construct l, size := fun j => if j = l then 0 else m.size j }

/-- `ImageList::set` and `ObjectList::set` (`src/traxpp.cpp` 744–749, 655–660); the parameter is passed by value. -/
def set (k : ListKind α) (m : ListMem α) (l i x : Nat) : Outcome (ListMem α) :=
  (m.items.copyConstruct param (user x)).bind fun items =>
  if ¬ i < m.size l then .ub else
  (items.assign (elem l i) param).bind fun items =>
  (items.var param).bind fun arg =>
  (m.lists.var l).bind fun w =>
  (m.lists.object w.ptr).bind fun raws =>
  if ¬ i < raws.length then .ub else
  (m.lists.setObject w.ptr (raws.set i (some arg.ptr))).bind fun lists =>
  (items.destroy param).map fun items => { m with items := items, lists := lists }

/-- `ImageList::get` and `ObjectList::get` (`src/traxpp.cpp` 732–736, 651–653). -/
def get (m : ListMem α) (x l i : Nat) : Outcome (ListMem α) :=
  if ¬ i < m.size l then .ub else
  (m.items.copyConstruct (user x) (elem l i)).map fun items => { m with items := items }

/-- The loops that wrap the objects of a received C list (`src/traxpp.cpp` 778–779, 692–695); `wrap` does nothing with NULL (602, 944). -/
def wrapEach (l : Nat) : Nat → List (Option α) → Mem α → Outcome (Mem α × List Raw)
  | _, [], m => .ok (m, [])
  | i, .none :: xs, m => (wrapEach l (i + 1) xs m).map fun (m, raws) => (m, some .null :: raws)
  | i, some a :: xs, m => (m.wrapNew (elem l i) a).bind fun m' =>
      (wrapEach l (i + 1) xs m').map fun (m', raws) => (m', some (.obj m.objects.length) :: raws)

/-- `ImageList::wrap` and `ObjectList::wrap` (`src/traxpp.cpp` 771–781, 683–696) with a C list of the objects `xs`. The vector of an
`ImageList` always has three elements, its size is not changed. (The objects of the C list exist before; here each is created when it is
wrapped. The vector is resized before the list is replaced and not after it, unless it is cleared.) The vector of an `ImageList` that was moved
from, whose pointer was never set, has no elements: the loop (778–779) writes behind its end. -/
def receive (k : ListKind α) (m : ListMem α) (l : Nat) (xs : List (Option α)) : Outcome (ListMem α) :=
  (m.lists.var l).bind fun w =>
  if w.ptr = .wild ∧ k.clears = false then .ub else
  (m.lists.claims l).bind fun n =>
  (if k.clears = true ∧ n = 1 then resize k m l 0 else .ok m).bind fun m =>
  (resize k m l xs.length).bind fun m =>
  (wrapEach l 0 xs m.items).bind fun (items, raws) =>
  (m.lists.wrapNew l raws).map fun lists => { m with items := items, lists := lists }

/-- `l` and `k` are exchanged. -/
def other (l k j : Nat) : Nat := if j = l then k else if j = k then l else j

/-- The move assignments (`src/traxpp.cpp` 721–726, 639–645): the members are swapped, and with the vectors their elements. -/
def swap (m : ListMem α) (l k : Nat) : Outcome (ListMem α) :=
  (m.lists.moveAssign l k).map fun lists =>
    { items := { m.items with vars := fun v =>
        if v % 2 = 1 then m.items.vars (elem (other l k (Nat.unpair (v / 2)).1) (Nat.unpair (v / 2)).2) else m.items.vars v }
      lists := lists
      size := fun j => m.size (other l k j) }

/-- The copies of the elements `i`, `i + 1`, ... (`n` of them) of a vector. -/
def copyEach (l k : Nat) : Nat → Nat → Mem α → Outcome (Mem α)
  | _, 0, m => .ok m
  | i, n + 1, m => (m.copyConstruct (elem l i) (elem k i)).bind (copyEach l k (i + 1) n)

/-- The copy constructors (`src/traxpp.cpp` 704–707, 618–622): the C list is shared, the vector is copied. -/
def copy (m : ListMem α) (l k : Nat) : Outcome (ListMem α) :=
  (m.lists.copyConstruct l k).bind fun lists =>
  (copyEach l k 0 (m.size k) m.items).map fun items =>
    { items := items, lists := lists, size := fun j => if j = l then m.size k else m.size j }

/-- The move constructors (`src/traxpp.cpp` 709–712, 624–628; `Wrapper(Wrapper&&)`, 66–68): the members of the new object, whose pointer has no value
yet, are exchanged with those of the other one. -/
def move (m : ListMem α) (l k : Nat) : Outcome (ListMem α) :=
  ({ m with lists := m.lists.setVar l (some ⟨none, .wild⟩), size := fun j => if j = l then 0 else m.size j } : ListMem α).swap l k

/-- The assignments of the elements `i`, `i + 1`, ... (`n` of them) of a vector. -/
def assignEach (l k : Nat) : Nat → Nat → Mem α → Outcome (Mem α)
  | _, 0, m => .ok m
  | i, n + 1, m => (m.assign (elem l i) (elem k i)).bind (assignEach l k (i + 1) n)

/-- The copy assignments (`src/traxpp.cpp` 714–719, 631–637; `Wrapper::acquire(const Wrapper&)`, 74–78): the claim of `l` is given up (which clears the
vector of an `ObjectList` if it was the last one; its pointer, 672–681, keeps the value of the list that was freed), the C list of `k` is shared, and the vector is
assigned: elements that both have are assigned, others are destroyed or copied; the assignment of a vector to itself does nothing. -/
def assign (k : ListKind α) (m : ListMem α) (l j : Nat) : Outcome (ListMem α) :=
  (m.lists.var l).bind fun w =>
  (m.lists.claims l).bind fun n =>
  (if k.clears = true ∧ n = 1 then resize k m l 0 else .ok m).bind fun m =>
  (m.lists.release l).bind fun lists =>
  (if k.clears = true ∧ n = 1 then lists.setPtr l w.ptr else .ok lists).bind fun lists =>
  (lists.assign l j).bind fun lists =>
  if l = j then .ok { m with lists := lists } else
  (assignEach l j 0 (min (m.size l) (m.size j)) m.items).bind fun items =>
  (each k .destroy l (m.size j) (m.size l - m.size j) items).bind fun items =>
  (copyEach l j (m.size l) (m.size j - m.size l) items).map fun items =>
    { items := items, lists := lists, size := fun i => if i = l then m.size j else m.size i }

/-- The destructors (`src/traxpp.cpp` 728–730 and 765–769, 647–649 and 672–681), then those of the vectors. (That `cleanup` clears the
vectors of an `ObjectList` makes no difference here.) -/
def drop (k : ListKind α) (m : ListMem α) (l : Nat) : Outcome (ListMem α) :=
  (m.lists.destroy l).bind fun lists => resize k { m with lists := lists } l 0

/-- One step. -/
def step (k : ListKind α) (m : ListMem α) : ListOp α → Outcome (ListMem α)
  | .var op => (Cpp.step k.item m.items (op.onVars user)).map fun items => { m with items := items }
  | .empty l => .ok (m.noList l)
  | .new l n => m.new k l n
  | .set l i x => m.set k l i x
  | .get x l i => m.get x l i
  | .receive l xs => m.receive k l xs
  | .swap l j => m.swap l j
  | .copy l j => m.copy l j
  | .assign l j => m.assign k l j
  | .move l j => m.move l j
  | .drop l => m.drop k l

/-- A program. -/
def run (k : ListKind α) : List (ListOp α) → ListMem α → Outcome (ListMem α)
  | [], m => .ok m
  | op :: ops, m => (step k m op).bind (run k ops)

/-- Reading the object behind an entry of a C list. -/
def entry (k : ListKind α) (m : ListMem α) : Raw → Outcome (Option α)
  | .none => .ok k.blank
  | some .null => .ok none
  | some p => (m.items.object p).map some

/-- Reading all entries. -/
def entries (k : ListKind α) (m : ListMem α) : List Raw → Outcome (List (Option α))
  | [] => .ok []
  | r :: rs => (m.entry k r).bind fun a => (m.entries k rs).map (a :: ·)

/-- What the C library reads from the list when it is sent: `handle` calls with `images.list` or `objects.list` (`src/traxpp.cpp` 347–381,
503–508). NULL is read as a list without entries. -/
def handed (k : ListKind α) (m : ListMem α) (l : Nat) : Outcome (List (Option α)) :=
  (m.lists.var l).bind fun w => if w.ptr = .null then .ok [] else (m.lists.object w.ptr).bind fun raws => m.entries k raws

end ListMem

end Trax.Cpp
