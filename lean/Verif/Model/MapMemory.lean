import Verif.Model.StrMap
import Verif.Model.Outcome

/-!
# Model of the memory of property objects (`src/strmap.c` 44–331, `src/trax.c` 110–112, 220–241, 520–528, 1909–2046)

The functions of `Verif/Model/StrMap.lean` and `Verif/Model/Properties.lean` once more, now on a heap of blocks with sizes: what is
written must fit, what is read must have been written, and every block is released once.

Simplifications:
* `malloc` and `realloc` succeed; `realloc` always gives a new block and releases the old one (it is free to do so);
* blocks are never used again, and are typed: texts, arrays of pairs, arrays of buckets, maps, property objects;
* a text that is handed over by the program is a C string outside of the heap of the library (`Arg.given`) or a block of it (`Arg.held`);
* pointers inside of pairs are never NULL.
-/

namespace Trax
namespace MapMem

/-- A pointer to a block. -/
abbrev Ptr := Nat

/-- What a block contains: a C string in a number of bytes, `struct Pair`s, `struct Bucket`s, a `struct StrMap`, a `struct trax_properties`
(`src/strmap.c` 44–57, `src/trax.c` 110–112). What has not been written is `none`. -/
inductive Block where
  | text (size : Nat) (content : Option Str)
  | pairs (slots : List (Option (Ptr × Ptr)))
  | buckets (list : List (Nat × Option Ptr))
  | map (count : Nat) (buckets : Ptr)
  | object (map : Ptr)
deriving DecidableEq, Repr

/-- The blocks that are there, and the number of the next one. -/
structure Heap where
  next : Ptr
  blocks : Ptr → Option Block

namespace Heap

/-- A heap without blocks. -/
def empty : Heap := ⟨0, fun _ => .none⟩

/-- A pointer with something else in its block, or none. -/
def put (h : Heap) (p : Ptr) (b : Option Block) : Heap := { h with blocks := fun q => if q = p then b else h.blocks q }

/-- `malloc`: the pointer is `h.next`. -/
def alloc (h : Heap) (b : Block) : Heap := { (h.put h.next (some b)) with next := h.next + 1 }

/-- `free` of a pointer that is not NULL. -/
def free (h : Heap) (p : Ptr) : Outcome Heap :=
  match h.blocks p with
  | .none => .ub
  | some _ => .ok (h.put p .none)

/-- `free`. -/
def freeIf (h : Heap) : Option Ptr → Outcome Heap
  | .none => .ok h
  | some p => h.free p

/-- Reading a C string. -/
def text (h : Heap) (p : Ptr) : Outcome Str :=
  match h.blocks p with
  | some (.text _ (some s)) => .ok s
  | _ => .ub

/-- Reading an array of pairs. -/
def pairs (h : Heap) (p : Ptr) : Outcome (List (Option (Ptr × Ptr))) :=
  match h.blocks p with
  | some (.pairs l) => .ok l
  | _ => .ub

/-- Reading an array of buckets. -/
def buckets (h : Heap) (p : Ptr) : Outcome (List (Nat × Option Ptr)) :=
  match h.blocks p with
  | some (.buckets l) => .ok l
  | _ => .ub

/-- Reading a map. -/
def map (h : Heap) (p : Ptr) : Outcome (Nat × Ptr) :=
  match h.blocks p with
  | some (.map n b) => .ok (n, b)
  | _ => .ub

/-- Reading a property object; NULL is not checked. -/
def object (h : Heap) : Option Ptr → Outcome Ptr
  | .none => .ub
  | some p =>
    match h.blocks p with
    | some (.object m) => .ok m
    | _ => .ub

end Heap

/-- A text that is handed to a function: one of the program, or one in a block. -/
inductive Arg where
  | given (s : Str)
  | held (p : Ptr)
deriving DecidableEq, Repr

/-- Reading such a text. -/
def Arg.read (h : Heap) : Arg → Outcome Str
  | .given s => .ok (cstr s)
  | .held p => h.text p

/-- `strcpy`: the text must fit, and the two must not overlap. -/
def strcpy (h : Heap) (dest : Ptr) (src : Arg) : Outcome Heap :=
  (src.read h).bind fun s =>
    match h.blocks dest with
    | some (.text size _) => if src = .held dest ∨ size < s.length + 1 then .ub else .ok (h.put dest (some (.text size (some s))))
    | _ => .ub

/-- `realloc` of a text. A text that does not fit any more has no end. -/
def reallocText (h : Heap) (p : Ptr) (size : Nat) : Outcome (Ptr × Heap) :=
  (h.text p).bind fun s =>
    if size < s.length + 1 then .ub else ((h.alloc (.text size (some s))).free p).map fun h' => (h.next, h')

/-- `realloc` of an array of pairs. -/
def reallocPairs (h : Heap) (p : Ptr) (n : Nat) : Outcome (Ptr × Heap) :=
  (h.pairs p).bind fun l =>
    ((h.alloc (.pairs ((l ++ List.replicate n Option.none).take n))).free p).map fun h' => (h.next, h')

/-- `strlen` in an `unsigned int` (`src/strmap.c` 176–177). -/
def len32 (s : Str) : Nat := s.length % 4294967296

/-- `(len + 1) * sizeof(char)`, where the sum is an `unsigned int` (`src/strmap.c` 193, 205, 209). -/
def room (s : Str) : Nat := (len32 s + 1) % 4294967296

/-- The loop of `get_pair` (`src/strmap.c` 319–329): pairs `i` to `i + left - 1`. -/
def findPair (h : Heap) (slots : List (Option (Ptr × Ptr))) (key : Str) : Nat → Nat → Outcome (Option Nat)
  | 0, _ => .ok .none
  | left + 1, i =>
    match slots[i]? with
    | some (some (k, _)) => (h.text k).bind fun s => if s = key then .ok (some i) else findPair h slots key left (i + 1)
    | _ => .ub

/-- `get_pair` (`src/strmap.c` 307–331): the number of the pair in its array. -/
def getPair (h : Heap) (bucket : Nat × Option Ptr) (key : Str) : Outcome (Option Nat) :=
  if bucket.1 = 0 then .ok .none
  else
    match bucket.2 with
    | .none => .ub
    | some a => (h.pairs a).bind fun slots => findPair h slots key bucket.1 0

/-- The bucket of a key (`src/strmap.c` 122–123, 153–154, 179–180): its number, the array and what is in it. -/
def bucketOf (h : Heap) (map : Ptr) (key : Str) : Outcome (Nat × Ptr × List (Nat × Option Ptr) × (Nat × Option Ptr)) :=
  (h.map map).bind fun m =>
    if m.1 = 0 then .ub
    else
      let index := (strHash key).toNat % m.1
      (h.buckets m.2).bind fun l =>
        match l[index]? with
        | .none => .ub
        | some b => .ok (index, m.2, l, b)

/-- `sm_new` (`src/strmap.c` 62–78). -/
def smNew (h : Heap) (capacity : Nat) : Ptr × Heap :=
  let map := h.next
  let h := h.alloc (.map capacity (map + 1))
  (map, h.alloc (.buckets (List.replicate capacity (0, .none))))

/-- The value of a pair is replaced (`src/strmap.c` 184–201). -/
def replaceValue (h : Heap) (array : Ptr) (i : Nat) (value : Arg) (v : Str) : Outcome Heap :=
  (h.pairs array).bind fun slots =>
    match slots[i]? with
    | some (some (k, old)) =>
      (h.text old).bind fun s =>
        if s.length < len32 v then
          (reallocText h old (room v)).bind fun r =>
            strcpy (r.2.put array (some (.pairs (slots.set i (some (k, r.1)))))) r.1 value
        else strcpy h old value
    | _ => .ub

/-- The array of a bucket gets one more place (`src/strmap.c` 214–238): the array, the number of places. -/
def growArray (h : Heap) (bucket : Nat × Option Ptr) : Outcome (Ptr × Nat × Heap) :=
  if bucket.1 = 0 then .ok (h.next, 1, h.alloc (.pairs [.none]))
  else
    match bucket.2 with
    | .none => .ub
    | some a => (reallocPairs h a (bucket.1 + 1)).map fun r => (r.1, bucket.1 + 1, r.2)

/-- A pair is added to a bucket (`src/strmap.c` 204–245). -/
def addPair (h : Heap) (index : Nat) (bs : Ptr) (list : List (Nat × Option Ptr)) (bucket : Nat × Option Ptr) (key value : Arg) (k v : Str) : Outcome Heap :=
  let newKey := h.next
  let h := h.alloc (.text (room k) .none)
  let newValue := h.next
  let h := h.alloc (.text (room v) .none)
  (growArray h bucket).bind fun (array, count, h) =>
    let h := h.put bs (some (.buckets (list.set index (count, some array))))
    (h.pairs array).bind fun slots =>
      if slots.length ≤ count - 1 then .ub
      else
        let h := h.put array (some (.pairs (slots.set (count - 1) (some (newKey, newValue)))))
        (strcpy h newKey key).bind fun h => strcpy h newValue value

/-- `sm_put` (`src/strmap.c` 162–246), for a map, a key and a value that are not NULL. -/
def smPut (h : Heap) (map : Ptr) (key value : Arg) : Outcome Heap :=
  (key.read h).bind fun k =>
    (value.read h).bind fun v =>
      (bucketOf h map k).bind fun (index, bs, list, bucket) =>
        (getPair h bucket k).bind fun
          | some i =>
            match bucket.2 with
            | .none => .ub
            | some array => replaceValue h array i value v
          | .none => addPair h index bs list bucket key value k v

/-- The value of the pair that `sm_get` and `sm_exists` look for (`src/strmap.c` 122–127, 153–158): the pointer to it. -/
def smFind (h : Heap) (map : Ptr) (key : Arg) : Outcome (Option Ptr) :=
  (key.read h).bind fun k =>
    (bucketOf h map k).bind fun (_, _, _, bucket) =>
      (getPair h bucket k).bind fun
        | .none => .ok .none
        | some i =>
          match bucket.2 with
          | .none => .ub
          | some array =>
            (h.pairs array).bind fun slots =>
              match slots[i]? with
              | some (some (_, v)) => .ok (some v)
              | _ => .ub

/-- `sm_get(map, key, NULL, 0)` (`src/strmap.c` 110–130): 0, or `(int)strlen(value) + 1`. -/
def smSize (h : Heap) (map : Ptr) (key : Arg) : Outcome Int :=
  (smFind h map key).bind fun
    | .none => .ok 0
    | some v => (h.text v).bind fun s => if InInt32 (wrap32 s.length + 1) then .ok (wrap32 s.length + 1) else .ub

/-- `sm_get(map, key, out, n)` (`src/strmap.c` 110–139). -/
def smCopy (h : Heap) (map : Ptr) (key : Arg) (out : Ptr) (n : Nat) : Outcome (Bool × Heap) :=
  (smFind h map key).bind fun
    | .none => .ok (false, h)
    | some v => (h.text v).bind fun s => if n ≤ s.length then .ok (false, h) else (strcpy h out (.held v)).map fun h => (true, h)

/-- The pairs of a bucket are released (`src/strmap.c` 95–102). -/
def deletePairs (array : Ptr) : Nat → Nat → Heap → Outcome Heap
  | 0, _, h => .ok h
  | left + 1, j, h =>
    (h.pairs array).bind fun slots =>
      match slots[j]? with
      | some (some (k, v)) => (h.free k).bind fun h => (h.free v).bind fun h => deletePairs array left (j + 1) h
      | _ => .ub

/-- The pairs of a bucket that may be empty are released (`src/strmap.c` 92–102). -/
def deleteBucket (count : Nat) (array : Option Ptr) (h : Heap) : Outcome Heap :=
  if count = 0 then .ok h
  else
    match array with
    | .none => .ub
    | some a => deletePairs a count 0 h

/-- The buckets are released (`src/strmap.c` 91–106). -/
def deleteBuckets (bs : Ptr) : Nat → Nat → Heap → Outcome Heap
  | 0, _, h => .ok h
  | left + 1, i, h =>
    (h.buckets bs).bind fun list =>
      match list[i]? with
      | .none => .ub
      | some (count, array) =>
        (deleteBucket count array h).bind fun h => (h.freeIf array).bind fun h => deleteBuckets bs left (i + 1) h

/-- `sm_delete` (`src/strmap.c` 80–108), for a map that is not NULL. -/
def smDelete (h : Heap) (map : Ptr) : Outcome Heap :=
  (h.map map).bind fun m =>
    (deleteBuckets m.2 m.1 0 h).bind fun h => (h.free m.2).bind fun h => h.free map

/-- The buckets are counted (`src/strmap.c` 258–274): the pairs are only stepped over. -/
def countBuckets (list : List (Nat × Option Ptr)) : Nat → Nat → Outcome Nat
  | 0, _ => .ok 0
  | left + 1, i =>
    match list[i]? with
    | .none => .ub
    | some b => (countBuckets list left (i + 1)).map fun n => b.1 + n

/-- `sm_get_count` (`src/strmap.c` 248–275). -/
def smCount (h : Heap) (map : Ptr) : Outcome Nat :=
  (h.map map).bind fun m => (h.buckets m.2).bind fun list => countBuckets list m.1 0

/-- The pairs of a bucket are handed to the callback (`src/strmap.c` 294–299). The array was read before (`pair = bucket->pairs`). -/
def enumPairs (f : Arg → Arg → Heap → Outcome Heap) (array : Ptr) : Nat → Nat → Heap → Outcome Heap
  | 0, _, h => .ok h
  | left + 1, j, h =>
    (h.pairs array).bind fun slots =>
      match slots[j]? with
      | some (some (k, v)) => (f (.held k) (.held v) h).bind fun h => enumPairs f array left (j + 1) h
      | _ => .ub

/-- The pairs of a bucket that may be empty (`src/strmap.c` 292–299). -/
def enumBucket (f : Arg → Arg → Heap → Outcome Heap) (count : Nat) (array : Option Ptr) (h : Heap) : Outcome Heap :=
  if count = 0 then .ok h
  else
    match array with
    | .none => .ub
    | some a => enumPairs f a count 0 h

/-- The buckets are gone through (`src/strmap.c` 291–302). -/
def enumBuckets (f : Arg → Arg → Heap → Outcome Heap) (bs : Ptr) : Nat → Nat → Heap → Outcome Heap
  | 0, _, h => .ok h
  | left + 1, i, h =>
    (h.buckets bs).bind fun list =>
      match list[i]? with
      | .none => .ub
      | some (count, array) =>
        (enumBucket f count array h).bind fun h => enumBuckets f bs left (i + 1) h

/-- `sm_enum` (`src/strmap.c` 277–304). -/
def smEnum (h : Heap) (map : Ptr) (f : Arg → Arg → Heap → Outcome Heap) : Outcome Heap :=
  (h.map map).bind fun m => enumBuckets f m.2 m.1 0 h

/-! ## Property objects -/

/-- `trax_properties_create` (`src/trax.c` 1928–1936). -/
def create (h : Heap) : Ptr × Heap :=
  let p := h.next
  let r := smNew (h.alloc (.object 0)) 32
  (p, r.2.put p (some (.object r.1)))

/-- `trax_properties_release` (`src/trax.c` 1909–1917). -/
def release (h : Heap) (p : Option Ptr) : Outcome Heap :=
  match p with
  | .none => .ok h
  | some a => (h.object p).bind fun map => (smDelete h map).bind fun h => h.free a

/-- `trax_properties_clear` (`src/trax.c` 1919–1926). -/
def clear (h : Heap) (p : Option Ptr) : Outcome Heap :=
  match p with
  | .none => .ok h
  | some a => (h.object p).bind fun map => (smDelete h map).map fun h => let r := smNew h 32; r.2.put a (some (.object r.1))

/-- `trax_properties_set` (`src/trax.c` 1957–1961). -/
def set (h : Heap) (p : Option Ptr) (key value : Arg) : Outcome Heap := (h.object p).bind fun map => smPut h map key value

/-- `trax_properties_get` (`src/trax.c` 1979–1991): the block with the value, which the program has to release. -/
def get (h : Heap) (p : Option Ptr) (key : Arg) : Outcome (Option Ptr × Heap) :=
  (h.object p).bind fun map =>
    (smSize h map key).bind fun size =>
      if size < 1 then .ok (.none, h)
      else (smCopy (h.alloc (.text (8 * size.toNat) .none)) map key h.next size.toNat).map fun r => (some h.next, r.2)

/-- `trax_properties_has` (`src/trax.c` 1993–1996). -/
def has (h : Heap) (p : Option Ptr) (key : Arg) : Outcome Bool :=
  (h.object p).bind fun map => (smSize h map key).map fun size => !decide (size < 1)

/-- `trax_properties_count` (`src/trax.c` 2035–2039). -/
def count (h : Heap) (p : Option Ptr) : Outcome Nat := (h.object p).bind fun map => smCount h map

/-- `trax_properties_enumerate` (`src/trax.c` 2041–2046). -/
def enumerate (h : Heap) (p : Option Ptr) (f : Arg → Arg → Heap → Outcome Heap) : Outcome Heap :=
  match p with
  | .none => .ok h
  | some _ => (h.object p).bind fun map => smEnum h map f

/-- `copy_property_overwrite` (`src/trax.c` 220–223). -/
def copyOverwrite (dest : Option Ptr) (key value : Arg) (h : Heap) : Outcome Heap := set h dest key value

/-- `copy_property_safe` (`src/trax.c` 225–229). -/
def copySafe (dest : Option Ptr) (key value : Arg) (h : Heap) : Outcome Heap :=
  (has h dest key).bind fun there => if there then .ok h else set h dest key value

/-- `copy_properties` with `COPY_ALL` or `COPY_ALL | COPY_OVERWRITE` (`src/trax.c` 520–528): the test of the second flag is a logical `and`. -/
def copyAll (h : Heap) (source dest : Option Ptr) (flags : Nat) : Outcome Heap :=
  enumerate h source (if flags ≠ 0 ∧ (2 : Nat) ≠ 0 then copyOverwrite dest else copySafe dest)

/-- `trax_properties_copy` (`src/trax.c` 1938–1946). -/
def copy (h : Heap) (p : Option Ptr) : Outcome (Ptr × Heap) :=
  let r := create h
  (copyAll r.2 p (some r.1) 1).map fun h => (r.1, h)

/-- `trax_properties_append` (`src/trax.c` 1948–1955). -/
def append (h : Heap) (source drain : Option Ptr) (overwrite : Bool) : Outcome Heap :=
  copyAll h source drain (if overwrite then 3 else 1)

/-! ## Programs -/

/-- A call of a program, with the numbers of its variables of type `trax_properties*`. -/
inductive Op where
  | create
  | set (i : Nat) (key value : Str)
  /-- `trax_properties_get`, and `free` when the value has been read -/
  | get (i : Nat) (key : Str)
  | has (i : Nat) (key : Str)
  | count (i : Nat)
  | clear (i : Nat)
  | copy (i : Nat)
  | append (source drain : Nat) (overwrite : Bool)
  | release (i : Nat)
deriving DecidableEq, Repr

/-- What a call returns. -/
inductive Answer where
  | nothing
  | text (value : Option Str)
  | flag (b : Bool)
  | number (n : Nat)
deriving DecidableEq, Repr

/-- A program: the heap and its variables. -/
structure State where
  heap : Heap
  vars : List (Option Ptr)

/-- The program reads the value and releases it. -/
def takeText (r : Option Ptr × Heap) : Outcome (Option Str × Heap) :=
  match r.1 with
  | .none => .ok (.none, r.2)
  | some p => (r.2.text p).bind fun s => (r.2.free p).map fun h => (some s, h)

/-- One call. A variable that does not exist has any value. -/
def step (s : State) (op : Op) : Outcome (Answer × State) :=
  let var (i : Nat) : Outcome (Option Ptr) := match s.vars[i]? with | .none => .ub | some p => .ok p
  match op with
  | .create => let r := create s.heap; .ok (.nothing, ⟨r.2, s.vars ++ [some r.1]⟩)
  | .set i k v => (var i).bind fun p => (set s.heap p (.given k) (.given v)).map fun h => (.nothing, ⟨h, s.vars⟩)
  | .get i k => (var i).bind fun p => (get s.heap p (.given k)).bind fun r => (takeText r).map fun t => (.text t.1, ⟨t.2, s.vars⟩)
  | .has i k => (var i).bind fun p => (has s.heap p (.given k)).map fun b => (.flag b, s)
  | .count i => (var i).bind fun p => (count s.heap p).map fun n => (.number n, s)
  | .clear i => (var i).bind fun p => (clear s.heap p).map fun h => (.nothing, ⟨h, s.vars⟩)
  | .copy i => (var i).bind fun p => (copy s.heap p).map fun r => (.nothing, ⟨r.2, s.vars ++ [some r.1]⟩)
  | .append i j o => (var i).bind fun p => (var j).bind fun q => (append s.heap p q o).map fun h => (.nothing, ⟨h, s.vars⟩)
  | .release i => (var i).bind fun p => (release s.heap p).map fun h => (.nothing, ⟨h, s.vars.set i .none⟩)

/-- A program. -/
def run : List Op → State → Outcome (List Answer × State)
  | [], s => .ok ([], s)
  | op :: ops, s => (step s op).bind fun r => (run ops r.2).map fun t => (r.1 :: t.1, t.2)

end MapMem
end Trax
