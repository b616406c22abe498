import Verif.Model.Bytes

/-!
# The string map (`src/strmap.c`)

A fixed number of buckets, each an array of key/value pairs in insertion order.
NULL maps/keys/values and allocation failures are not modelled (the callers in
`src/trax.c` check for NULL, see `Verif/Model/Properties.lean`).
-/

namespace Trax

/-- One bucket (`struct Bucket`, `src/strmap.c` 44–52): its pairs in array order. -/
abbrev Bucket := List (Str × Str)

/-- `struct StrMap` (`src/strmap.c` 54–57): the array of buckets; `map->count` is its length. -/
structure StrMap where
  buckets : List Bucket
deriving DecidableEq, Repr

/-- The loop of `hash` (`src/strmap.c` 333–346), on an accumulator. -/
def hashFrom (h : UInt64) : Str → UInt64
  | [] => h
  | c :: t => hashFrom ((h <<< 5) + h + sextChar c) t

/-- `hash` (`src/strmap.c` 333–346), `unsigned long` taken as 64 bits. -/
def strHash (s : Str) : UInt64 := hashFrom 5381 s

/-- `get_pair` (`src/strmap.c` 307–331): the value of the first pair with this key. -/
def bucketGet (b : Bucket) (k : Str) : Option Str :=
  match b with
  | [] => none
  | (k', v) :: t => if k' = k then some v else bucketGet t k

/-- The part of `sm_put` below the choice of the bucket (`src/strmap.c` 181–245):
replace the value in place if the key is there, else append a pair. -/
def bucketPut (b : Bucket) (k v : Str) : Bucket :=
  match b with
  | [] => [(k, v)]
  | (k', v') :: t => if k' = k then (k, v) :: t else (k', v') :: bucketPut t k v

namespace StrMap

/-- `sm_new` (`src/strmap.c` 62–78). -/
def new (capacity : Nat) : StrMap := ⟨List.replicate capacity []⟩

/-- `hash(key) % map->count`, the bucket index (`src/strmap.c` 122, 153, 179). -/
def index (m : StrMap) (k : Str) : Nat := (strHash k).toNat % m.buckets.length

/-- `sm_put` (`src/strmap.c` 162–246). Key and value are C strings: they are copied up
to their first NUL. -/
def put (m : StrMap) (k v : Str) : StrMap :=
  ⟨m.buckets.modify (m.index (cstr k)) (fun b => bucketPut b (cstr k) (cstr v))⟩

/-- The pair lookup shared by `sm_get` and `sm_exists` (`src/strmap.c` 122–127, 153–158). -/
def pair (m : StrMap) (k : Str) : Option Str :=
  bucketGet (m.buckets.getD (m.index (cstr k)) []) (cstr k)

/-- `sm_get(map, key, NULL, 0)` (`src/strmap.c` 110–130): 0 if the key is missing,
else the length of the value plus one. -/
def getSize (m : StrMap) (k : Str) : Nat :=
  match m.pair k with
  | none => 0
  | some v => v.length + 1

/-- `sm_get(map, key, out_buf, n)` with a buffer (`src/strmap.c` 110–139): `some v` if the
value `v` was copied, `none` if the call returned 0 and left the buffer alone. -/
def getCopy (m : StrMap) (k : Str) (n : Nat) : Option Str :=
  match m.pair k with
  | none => none
  | some v => if v.length ≥ n then none else some v

/-- `sm_exists` (`src/strmap.c` 141–160). -/
def contains (m : StrMap) (k : Str) : Bool := (m.pair k).isSome

/-- `sm_get_count` (`src/strmap.c` 248–275): counts by walking over all buckets. -/
def count (m : StrMap) : Nat := m.buckets.foldl (fun n b => b.foldl (fun n _ => n + 1) n) 0

/-- `sm_enum` (`src/strmap.c` 277–304): the sequence of callback invocations. -/
def enum (m : StrMap) : List (Str × Str) := m.buckets.flatten

end StrMap

end Trax
