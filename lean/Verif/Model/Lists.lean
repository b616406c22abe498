import Verif.Model.Image
import Verif.Model.RegionApi
import Verif.Model.Properties

/-!
# Image and object lists as values (`src/trax.c` 2049–2194)

An image list is modelled by its array of `TRAX_CHANNELS` = 3 entries, an object list by its entries.
What the functions do to memory (ownership of regions, copying, releasing) is the subject of
`Verif/Model/ObjectHeap.lean`.
-/

namespace Trax

/-! ## Image lists -/

/-- `struct trax_image_list`: the entries for color, depth and infrared; `none` is NULL. -/
abbrev ImageList := List (Option Image)

namespace ImageList

/-- `trax_image_list_create` (`src/trax.c` 2134–2144). -/
def create : ImageList := List.replicate 3 none

/-- `TRAX_CHANNEL_INDEX` (`include/trax.h` 93–96). -/
def channelIndex (channel : Int) : Int :=
  if channel = 1 then 0 else if channel = 2 then 1 else if channel = 4 then 2 else -1

/-- `TRAX_CHANNEL_ID` (`include/trax.h` 98–101). -/
def channelId (i : Nat) : UInt32 := if i = 0 then 1 else if i = 1 then 2 else if i = 2 then 4 else 0xFFFFFFFF

/-- `trax_image_list_get` (`src/trax.c` 2171–2176): index 3 would pass the check but does not occur. -/
def get (l : ImageList) (channel : Int) : Outcome (Option Image) :=
  let i := channelIndex channel
  if i < 0 ∨ i > 3 then .ok none
  else match l[i.toNat]? with
    | some img => .ok img
    | none => .ub

/-- `trax_image_list_set` (`src/trax.c` 2178–2183). The list keeps the pointer it is given. -/
def set (l : ImageList) (img : Option Image) (channel : Int) : Outcome ImageList :=
  let i := channelIndex channel
  if i < 0 ∨ i > 3 then .ok l
  else if i.toNat < l.length then .ok (List.set l i.toNat img) else .ub

/-- `trax_image_list_clear` (`src/trax.c` 2146–2157). -/
def clear (l : ImageList) : ImageList := l.map fun _ => none

/-- The loop of `trax_image_list_count` (`src/trax.c` 2185–2194) on a 32-bit `int`: `channels - 1` overflows
for the smallest `int`. Every step clears a bit, so that 32 steps are enough; the fuel is never used up
(`countLoop_eq` in the lemmas). -/
def countLoop : Nat → BitVec 32 → Outcome Nat
  | _, 0#32 => .ok 0
  | 0, _ => .abort
  | fuel + 1, c => if c = BitVec.intMin 32 then .ub else (countLoop fuel (c &&& (c - 1#32))).map (· + 1)

/-- `trax_image_list_count` (`src/trax.c` 2185–2194). -/
def count (channels : UInt32) : Outcome Nat := countLoop 32 channels.toBitVec

/-- Steps of a program with an image list. -/
inductive Op where
  | set (img : Option Image) (channel : Int)
  | clear
deriving DecidableEq, Repr

/-- One step. -/
def step (l : ImageList) : Op → Outcome ImageList
  | .set img channel => l.set img channel
  | .clear => .ok l.clear

/-- A program with an image list. -/
def run : List Op → ImageList → Outcome ImageList
  | [], l => .ok l
  | op :: ops, l => (step l op).bind (run ops)

end ImageList

/-! ## Object lists -/

/-- `struct trax_object_list`: region (`none` is NULL) and properties of each object. -/
abbrev ObjList := List (Option Region × Properties)

namespace ObjList

/-- `trax_object_list_create` (`src/trax.c` 2049–2066) for a size that is not negative. -/
def create (n : Nat) : ObjList := List.replicate n (some (Region.createSpecial 0), Properties.create)

/-- `trax_object_list_set` (`src/trax.c` 2085–2093): releasing a NULL region is undefined
(`region_release`, `src/region.c` 715–717, reads its type). -/
def set (legacy : Bool) (fresh : Nat → List UInt8) (l : ObjList) (i : Int) (r : Option Region) : Outcome ObjList :=
  if i < 0 ∨ i ≥ l.length then .ok l
  else match l[i.toNat]? with
    | some (some _, p) => (Region.clone legacy fresh r).map fun c => List.set l i.toNat (c, p)
    | _ => .ub

/-- `trax_object_list_get` (`src/trax.c` 2096–2101). -/
def get (l : ObjList) (i : Int) : Option Region :=
  if i < 0 ∨ i ≥ l.length then none else (l[i.toNat]?.map Prod.fst).join

/-- `trax_object_list_properties` (`src/trax.c` 2103–2106). -/
def properties (l : ObjList) (i : Int) : Option Properties :=
  if i < 0 ∨ i ≥ l.length then none else l[i.toNat]?.map Prod.snd

/-- Changing the properties that `trax_object_list_properties` points to. -/
def setProperties (l : ObjList) (i : Nat) (p : Properties) : ObjList :=
  l.modify i fun e => (e.1, p)

/-- `trax_object_list_count` (`src/trax.c` 2108–2110). -/
def count (l : ObjList) : Nat := l.length

/-- `trax_object_list_append` (`src/trax.c` 2112–2132) for two different lists; properties are copied with
`COPY_ALL | COPY_OVERWRITE`. -/
def append (legacy : Bool) (fresh : Nat → List UInt8) (l src : ObjList) : Outcome ObjList :=
  (src.foldr (fun e acc => (Region.clone legacy fresh e.1).bind fun c => acc.map fun t =>
    (c, Properties.copyProperties e.2 Properties.create (Properties.COPY_ALL ||| Properties.COPY_OVERWRITE)) :: t)
    (.ok [])).map (l ++ ·)

end ObjList
end Trax
