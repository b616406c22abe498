import Verif.Model.Float

/-!
# Model of the text form of regions (`src/region.c` 236–526)
-/

namespace Trax

/-- `region_container` (`src/region.h` 57–95). The points of a polygon are kept as pairs, its `count`
is the length of the list; `data` is the block behind `mask.data`. -/
inductive Region where
  | special (code : Int)
  | rectangle (x y w h : Flt)
  | polygon (points : List (Flt × Flt))
  | mask (x y w h : Int) (data : List UInt8)
  deriving DecidableEq, Repr

/-- `region_type` (`src/region.h` 46). -/
inductive RegionType where
  | empty | special | rectangle | polygon | mask
  deriving DecidableEq, Repr

namespace Region

/-- The field `type`. -/
def type : Region → RegionType
  | special _ => .special
  | rectangle .. => .rectangle
  | polygon _ => .polygon
  | mask .. => .mask

/-! ## Encoding -/

/-- The loop over the pixels (`src/region.c` 501–509) and the last run (511–514): the lengths of the
runs that are printed. `value` tells whether the current run is foreground. -/
def maskRuns (value : Bool) (count : Nat) : List UInt8 → List Nat
  | [] => if count ≠ 0 ∧ value then [count] else []
  | p :: ps =>
    if (decide (p ≠ 0) && value) || (decide (p = 0) && !value) then maskRuns value (count + 1) ps
    else count :: maskRuns (!value) 1 ps

/-- `buffer_append(buffer, ",%d", n)`. -/
def fmtRun (n : Nat) : Str := ch%',' :: fmtInt n

/-- `"%.4f,%.4f"` or, behind other points, `",%.4f,%.4f"` (`src/region.c` 481–483). -/
def fmtPoints : List (Flt × Flt) → Str
  | [] => []
  | [(x, y)] => fmtFloat 4 x ++ b!"," ++ fmtFloat 4 y
  | (x, y) :: ps => fmtFloat 4 x ++ b!"," ++ fmtFloat 4 y ++ b!"," ++ fmtPoints ps

/-- `region_string` (`src/region.c` 462–526); `none` is `NULL`. The first pixel of a mask is read
without looking at its size, then the pixels up to `width * height`. -/
def string (r : Region) : Outcome (Option Str) :=
  match r with
  | special code => .ok (some (fmtInt code))
  | rectangle x y w h =>
    .ok (some (fmtFloat 4 x ++ b!"," ++ fmtFloat 4 y ++ b!"," ++ fmtFloat 4 w ++ b!"," ++ fmtFloat 4 h))
  | polygon ps => .ok (if ps = [] then none else some (fmtPoints ps))
  | mask x y w h data =>
    (mul32 w h).bind fun length =>
      match data with
      | [] => .ub
      | p :: _ =>
        if (data.length : Int) < length then .ub
        else
          let head := b!"mask:" ++ fmtInt x ++ b!"," ++ fmtInt y ++ b!"," ++ fmtInt w ++ b!"," ++ fmtInt h
          let runs := maskRuns (decide (p ≠ 0)) 0 (data.take length.toNat)
          .ok (some (head ++ (if p ≠ 0 then b!",0" else []) ++ runs.flatMap fmtRun))

/-! ## Decoding -/

/-- The characters of a scheme (`src/region.c` 246). -/
def isSchemeChar (c : UInt8) : Bool :=
  (97 ≤ c.toNat && c.toNat ≤ 122) || c = ch%'+' || c = ch%'.' || c = ch%'-'

/-- `strncmp(buffer, literal, i - 1) == 0` (`src/region.c` 249–256) where the scheme takes the first `i`
characters of the buffer; for `i = 0` the length is the largest `size_t`, and the buffer begins with a
colon, so that it is different from every literal. -/
def schemeMatches (scheme literal : Str) : Bool :=
  match scheme with
  | [] => false
  | _ => scheme.dropLast.isPrefixOf literal

/-- `__parse_uri_prefix` (`src/region.c` 239–265): the type and the text that follows. -/
def parsePrefix (s : Str) : RegionType × Str :=
  let scheme := s.takeWhile isSchemeChar
  match s.dropWhile isSchemeChar with
  | c :: rest =>
    if c = ch%':' ∧ scheme.length < 16 then
      (if schemeMatches scheme b!"rect" then .rectangle
       else if schemeMatches scheme b!"poly" then .polygon
       else if schemeMatches scheme b!"mask" then .mask
       else if schemeMatches scheme b!"special" then .special
       else .empty, rest)
    else (.empty, s)
  | [] => (.empty, s)

/-- The numbers behind the commas. -/
def seqTail : Str → List Flt
  | [] => []
  | c :: t => if c = ch%',' then atofFloat t :: seqTail t else seqTail t

/-- `_parse_sequence` (`src/region.c` 288–324): one number at the start and one behind every comma.
The block for them has room for as many numbers as the text has characters, see `overrun`. -/
def parseSequence (s : Str) : List Flt := atofFloat s :: seqTail s

/-- How many numbers `_parse_sequence` writes behind the end of its block (`src/region.c` 292). -/
def sequenceOverrun (s : Str) : Nat := (parseSequence s).length - s.length

/-- The inner loop of the run-length decoder (`src/region.c` 430–434) for one number: the pixels
written, given that `room` are left. A negative `count` is decremented until the room is used up,
which is undefined when it gets below the range of `int`. -/
def fillRun (count : Int) (room : Nat) : Outcome Nat :=
  if 0 ≤ count then .ok (min count.toNat room)
  else if InInt32 (count - room) then .ok room else .ub

/-- The run-length decoder (`src/region.c` 424–442). -/
def decodeRuns (value : Bool) (room : Nat) : List Flt → Outcome (List UInt8)
  | [] => .ok (List.replicate room 0)
  | x :: xs =>
    x.toInt.bind fun count =>
      (fillRun count room).bind fun n =>
        (decodeRuns (!value) (room - n) xs).map fun rest => List.replicate n (if value then 1 else 0) ++ rest

/-- What `region_parse` returns: the result code, the region, and the number of `float`s written
behind the end of a block on the way (execution is assumed to go on after that). -/
structure Parsed where
  ret : Nat
  region : Option Region
  overrun : Nat
  deriving DecidableEq, Repr

/-- Pairs of neighbours (`src/region.c` 391–394). -/
def pairUp : List Flt → List (Flt × Flt)
  | x :: y :: t => (x, y) :: pairUp t
  | _ => []

/-- The part of `region_parse` behind `_parse_sequence` (`src/region.c` 345–459): `none` is "return 0". -/
def ofSequence (type : RegionType) (data : List Flt) : Outcome (Option Region) :=
  if data.any (fun x => x = .nan) then
    match data with
    | [_, _, _, d] =>
      if d = .nan then .ok (some (.special 0))
      else d.toInt.bind fun n => if InInt32 (-n) then .ok (some (.special (-n))) else .ub
    | _ => .ok (some (.special 0))
  else
    let n := data.length
    let type := if type = .empty then
        (if n = 1 then .special else if n = 4 then .rectangle else if 6 ≤ n ∧ n % 2 = 0 then .polygon else .empty)
      else type
    match type with
    | .empty => .ok none
    | .special =>
      match data with
      | [x] => x.toInt.map fun code => some (.special code)
      | _ => .abort
    | .rectangle =>
      match data with
      | [x, y, w, h] => .ok (some (.rectangle x y w h))
      | _ => .abort
    | .polygon => if 6 ≤ n ∧ n % 2 = 0 then .ok (some (.polygon (pairUp data))) else .abort
    | .mask =>
      match data with
      | x :: y :: w :: h :: r :: runs =>
        x.toInt.bind fun x => y.toInt.bind fun y => w.toInt.bind fun w => h.toInt.bind fun h =>
          (mul32 w h).bind fun length =>
            (decodeRuns false length.toNat (r :: runs)).map fun pixels => some (.mask x y w h pixels)
      | _ => .abort

/-- `region_parse` (`src/region.c` 326–460) for a text; a `NULL` buffer is treated like the empty text. -/
def parse (s : Str) : Outcome Parsed :=
  if s = [] then .ok ⟨1, none, 0⟩
  else
    let (type, text) := parsePrefix s
    (ofSequence type (parseSequence text)).map fun r => ⟨if r.isSome then 1 else 0, r, sequenceOverrun text⟩

end Region

end Trax
