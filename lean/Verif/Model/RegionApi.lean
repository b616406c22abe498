import Verif.Model.Geometry
import Verif.Model.Formats

/-!
# Model of the region functions of `src/trax.c` (39–53, 462–475, 1690–1907)

Pointers to regions are not NULL except where a function checks it; `Option Region` stands for a
`trax_region*` that may be NULL. Passing NULL to the accessors is not modelled.
-/

namespace Trax
namespace Region

/-- `REGION_TYPE` (`src/trax.c` 41–46): `TRAX_REGION_SPECIAL` 1, `TRAX_REGION_RECTANGLE` 2,
`TRAX_REGION_POLYGON` 4, `TRAX_REGION_MASK` 8. -/
def apiType (r : Region) : UInt32 :=
  match r.type with
  | .rectangle => 2
  | .polygon => 4
  | .mask => 8
  | .special => 1
  | .empty => 0

/-- `REGION_TYPE_BACK` (`src/trax.c` 48–53). -/
def typeBack (t : UInt32) : RegionType :=
  if t = 2 then .rectangle else if t = 4 then .polygon else if t = 8 then .mask else if t = 1 then .special else .empty

/-- `region_autoconvert` (`src/trax.c` 462–475); `none` is `NULL`. -/
def autoconvert (legacy : Bool) (fresh : Nat → List UInt8) (r : Region) (supported : UInt32) : Outcome (Option Region) :=
  if supports supported 8 then convert legacy fresh r (typeBack 8)
  else if supports supported 4 then convert legacy fresh r (typeBack 4)
  else if supports supported 2 then convert legacy fresh r (typeBack 2)
  else .ok none

/-- The region whose text `trax_client_frame` and `trax_client_initialize` send (`src/trax.c` 912–923,
976–984), with `assert(converted)`. -/
def toSend (legacy : Bool) (fresh : Nat → List UInt8) (r : Region) (supported : UInt32) : Outcome Region :=
  if supports supported r.apiType then .ok r
  else (autoconvert legacy fresh r supported).bind fun c =>
    match c with
    | none => .abort
    | some r' => .ok r'

/-- `trax_region_get_type` (`src/trax.c` 1780–1786). -/
def getType : Option Region → UInt32
  | none => 0
  | some r => r.apiType

/-- `trax_region_create_special` (`src/trax.c` 1703–1707). -/
def createSpecial (code : Int) : Region := .special code

/-- `trax_region_create_rectangle` (`src/trax.c` 1717–1721). -/
def createRectangle (x y w h : Flt) : Region := .rectangle x y w h

/-- `trax_region_create_polygon` (`src/trax.c` 1709–1715) and `region_create_polygon`
(`src/region.c` 764–779): the points are not initialised. -/
def createPolygon (freshPoints : Nat → List (Flt × Flt)) (size : Int) : Outcome Region :=
  if size > 2 then .ok (.polygon (freshPoints size.toNat)) else .abort

/-- `trax_region_clone` (`src/trax.c` 1737–1743). -/
def clone (legacy : Bool) (fresh : Nat → List UInt8) : Option Region → Outcome (Option Region)
  | none => .ok none
  | some r => convert legacy fresh r (typeBack r.apiType)

/-- `trax_region_convert` (`src/trax.c` 1745–1751). -/
def apiConvert (legacy : Bool) (fresh : Nat → List UInt8) (r : Option Region) (format : UInt32) : Outcome (Option Region) :=
  match r with
  | none => .ok none
  | some r => convert legacy fresh r (typeBack format)

/-- `trax_region_get_bounds` (`src/trax.c` 1768–1772). -/
def getBounds (legacy : Bool) (fresh : Nat → List UInt8) (r : Region) : Outcome (Option Region) :=
  convert legacy fresh r .rectangle

/-- `trax_region_overlap` (`src/trax.c` 1753–1766). -/
def apiOverlap (legacy : Bool) (fresh : Nat → List UInt8) (a b : Option Region) (bounds : Bounds) : Outcome Flt :=
  match a, b with
  | some a, some b => (computeOverlap legacy fresh a b bounds).map fun o => o.overlap
  | _, _ => .ok (.ofInt 0)

/-- `trax_region_set_special` (`src/trax.c` 1788–1794). -/
def setSpecial (r : Region) (code : Int) : Outcome Region :=
  match r with
  | .special _ => .ok (.special code)
  | _ => .abort

/-- `trax_region_get_special` (`src/trax.c` 1797–1803). -/
def getSpecial (r : Region) : Outcome Int :=
  match r with
  | .special code => .ok code
  | _ => .abort

/-- `trax_region_set_rectangle` (`src/trax.c` 1805–1814). -/
def setRectangle (r : Region) (x y w h : Flt) : Outcome Region :=
  match r with
  | .rectangle .. => .ok (.rectangle x y w h)
  | _ => .abort

/-- `trax_region_get_rectangle` (`src/trax.c` 1816–1825), all four pointers given. -/
def getRectangle (r : Region) : Outcome (Flt × Flt × Flt × Flt) :=
  match r with
  | .rectangle x y w h => .ok (x, y, w, h)
  | _ => .abort

/-- `trax_region_set_polygon_point` (`src/trax.c` 1827–1835). The condition of the second `assert` is
true for every index, so that an index outside the arrays is undefined behaviour. -/
def setPolygonPoint (r : Region) (index : Int) (x y : Flt) : Outcome Region :=
  match r with
  | .polygon ps =>
    if index ≥ 0 ∨ index < ps.length then
      (if 0 ≤ index ∧ index < ps.length then .ok (.polygon (ps.set index.toNat (x, y))) else .ub)
    else .abort
  | _ => .abort

/-- `trax_region_get_polygon_point` (`src/trax.c` 1837–1845). -/
def getPolygonPoint (r : Region) (index : Int) : Outcome (Flt × Flt) :=
  match r with
  | .polygon ps =>
    if index ≥ 0 ∨ index < ps.length then
      (if 0 ≤ index then match ps[index.toNat]? with | some p => .ok p | none => .ub else .ub)
    else .abort
  | _ => .abort

/-- `trax_region_get_polygon_count` (`src/trax.c` 1847–1853). -/
def getPolygonCount (r : Region) : Outcome Int :=
  match r with
  | .polygon ps => .ok ps.length
  | _ => .abort

/-- `trax_region_create_mask` (`src/trax.c` 1855–1859). -/
def apiCreateMask (fresh : Nat → List UInt8) (x y w h : Int) : Outcome Region := createMask fresh x y w h

/-- `trax_region_get_mask_header` (`src/trax.c` 1861–1870). -/
def getMaskHeader (r : Region) : Outcome (Int × Int × Int × Int) :=
  match r with
  | .mask x y w h _ => .ok (x, y, w, h)
  | _ => .abort

/-- The offset into the pixels returned by `trax_region_write_mask_row` and `trax_region_get_mask_row`
(`src/trax.c` 1872–1890). -/
def maskRow (r : Region) (row : Int) : Outcome Int :=
  match r with
  | .mask _ _ w h _ => if 0 ≤ row ∧ row < h then mul32 w row else .abort
  | _ => .abort

/-- Writing pixel `j` of the row returned by `trax_region_write_mask_row`. -/
def writeMaskPixel (r : Region) (row j : Int) (v : UInt8) : Outcome Region :=
  match r with
  | .mask x y w h data => (maskRow r row).bind fun o => (writeAt data (o + j) v).map fun data => .mask x y w h data
  | _ => .abort

/-- Reading pixel `j` of the row returned by `trax_region_get_mask_row`. -/
def readMaskPixel (r : Region) (row j : Int) : Outcome UInt8 :=
  match r with
  | .mask _ _ _ _ data => (maskRow r row).bind fun o => readAt data (o + j)
  | _ => .abort

/-- `trax_region_decode` (`src/trax.c` 1898–1907); `none` is `NULL`. -/
def decode (text : Str) : Outcome (Option Region) :=
  (parse text).map fun p => if p.ret = 0 then none else p.region

end Region
end Trax
