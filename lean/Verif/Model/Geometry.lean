import Verif.Model.FloatOps
import Verif.Model.RegionCodec

/-!
# Model of the geometry of regions (`src/region.c` 64–232, 539–999, 1099–1271)

`legacy` stands for the flag `REGION_LEGACY_RASTERIZATION` of the global `__flags`, which the client
application can set. Reads and writes outside a buffer, `int` overflows and conversions of numbers
that do not fit are the outcome `ub`.
-/

namespace Trax

/-- `for (i = 0; i < n; i++) s = f(i, s)`. -/
def Outcome.forN {σ : Type} (f : Nat → σ → Outcome σ) : Nat → σ → Outcome σ
  | 0, s => .ok s
  | n + 1, s => (Outcome.forN f n s).bind (f n)

/-- The same over the elements of a list. -/
def Outcome.forEach {α σ : Type} (f : α → σ → Outcome σ) : List α → σ → Outcome σ
  | [], s => .ok s
  | a :: as, s => (f a s).bind (Outcome.forEach f as)

/-- `buf[i] = v`. -/
def writeAt (buf : List UInt8) (i : Int) (v : UInt8) : Outcome (List UInt8) :=
  if 0 ≤ i ∧ i < buf.length then .ok (buf.set i.toNat v) else .ub

/-- The value of `buf[i]`. -/
def readAt (buf : List UInt8) (i : Int) : Outcome UInt8 :=
  if 0 ≤ i then
    match buf[i.toNat]? with
    | some v => .ok v
    | none => .ub
  else .ub

/-- `memset(buf, v, width * height)`: the product is computed as `int`; a negative one is converted to a
huge size. -/
def memsetArea (buf : List UInt8) (v : UInt8) (width height : Int) : Outcome (List UInt8) :=
  (mul32 width height).bind fun n =>
    if 0 ≤ n ∧ n ≤ buf.length then .ok (List.replicate n.toNat v ++ buf.drop n.toNat) else .ub

/-- `region_bounds` (`src/region.h` 48–55). -/
structure Bounds where
  top : Flt
  bottom : Flt
  left : Flt
  right : Flt
  deriving DecidableEq, Repr

namespace Bounds

/-- `region_no_bounds` (`src/region.c` 33). -/
def none : Bounds := ⟨Flt.fltMax.neg, .fltMax, Flt.fltMax.neg, .fltMax⟩

/-- The initial values in `compute_bounds_polygon` and `compute_bounds_mask` (`src/region.c` 132–135,
152–155). -/
def start : Bounds := ⟨.fltMax, Flt.fltMax.neg, .fltMax, Flt.fltMax.neg⟩

/-- The loop body `src/region.c` 138–141: one more point. -/
def extend (b : Bounds) (p : Flt × Flt) : Bounds :=
  ⟨b.top.minF p.2, b.bottom.maxF p.2, b.left.minF p.1, b.right.maxF p.1⟩

/-- `compute_bounds_polygon` (`src/region.c` 128–146). -/
def ofPolygon (ps : List (Flt × Flt)) : Bounds := ps.foldl extend start

/-- The foreground pixels in the order of the loops `src/region.c` 157–159, as (column, row). -/
def foreground (w h : Nat) (data : List UInt8) : List (Nat × Nat) :=
  (List.range h).flatMap fun i => ((List.range w).filter fun j => data.getD (j + i * w) 0 ≠ 0).map fun j => (j, i)

/-- `compute_bounds_mask` (`src/region.c` 148–175). The loops read every pixel once, so the access check
is made here for the whole block. -/
def ofMask (x y w h : Int) (data : List UInt8) : Outcome Bounds :=
  if 0 < w ∧ 0 < h ∧ (¬ InInt32 (w * h - 1) ∨ (data.length : Int) < w * h) then .ub
  else
    let b := (foreground w.toNat h.toNat data).foldl
      (fun b p => extend b (Flt.ofInt p.1, Flt.ofInt p.2)) start
    .ok ⟨b.top.addF (.ofInt y), b.bottom.addF (.ofInt y), b.left.addF (.ofInt x), b.right.addF (.ofInt x)⟩

/-- `bounds_round` (`src/region.c` 178–187). -/
def round (b : Bounds) : Bounds := ⟨b.top.floorF, b.bottom.ceilF, b.left.floorF, b.right.ceilF⟩

/-- `bounds_intersection` (`src/region.c` 189–200). -/
def inter (a b : Bounds) : Bounds :=
  ⟨a.top.maxF b.top, a.bottom.minF b.bottom, a.left.maxF b.left, a.right.minF b.right⟩

/-- `bounds_union` (`src/region.c` 202–213). -/
def union (a b : Bounds) : Bounds :=
  ⟨a.top.minF b.top, a.bottom.maxF b.bottom, a.left.minF b.left, a.right.maxF b.right⟩

/-- `(b.right - b.left) * (b.bottom - b.top)`. -/
def area (b : Bounds) : Flt := (b.right.subF b.left).mulF (b.bottom.subF b.top)

/-- `bounds_overlap` (`src/region.c` 215–222). -/
def overlap (a b : Bounds) : Flt :=
  let intersection := (inter a b).area
  let ratio := intersection.divF ((a.area.addF b.area).subF intersection)
  if ratio.lt .zero then .zero else ratio

end Bounds

namespace Region

/-! ## Rasterisation -/

/-- The pairs of points `i`, `j` of the node loop: every point with the one before it, the first with
the last (`src/region.c` 888–897, 940–957). -/
def edges (ps : List (Flt × Flt)) : List ((Flt × Flt) × (Flt × Flt)) :=
  match ps.getLast? with
  | none => []
  | some l => ps.zip (l :: ps.dropLast)

/-- One step of the node loop in legacy mode (`src/region.c` 891–895). -/
def legacyNode (pixelY : Int) (e : (Flt × Flt) × (Flt × Flt)) (nodes : List Int) : Outcome (List Int) :=
  let ((xi, yi), (xj, yj)) := e
  let p : Flt := .fin (decide (pixelY < 0)) (pixelY.natAbs * 2 ^ 149)
  if (yi.lt p && p.le yj) || (yj.lt p && p.le yi) then
    (Flt.toInt (xi.addF ((((Flt.ofInt pixelY).subF yi).divF (yj.subF yi)).mulF (xj.subF xi)))).map
      fun n => nodes ++ [n]
  else .ok nodes

/-- One step of the node loop (`src/region.c` 941–955); the points are rounded. -/
def node (pixelY : Int) (e : (Flt × Flt) × (Flt × Flt)) (nodes : List Int) : Outcome (List Int) :=
  let ((xi, yi), (xj, yj)) := e
  yi.toInt.bind fun a => yj.toInt.bind fun b =>
    if (a ≤ pixelY ∧ b > pixelY) ∨ (b ≤ pixelY ∧ a > pixelY) ∨ (a < pixelY ∧ b ≥ pixelY) ∨
        (b < pixelY ∧ a ≥ pixelY) ∨ (a = b ∧ a = pixelY) then
      let r := (yj.subF yi).widen
      let k := (xj.subF xi).widen
      if r.feq .zero then (Flt.doubleToInt xi.widen).map fun n => nodes ++ [n]
      else
        (Flt.doubleToInt (xi.widen.addD (((((Flt.ofInt pixelY).subF yi).widen).divD r).mulD k))).map
          fun n => nodes ++ [n]
    else .ok nodes

/-- The loop that sorts the nodes (`src/region.c` 900–910, 958–968), for at most `fuel` rounds. The index
`i` stands between the elements before it (kept in reverse) and the others. `none`: not finished. -/
def sortLoop : Nat → List Int → List Int → Option (List Int)
  | 0, _, _ => none
  | fuel + 1, before, a :: b :: rest =>
    if a > b then
      match before with
      | [] => sortLoop fuel [] (b :: a :: rest)
      | p :: ps => sortLoop fuel ps (p :: b :: a :: rest)
    else sortLoop fuel (a :: before) (b :: rest)
  | _ + 1, before, rest => some (before.reverse ++ rest)

/-- The sort. Theorem `C47_sort` shows that this many rounds are enough. -/
def sortNodes (nodes : List Int) : Outcome (List Int) :=
  match sortLoop (nodes.length * nodes.length + nodes.length + 1) [] nodes with
  | some l => .ok l
  | none => .ub

/-- `for (j = a; j <= b; j++) mask[pixelY * width + j] = 1` (`src/region.c` 984–987). -/
def fillSpan (width pixelY a b : Int) (buf : List UInt8) : Outcome (List UInt8) :=
  Outcome.forN (fun k buf => writeAt buf (pixelY * width + (a + k)) 1) (b + 1 - a).toNat buf

/-- The fill loop in legacy mode (`src/region.c` 913–923). A node without a partner is read from
uninitialised memory. -/
def legacyFill (width pixelY : Int) : List Int → List UInt8 → Outcome (List UInt8)
  | [], buf => .ok buf
  | [a], buf => if a ≥ width then .ok buf else .ub
  | a :: b :: rest, buf =>
    if a ≥ width then .ok buf
    else if b > 0 then
      (fillSpan width pixelY (if a < 0 then 0 else a) ((if b > width then width - 1 else b) - 1) buf).bind
        (legacyFill width pixelY rest)
    else legacyFill width pixelY rest buf

/-- The fill loop (`src/region.c` 971–991). -/
def fillRow (width pixelY : Int) : List Int → List UInt8 → Outcome (List UInt8)
  | a :: b :: rest, buf =>
    if a ≥ width then .ok buf
    else if a = b ∧ rest ≠ [] then fillRow width pixelY (b :: rest) buf
    else if b ≥ 0 then
      (fillSpan width pixelY (if a < 0 then 0 else a) (if b ≥ width then width - 1 else b) buf).bind
        (fillRow width pixelY rest)
    else fillRow width pixelY rest buf
  | _, buf => .ok buf

/-- `round_polygon` (`src/region.c` 114–125). -/
def roundPolygon (ps : List (Flt × Flt)) : List (Flt × Flt) := ps.map fun p => (p.1.roundF, p.2.roundF)

/-- `offset_polygon` (`src/region.c` 101–112). -/
def offsetPolygon (ps : List (Flt × Flt)) (x y : Flt) : List (Flt × Flt) :=
  ps.map fun p => (p.1.addF x, p.2.addF y)

/-- One row of `rasterize_polygon`; `ps` is already rounded unless in legacy mode. -/
def rasterRow (legacy : Bool) (ps : List (Flt × Flt)) (width : Int) (row : Nat) (buf : List UInt8) :
    Outcome (List UInt8) :=
  (Outcome.forEach (if legacy then legacyNode row else node row) (edges ps) []).bind fun nodes =>
    (sortNodes nodes).bind fun nodes =>
      if legacy then legacyFill width row nodes buf else fillRow width row nodes buf

/-- `rasterize_polygon` (`src/region.c` 872–998) with a buffer to write to. The number of marked pixels it
returns is not modelled: it is used only in `compute_polygon_overlap`, which nothing calls. -/
def rasterize (legacy : Bool) (ps : List (Flt × Flt)) (buf : List UInt8) (width height : Int) :
    Outcome (List UInt8) :=
  (memsetArea buf 0 width height).bind fun buf =>
    Outcome.forN (rasterRow legacy (if legacy then ps else roundPolygon ps) width) height.toNat buf

/-! ## Masks -/

/-- `region_create_mask` (`src/region.c` 781–799): the product is computed as `size_t`. `fresh` is the
content of a new block of memory. -/
def createMask (fresh : Nat → List UInt8) (x y w h : Int) : Outcome Region :=
  if 0 < w ∧ 0 < h then .ok (.mask x y w h (fresh (w * h).toNat)) else .abort

/-- The points of a rectangle converted to a polygon (`src/region.c` 601–627). -/
def rectPoints (legacy : Bool) (x y w h : Flt) : List (Flt × Flt) :=
  let r := if legacy then x.addF w else (x.addF w).subF .one
  let b := if legacy then y.addF h else (y.addF h).subF .one
  [(x, y), (r, y), (r, b), (x, b)]

/-- The copy loops of `region_get_mask_offset` for a mask (`src/region.c` 1232–1256). -/
def copyWindow (mx my mw mh : Int) (data : List UInt8) (buf : List UInt8) (x y width height : Int) :
    Outcome (List UInt8) :=
  let tx := max mx x
  let ty := max my y
  (chk32 (tx - x)).bind fun ox => (chk32 (ty - y)).bind fun oy =>
  (chk32 (tx - mx)).bind fun gx => (chk32 (ty - my)).bind fun gy =>
  (chk32 (x + width)).bind fun xr => (chk32 (mx + mw)).bind fun mr => (chk32 (min xr mr - tx)).bind fun tw =>
  (chk32 (y + height)).bind fun yb => (chk32 (my + mh)).bind fun mb => (chk32 (min yb mb - ty)).bind fun th =>
  (memsetArea buf 0 width height).bind fun buf =>
    Outcome.forN (fun (i : Nat) buf =>
      Outcome.forN (fun (j : Nat) buf =>
        (chk32 (j + gx + (i + gy) * mw)).bind fun src =>
        (chk32 (j + ox + (i + oy) * width)).bind fun dst =>
        (readAt data src).bind fun v => writeAt buf dst v) tw.toNat buf) th.toNat buf

/-- `region_get_mask_offset` (`src/region.c` 1228–1271). For a special region it takes the code for a
polygon. `buf` is the buffer of the caller. -/
def getMaskOffset (legacy : Bool) (r : Region) (buf : List UInt8) (x y width height : Int) :
    Outcome (List UInt8) :=
  match r with
  | mask mx my mw mh data => copyWindow mx my mw mh data buf x y width height
  | special _ => .ub
  | rectangle rx ry rw rh =>
    (chk32 (-x)).bind fun nx => (chk32 (-y)).bind fun ny =>
      rasterize legacy (offsetPolygon (rectPoints legacy rx ry rw rh) (.ofInt nx) (.ofInt ny)) buf width height
  | polygon ps =>
    (chk32 (-x)).bind fun nx => (chk32 (-y)).bind fun ny =>
      rasterize legacy (offsetPolygon ps (.ofInt nx) (.ofInt ny)) buf width height

/-! ## Conversion -/

/-- `region_compute_bounds` (`src/region.c` 837–870), which `trax_region_bounds` copies (`src/trax.c` 1723–1735). -/
def computeBounds (legacy : Bool) : Region → Outcome Bounds
  | rectangle x y w h =>
    if legacy then .ok ⟨y, y.addF h, x, x.addF w⟩
    else .ok ⟨y, (y.addF h).subF .one, x, (x.addF w).subF .one⟩
  | polygon ps => .ok (Bounds.ofPolygon ps)
  | mask x y w h data => Bounds.ofMask x y w h data
  | special _ => .ok Bounds.none

/-- The bounding box computed when a polygon is converted to a rectangle (`src/region.c` 551–569). It
begins with other values than `compute_bounds_polygon`. -/
def polygonBox (ps : List (Flt × Flt)) : Region :=
  let b := ps.foldl Bounds.extend ⟨.fltMax, .fltMin, .fltMax, .fltMin⟩
  .rectangle b.left b.top (b.right.subF b.left) (b.bottom.subF b.top)

/-- `region_convert` (`src/region.c` 539–713); `none` is `NULL`. -/
def convert (legacy : Bool) (fresh : Nat → List UInt8) (r : Region) (type : RegionType) :
    Outcome (Option Region) :=
  match type, r with
  | .rectangle, rectangle x y w h => .ok (some (.rectangle x y w h))
  | .rectangle, polygon ps => .ok (some (polygonBox ps))
  | .rectangle, mask x y w h data =>
    (Bounds.ofMask x y w h data).map fun b =>
      some (.rectangle b.left b.top ((b.right.subF b.left).addF .one) ((b.bottom.subF b.top).addF .one))
  | .rectangle, special _ => .ok none
  | .polygon, rectangle x y w h => .ok (some (.polygon (rectPoints legacy x y w h)))
  | .polygon, mask x y w h data =>
    (Bounds.ofMask x y w h data).map fun b =>
      some (.polygon [(b.left, b.top), (b.right, b.top), (b.right, b.bottom), (b.left, b.bottom)])
  | .polygon, polygon ps => .ok (some (.polygon ps))
  | .polygon, special _ => .ok none
  | .mask, rectangle x y w h =>
    x.toInt.bind fun x => y.toInt.bind fun y => w.toInt.bind fun w => h.toInt.bind fun h =>
      (createMask fresh x y w h).bind fun _ =>
        (memsetArea (fresh (w * h).toNat) 255 w h).map fun data => some (.mask x y w h data)
  | .mask, polygon ps =>
    let b := Bounds.ofPolygon ps
    b.left.toInt.bind fun x => b.right.toInt.bind fun y => (b.right.subF b.left).toInt.bind fun w =>
      (b.bottom.subF b.top).toInt.bind fun h =>
        (createMask fresh x y w h).bind fun _ =>
          (getMaskOffset legacy r (fresh (w * h).toNat) x y w h).map fun data => some (.mask x y w h data)
  | .mask, mask x y w h data =>
    (createMask fresh x y w h).bind fun _ => (mul32 w h).bind fun n =>
      if n ≤ data.length then .ok (some (.mask x y w h (data.take n.toNat))) else .ub
  | .mask, special _ => .ok none
  | .special, special code => .ok (some (.special code))
  | .special, _ => .ok (some (.special 0))
  | .empty, _ => .ok none

/-! ## Points -/

/-- `point_in_polygon` (`src/region.c` 805–813). -/
def pointInPolygon (ps : List (Flt × Flt)) (x y : Flt) : Bool :=
  (edges ps).foldl (fun c e =>
    let ((xi, yi), (xj, yj)) := e
    if (y.lt yi != y.lt yj) &&
        x.lt ((((xj.subF xi).mulF (y.subF yi)).divF (yj.subF yi)).addF xi) then !c else c) false

/-- `point_in_mask` (`src/region.c` 815–821). -/
def pointInMask (mx my mw mh : Int) (data : List UInt8) (x y : Flt) : Outcome Bool :=
  if x.lt (.ofInt mx) || y.lt (.ofInt my) then .ok false
  else
    (chk32 (mx + mw)).bind fun r =>
    if (Flt.ofInt r).le x then .ok false
    else
      (chk32 (my + mh)).bind fun b =>
      if (Flt.ofInt b).le y then .ok false
      else
        x.toInt.bind fun xi => (chk32 (xi - mx)).bind fun dx =>
        y.toInt.bind fun yi => (chk32 (yi - my)).bind fun dy =>
        (mul32 dy mw).bind fun row => (chk32 (dx + row)).bind fun i =>
        (readAt data i).map fun v => decide (v ≠ 0)

/-- `region_contains_point` (`src/region.c` 1203–1220). -/
def containsPoint (r : Region) (x y : Flt) : Outcome Bool :=
  match r with
  | rectangle rx ry rw rh =>
    .ok (rx.le x && x.le (rw.addF rx) && ry.le y && y.le (rh.addF ry))
  | polygon ps => .ok (pointInPolygon ps x y)
  | mask mx my mw mh data => pointInMask mx my mw mh data x y
  | special _ => .ok false

/-! ## Overlap -/

/-- `region_overlap` (`src/region.h` 97–103). -/
structure Overlap where
  overlap : Flt
  only1 : Flt
  only2 : Flt
  deriving DecidableEq, Repr

/-- The literal `1e-10` as `double`. -/
def tiny : Flt := mkDouble false (2 ^ 1074) (10 ^ 10)

/-- `(float) a / (float) b` for counters. -/
def ratio (a b : Nat) : Flt := (Flt.ofInt a).divF (Flt.ofInt b)

/-- `bounds_intersection(bounds_round(region_compute_bounds(r)), bounds)`, without the rounding in legacy
mode (`src/region.c` 1122–1128). -/
def clipped (legacy : Bool) (r : Region) (bounds : Bounds) : Outcome Bounds :=
  (computeBounds legacy r).map fun b => if legacy then b.inter bounds else b.round.inter bounds

/-- `for (i = 0; i < limit; i++) if (data[i]) vol++` where `limit` is a product of floats, so that the counter
is converted to `float` for the comparison (`src/region.c` 1159–1165). -/
def countFloat (limit : Flt) (i : Nat) : List UInt8 → Outcome Nat
  | [] => if (Flt.ofInt i).lt limit then .ub else .ok 0
  | v :: vs =>
    if (Flt.ofInt i).lt limit then (countFloat limit (i + 1) vs).map fun n => if v ≠ 0 then n + 1 else n
    else .ok 0

/-- The case of disjoint bounds (`src/region.c` 1149–1168). -/
def disjointOverlap (legacy : Bool) (fresh : Nat → List UInt8) (ra rb : Region) (b1 b2 : Bounds) : Outcome Overlap :=
  let fw := fun b : Bounds => (b.right.subF b.left).addF .one
  let fh := fun b : Bounds => (b.bottom.subF b.top).addF .one
  b1.left.toInt.bind fun x1 => b1.top.toInt.bind fun y1 => (fw b1).toInt.bind fun w1 => (fh b1).toInt.bind fun h1 =>
  (createMask fresh x1 y1 w1 h1).bind fun _ =>
  b2.left.toInt.bind fun x2 => b2.top.toInt.bind fun y2 => (fw b2).toInt.bind fun w2 => (fh b2).toInt.bind fun h2 =>
  (createMask fresh x2 y2 w2 h2).bind fun _ =>
  (getMaskOffset legacy ra (fresh (w1 * h1).toNat) x1 y1 w1 h1).bind fun m1 =>
  (getMaskOffset legacy rb (fresh (w2 * h2).toNat) x2 y2 w2 h2).bind fun m2 =>
  (countFloat ((fw b1).mulF (fh b1)) 0 m1).bind fun v1 =>
  (countFloat ((fw b2).mulF (fh b2)) 0 m2).bind fun v2 =>
  (chk32 ((v1 : Int) + v2)).bind fun _ =>
    .ok ⟨.zero, ratio v1 (v1 + v2), ratio v2 (v1 + v2)⟩

/-- The case of overlapping bounds (`src/region.c` 1170–1195): both regions in a common window. -/
def commonOverlap (legacy : Bool) (fresh : Nat → List UInt8) (ra rb : Region) (x y width height : Int) :
    Outcome Overlap :=
  (createMask fresh x y width height).bind fun _ =>
  (getMaskOffset legacy ra (fresh (width * height).toNat) x y width height).bind fun m1 =>
  (getMaskOffset legacy rb (fresh (width * height).toNat) x y width height).bind fun m2 =>
  let both := (m1.zip m2).countP fun p => p.1 ≠ 0 ∧ p.2 ≠ 0
  let o1 := (m1.zip m2).countP fun p => p.1 ≠ 0 ∧ p.2 = 0
  let o2 := (m1.zip m2).countP fun p => p.1 = 0 ∧ p.2 ≠ 0
  .ok ⟨ratio both (o1 + o2 + both), ratio o1 (o1 + o2 + both), ratio o2 (o1 + o2 + both)⟩

/-- `region_compute_overlap` (`src/region.c` 1101–1201). -/
def computeOverlap (legacy : Bool) (fresh : Nat → List UInt8) (ra rb : Region) (bounds : Bounds) :
    Outcome Overlap :=
  (clipped legacy ra bounds).bind fun b1 => (clipped legacy rb bounds).bind fun b2 =>
  (b1.left.minF b2.left).toInt.bind fun x => (b1.top.minF b2.top).toInt.bind fun y =>
  (((b1.right.maxF b2.right).subF (.ofInt x)).toInt.bind fun w => chk32 (w + 1)).bind fun width =>
  (((b1.bottom.maxF b2.bottom).subF (.ofInt y)).toInt.bind fun h => chk32 (h + 1)).bind fun height =>
  let a1 := b1.area.widen
  let a2 := b2.area.widen
  if (a1.divD a2).lt tiny || (a2.divD a1).lt tiny || decide (width < 1) || decide (height < 1) then
    .ok ⟨.zero, .zero, .zero⟩
  else if (b1.overlap b2).feq .zero then
    disjointOverlap legacy fresh ra rb b1 b2
  else commonOverlap legacy fresh ra rb x y width height

end Region

end Trax
