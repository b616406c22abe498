import Verif.Model.NccSearch

/-!
# The tracker of the tutorial for MATLAB (`docs/tutorials/matlab/ncc_tracker.m`)

Simplifications: the values of pixels are left out, and where the template is found (`normxcorr2`, `max`) is a parameter, so that templates whose pixels all have the same value, which `normxcorr2` refuses, are left out, too; regions are whole
numbers, so that `round` of them changes nothing; the texts of the files are left out. A position is kept as twice its value. `none` is an error of MATLAB. Coordinates begin at zero, as in the file (which adds one in each index).
-/

namespace Trax.NccMatlab

open Ncc (Rect roundHalf)

/-- An image: its size, and at which of the places that are compared (counted from one) the template is found, for a part with the given corner and the given number of places. (`docs/tutorials/matlab/ncc_tracker.m` 99–109.) -/
structure Picture where
  width : Int
  height : Int
  find : Int → Int → Int → Int → Int × Int

/-- `state` (`docs/tutorials/matlab/ncc_tracker.m` 73–75): `position` (twice), `size`, `window`, and the size of `template`. -/
structure State where
  x2 : Int
  y2 : Int
  width : Int
  height : Int
  window : Int
  templateWidth : Int
  templateHeight : Int
  deriving DecidableEq, Repr

/-- `region(1:2:end)` (`docs/tutorials/matlab/ncc_tracker.m` 55–56). -/
def odds : List Int → List Int
  | [] => []
  | [a] => [a]
  | a :: _ :: rest => a :: odds rest

/-- `region(2:2:end)` (`docs/tutorials/matlab/ncc_tracker.m` 57–58). -/
def evens : List Int → List Int
  | [] => []
  | [_] => []
  | _ :: b :: rest => b :: evens rest

/-- `min` (`docs/tutorials/matlab/ncc_tracker.m` 55, 57). -/
def least (l : List Int) : Int := l.tail.foldl min (l.headD 0)

/-- `max` (`docs/tutorials/matlab/ncc_tracker.m` 56, 58). -/
def greatest (l : List Int) : Int := l.tail.foldl max (l.headD 0)

/-- The rectangle of a region (`docs/tutorials/matlab/ncc_tracker.m` 53–64). -/
def box (region : List Int) : Option Rect :=
  if region.length > 4 then
    let x1 := least (odds region)
    let x2 := greatest (odds region)
    let y1 := least (evens region)
    let y2 := greatest (evens region)
    some ⟨x1, y1, x2 - x1, y2 - y1⟩
  else
    match region with
    | [x, y, w, h] => some ⟨x, y, w, h⟩
    | _ => none

/-- The state after `ncc_initialize` (`docs/tutorials/matlab/ncc_tracker.m` 66–75) for the rectangle of the region. -/
def start (p : Picture) (r : Rect) : State :=
  let x1 := max 1 r.x
  let y1 := max 1 r.y
  let x2 := min (p.width - 2) (r.x + r.width - 1)
  let y2 := min (p.height - 2) (r.y + r.height - 1)
  let w := x2 - x1 + 1
  let h := y2 - y1 + 1
  ⟨x1 + x2 + 1, y1 + y2 + 1, w, h, max w h * 2, max w 0, max h 0⟩

/-- `[position - state.size / 2, state.size]` (`docs/tutorials/matlab/ncc_tracker.m` 95, 114): the difference is a whole number, as a position is a corner with the half of the size. -/
def location (s : State) : Rect := ⟨(s.x2 - s.width) / 2, (s.y2 - s.height) / 2, s.width, s.height⟩

/-- `ncc_update` (`docs/tutorials/matlab/ncc_tracker.m` 81–116). An error: `normxcorr2` with an empty template (line 99), or the first element of an empty array (lines 108–109), if there is no place to compare. -/
def update (p : Picture) (s : State) : Option (Rect × State) :=
  let x1 := max 1 (roundHalf (s.x2 - s.window))
  let y1 := max 1 (roundHalf (s.y2 - s.window))
  let x2 := min (p.width - 2) (roundHalf (s.x2 + s.window))
  let y2 := min (p.height - 2) (roundHalf (s.y2 + s.window))
  let regionWidth := max (x2 - x1 + 1) 0
  let regionHeight := max (y2 - y1 + 1) 0
  if regionWidth < s.templateWidth ∨ regionHeight < s.templateHeight then some (location s, s)
  else if s.templateWidth = 0 ∨ s.templateHeight = 0 then none
  else
    let padX := s.templateWidth - 1
    let padY := s.templateHeight - 1
    let centerX := regionWidth - padX - 1
    let centerY := regionHeight - padY - 1
    if centerX < 1 ∨ centerY < 1 then none
    else
      let m := p.find x1 y1 centerX centerY
      let s' := { s with x2 := 2 * (x1 + padX + m.1) - s.width, y2 := 2 * (y1 + padY + m.2) - s.height }
      some (location s', s')

/-- The loop (`docs/tutorials/matlab/ncc_tracker.m` 27–41): the rows of `output`. -/
def follow (pictures : Str → Option Picture) : List Str → State → Option (List (List Int))
  | [], _ => some []
  | i :: rest, s =>
    (pictures i).bind fun p => (update p s).bind fun (r, s) => (follow pictures rest s).map ([r.x, r.y, r.width, r.height] :: ·)

/-- `ncc_tracker` (`docs/tutorials/matlab/ncc_tracker.m` 14–43): the rows of the result for a list of images and a region. A row has four numbers (lines 24–25). -/
def tracker (pictures : Str → Option Picture) (images : List Str) (region : List Int) : Option (List (List Int)) :=
  match images with
  | [] => none
  | first :: rest =>
    (pictures first).bind fun p => (box region).bind fun r => if region.length = 4 then (follow pictures rest (start p r)).map (region :: ·) else none

end Trax.NccMatlab
