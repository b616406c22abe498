import Verif.Model.RegionApi

/-!
# Saving and loading trajectories (`support/client/client.cpp` 943–986, `src/traxpp.cpp` 967–1027)

A trajectory is a list of C++ `Region` objects; the wrapper is modelled elsewhere, here a region is
`none` when the object holds no region. Files are their contents: opening, reading and writing them
succeed.
-/

namespace Trax

/-- `operator<<` (`src/traxpp.cpp` 967–982): the text of the region, if there is one, and a line end. -/
def writeRegion : Option Region → Outcome Str
  | none => .ok [ch%'\n']
  | some r => if Region.getType (some r) = 0 then .ok [ch%'\n'] else
      r.string.map fun t => t.getD [] ++ [ch%'\n']

/-- `save_trajectory` (`support/client/client.cpp` 972–986): the contents of the file. -/
def saveTrajectory : List (Option Region) → Outcome Str
  | [] => .ok []
  | r :: rs => (writeRegion r).bind fun t => (saveTrajectory rs).map fun ts => t ++ ts

/-- The loop of `operator>>` (`src/traxpp.cpp` 998–1022): the line, what is left of the stream, and
whether the end of the stream was met. -/
def readLine : Str → Str × Str × Bool
  | [] => ([], [], true)
  | c :: cs =>
    if c = ch%'\n' then ([], cs, false)
    else if c = ch%'\r' then ([], (match cs with | c' :: cs' => if c' = ch%'\n' then cs' else c' :: cs' | [] => []), false)
    else
      let r := readLine cs
      (c :: r.1, r.2)

/-- The loop of `load_trajectory` (`support/client/client.cpp` 952–965) with `operator>>` (`src/traxpp.cpp`
984–1027): the stream is not good any more when its end is met on an empty line. `fuel` bounds the number
of turns; running out of it counts as undefined behaviour. -/
def loadLoop : Nat → Str → Outcome (List (Option Region))
  | 0, _ => .ub
  | fuel + 1, input =>
    let r := readLine input
    (Region.decode (cstr r.1)).bind fun region =>
      if r.1 = [] ∧ r.2.2 = true then .ok [] else (loadLoop fuel r.2.1).map fun rs => region :: rs

/-- `load_trajectory` (`support/client/client.cpp` 943–970) for a file with the given contents; the
result is the list of the regions read, its length is the number returned. -/
def loadTrajectory (file : Str) : Outcome (List (Option Region)) := loadLoop (file.length + 1) file

end Trax
