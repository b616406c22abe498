import Verif.Model.Environment

/-!
# The tracker of the tutorial before its integration (`docs/tutorials/tracker/ncc.cpp`)

The program reads its sequence from files and writes its result to a file. (With the integration, which is in a comment of the file, it is a loop as in `Model/LoopTracker`.) Simplifications: the search for the template
(`NCCTracker::update`) is a parameter; the values of pixels are left out; files are read without errors of the operating system; the texts on the standard output and the standard error are left out.
-/

namespace Trax.Ncc

/-- `cv::Rect`. -/
structure Rect where
  x : Int
  y : Int
  width : Int
  height : Int
  deriving DecidableEq, Repr

/-- A file that is read (`std::ifstream`): what is left, and whether the last read did not come to the end. -/
structure Input where
  rest : Str
  good : Bool
  deriving DecidableEq, Repr

/-- `std::getline(ifs, token, delim)` (C++ standard library): nothing happens, also to the string, if the end was found before. (`docs/tutorials/tracker/ncc.cpp` 163, 165, 167, 169, 189.) -/
def getline (delim : UInt8) (f : Input) (token : Str) : Str × Input :=
  if f.good then
    if delim ∈ f.rest then (f.rest.takeWhile (· ≠ delim), ⟨(f.rest.dropWhile (· ≠ delim)).drop 1, true⟩) else (f.rest, ⟨[], false⟩)
  else (token, f)

/-- `readrectangle` (`docs/tutorials/tracker/ncc.cpp` 152–173) for a file with this text. -/
def readRectangle (file : Str) : Rect :=
  match getline ch%',' ⟨file, true⟩ [] with
  | (a, f) =>
    match getline ch%',' f a with
    | (b, f) =>
      match getline ch%',' f b with
      | (c, f) =>
        match getline ch%',' f c with
        | (d, _) => ⟨Environ.atoi (cstr a), Environ.atoi (cstr b), Environ.atoi (cstr c), Environ.atoi (cstr d)⟩

/-- The loop of `readsequence` (`docs/tutorials/tracker/ncc.cpp` 188–193): `none` if it has not come to its end after the given number of turns. -/
def readLoop : Nat → Input → Str → Option (List Str)
  | 0, _, _ => none
  | turns + 1, f, path =>
    match getline ch%'\n' f path with
    | (path, f) => if path = [] then some [] else (readLoop turns f path).map (path :: ·)

/-- `readsequence` (`docs/tutorials/tracker/ncc.cpp` 177–196) for a file with this text. -/
def readSequence (turns : Nat) (file : Str) : Option (List Str) := readLoop turns ⟨file, true⟩ []

/-- `writerectangles` (`docs/tutorials/tracker/ncc.cpp` 199–212): the text in the file. -/
def writeRectangles (rects : List Rect) : Str :=
  rects.flatMap fun r => fmtInt r.x ++ b!"," ++ fmtInt r.y ++ b!"," ++ fmtInt r.width ++ b!"," ++ fmtInt r.height ++ b!"\n"

/-- The part of the image that becomes the template (`docs/tutorials/tracker/ncc.cpp` 66–74) for an image with the given size: `none` for the exception of OpenCV that says that the part is not inside of the image. -/
def cut (r : Rect) (cols rows : Int) : Option Rect :=
  let left := max r.x 0
  let top := max r.y 0
  let right := min (r.x + r.width) (cols - 1)
  let bottom := min (r.y + r.height) (rows - 1)
  let roi : Rect := ⟨left, top, right - left, bottom - top⟩
  if 0 ≤ roi.x ∧ 0 ≤ roi.width ∧ roi.x + roi.width ≤ cols ∧ 0 ≤ roi.y ∧ 0 ≤ roi.height ∧ roi.y + roi.height ≤ rows then some roi else none

/-- `NCCTracker` (`docs/tutorials/tracker/ncc.cpp` 54–146), with `none` for an exception. -/
structure Tracker (τ : Type) where
  init : Str → Rect → Option τ
  update : τ → Str → Option (Rect × τ)

/-- How the program ends: with `exit(-1)`, in an undefined way, with an exception that is not caught, or with a result. -/
inductive Ending where
  | failed
  | undefined
  | thrown
  | written (text : Str)
  deriving DecidableEq, Repr

/-- The loop of `main` (`docs/tutorials/tracker/ncc.cpp` 235–240): `none` for an exception. -/
def follow {τ : Type} (T : Tracker τ) : List Str → τ → Option (List Rect)
  | [], _ => some []
  | i :: rest, t => (T.update t i).bind fun (r, t) => (follow T rest t).map (r :: ·)

/-- `main` (`docs/tutorials/tracker/ncc.cpp` 218–245): `none` if it is still reading the list of the images after the given number of turns. -/
def main {τ : Type} (turns : Nat) (read : Str → Option Str) (writable : Bool) (T : Tracker τ) : Option Ending :=
  match read b!"images.txt" with
  | none => some .failed
  | some file =>
    (readSequence turns file).map fun images =>
      match read b!"region.txt" with
      | none => .failed
      | some region =>
        match images with
        | [] => .undefined
        | first :: rest =>
          match T.init first (readRectangle region) with
          | none => .thrown
          | some t =>
            match follow T rest t with
            | none => .thrown
            | some found => if writable then .written (writeRectangles (readRectangle region :: found)) else .failed

end Trax.Ncc
