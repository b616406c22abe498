import Verif.Model.Endpoint
import Verif.Model.OpenCv
import Verif.Model.TrackerLink

/-!
# The trackers of the OpenCV module (`support/opencv/interactive.cpp`, `support/opencv/camshift.cpp`)

Two programs that use the class `Server` (that is `ServerMOT`) and OpenCV: in the first one the user is the tracker, the second one tracks with
the function `CamShift` of OpenCV. OpenCV, its window and the user are parameters. A C++ exception is not caught by the programs: it ends them like
a failed assertion. What is drawn is left out; drawing into a matrix does nothing if the matrix is empty, but `cv::imshow` throws.
-/

namespace Trax.Cv

open Handle

/-- `trax::Configuration config(…, …)` (`support/opencv/interactive.cpp` 71, `support/opencv/camshift.cpp` 62; `include/trax.h` 745–747, 785;
`src/traxpp.cpp` 123–133): the first argument, with flags of images, is the argument for the regions, the second one, with a flag of
regions, is the one for the images. The other arguments are the default ones. -/
def metadata : Outcome Metadata := Metadata.create (1 ||| 4 ||| 8) 2 1 none none none 0

/-- `trax::Server handle(config, trax_no_log)` (`support/opencv/interactive.cpp` 72, `support/opencv/camshift.cpp` 65; `src/traxpp.cpp` 424–428). -/
def server (junk : UInt32) (stream : Stream) : Outcome Handle := metadata.bind fun m => Handle.serverSetup junk m stream 0

/-- What the programs use of OpenCV to read images (`cv::imread` and `cv::imdecode`, see `Ocv.imageToMat`). -/
structure Reader where
  imread : Str → Ocv.Mat
  imdecode : List UInt8 → Ocv.Mat

/-- `trax::image_to_mat(img.get(TRAX_CHANNEL_COLOR))` (`support/opencv/interactive.cpp` 91, 95, `support/opencv/camshift.cpp` 122). A list without an
image for the channel does not come from a tracker that declares it. -/
def frameOf (cv : Reader) : Option ImageList → Outcome Ocv.Mat
  | some (some image :: _) => (Ocv.imageToMat cv.imread cv.imdecode image).bind fun
    | none => .abort
    | some mat => .ok mat
  | _ => .ub

/-- `cv::Mat::empty`. -/
def isEmpty (mat : Ocv.Mat) : Bool := mat.rows == 0 || mat.cols == 0

/-- How a turn of a loop ends: the loop goes on, or it is left, and the program ends. -/
inductive Next (α : Type) where
  | go (p : α)
  | stop (h : Handle)

/-! ## The interactive tracker -/

/-- The variables of `main` that live longer than a turn (`support/opencv/interactive.cpp` 68–77). -/
structure Interactive where
  handle : Handle
  region : Option Region
  rectangle : Ocv.Rect

/-- Before the loop (`support/opencv/interactive.cpp` 66–79). The constructor of `cv::Rect` sets zeros. -/
def interactiveBegin (junk : UInt32) (stream : Stream) : Outcome Interactive :=
  (server junk stream).map fun h => ⟨h, none, ⟨0, 0, 0, 0⟩⟩

/-- `on_mouse` (`support/opencv/interactive.cpp` 51–64) for a press of the left button: the variable `wait` and the rectangle. Of other events nothing
happens. -/
def onClick (s : Bool × Ocv.Rect) (x y : Int) : Bool × Ocv.Rect :=
  if s.1 then (false, { s.2 with x := x - s.2.width.tdiv 2, y := y - s.2.height.tdiv 2 }) else s

/-- One call of `cv::waitKey(30)`: the presses of the left button that it passes to `on_mouse`, and its result. -/
structure Moment where
  clicks : List (Int × Int)
  key : Int

/-- `wait = true; while (wait) …` (`support/opencv/interactive.cpp` 107–116): the rectangle, and the variable `run`. `none`: the user
has not done anything that ends the loop yet. -/
def watch : List Moment → Ocv.Rect → Option (Ocv.Rect × Bool)
  | [], _ => none
  | m :: ms, rect =>
    let s := m.clicks.foldl (fun s c => onClick s c.1 c.2) (true, rect)
    if m.key > -1 then some (s.2, false) else if ¬ s.1 then some (s.2, true) else watch ms s.2

/-- A turn of the loop (`support/opencv/interactive.cpp` 81–121). `none`: the call `wait` has not ended after `fuel` messages, or the user has not done
anything yet. -/
def interactiveTurn (env : Env) (cv : Reader) (fuel : Nat) (user : List Moment) (p : Interactive) : Option (Outcome (Next Interactive)) :=
  match Cpp.serverWaitRegion env fuel (some p.handle) p.region Properties.create with
  | none => none
  | some .abort => some .abort
  | some .ub => some .ub
  | some (.ok w) =>
    let h := w.handle.getD p.handle
    if w.ret ≠ TRAX_INITIALIZE ∧ w.ret ≠ TRAX_FRAME then some (.ok (.stop h))
    else
      match if w.ret = TRAX_INITIALIZE then Ocv.regionToRect env.legacy env.fresh w.region else .ok p.rectangle with
      | .abort => some .abort
      | .ub => some .ub
      | .ok rect =>
        match frameOf cv w.images with
        | .abort => some .abort
        | .ub => some .ub
        | .ok frame =>
          if isEmpty frame then some .abort
          else
            (watch user rect).map fun (rect, run) =>
              (Cpp.serverReplyRegion env (some h) (some (Ocv.rectToRegion rect)) (some Properties.create)).map fun r =>
                let h := r.2.1.getD h
                if run then .go ⟨h, w.region, rect⟩ else .stop h

/-! ## The tracker with `CamShift` -/

/-- The variables `vmin`, `vmax` and `smin` (`support/opencv/camshift.cpp` 57). -/
structure Levels where
  vmin : Int
  vmax : Int
  smin : Int

/-- What the program computes with OpenCV (`support/opencv/camshift.cpp` 127–168): with the first image the histogram of the selection, `none`
for an exception, and with each image the next window. -/
structure Engine (η : Type) where
  learn : Ocv.Mat → Levels → Ocv.Rect → Option η
  shift : Ocv.Mat → Levels → η → Ocv.Rect → Ocv.Rect

/-- The variables (`support/opencv/camshift.cpp` 22, 54–57, 64–70). `model` is there when `track_object` is 1. -/
structure Camshift (η : Type) where
  handle : Handle
  region : Option Region
  levels : Levels
  model : Option (η × Ocv.Rect)

/-- Before the loop (`support/opencv/camshift.cpp` 59–70). -/
def camshiftBegin {η : Type} (junk : UInt32) (stream : Stream) : Outcome (Camshift η) :=
  (server junk stream).map fun h => ⟨h, none, ⟨10, 256, 30⟩, none⟩

/-- `rect.get(…)` and the assignments to `selection` (`support/opencv/camshift.cpp` 86–94; `src/traxpp.cpp` 870–874): the fractions are cut off. -/
def selectionOf : Option Region → Outcome Ocv.Rect
  | none => .ub
  | some r => (Region.getRectangle r).bind fun (x, y, w, h) =>
      x.toInt.bind fun x => y.toInt.bind fun y => w.toInt.bind fun w => h.toInt.map fun h => ⟨x, y, w, h⟩

/-- `prop.get("vmin", vmin)` and so on (`support/opencv/camshift.cpp` 99–101). -/
def levelsOf (l : Levels) (p : Properties) : Outcome Levels :=
  (p.getInt b!"vmin" l.vmin).bind fun vmin => (p.getInt b!"vmax" l.vmax).bind fun vmax => (p.getInt b!"smin" l.smin).map fun smin => ⟨vmin, vmax, smin⟩

/-- The end of a turn (`support/opencv/camshift.cpp` 120–178): the image, the window, and the reply with it. The first argument after the handle is the
selection if the tracker has just been initialized. -/
def camshiftTrack {η : Type} (env : Env) (cv : Reader) (E : Engine η) (p : Camshift η) (selection : Option Ocv.Rect) (images : Option ImageList) :
    Outcome (Next (Camshift η)) :=
  (frameOf cv images).bind fun frame =>
    if isEmpty frame then .ok (.stop p.handle)
    else
      let model := match selection with
        | some rect => (E.learn frame p.levels rect).map fun m => (m, rect)
        | none => p.model
      match model with
      | none => .abort
      | some (m, window) =>
        let window := E.shift frame p.levels m window
        (Cpp.serverReplyRegion env (some p.handle) (some (Ocv.rectToRegion window)) (some Properties.create)).map fun r =>
          .go { p with handle := r.2.1.getD p.handle, model := some (m, window) }

/-- A turn of the loop (`support/opencv/camshift.cpp` 72–180): an initialization is answered with the region that came with it, and once more at the end of
the turn. -/
def camshiftTurn {η : Type} (env : Env) (cv : Reader) (E : Engine η) (fuel : Nat) (p : Camshift η) : Option (Outcome (Next (Camshift η))) :=
  (Cpp.serverWaitRegion env fuel (some p.handle) p.region Properties.create).map fun o => o.bind fun w =>
    let h := w.handle.getD p.handle
    if w.ret = TRAX_INITIALIZE then
      (selectionOf w.region).bind fun selection => (levelsOf p.levels w.props).bind fun levels =>
        (Cpp.serverReplyRegion env (some h) w.region (some Properties.create)).bind fun r =>
          camshiftTrack env cv E ⟨r.2.1.getD h, w.region, levels, none⟩ (some selection) w.images
    else if w.ret = TRAX_FRAME then
      match p.model with
      | none => .ok (.stop h)
      | some _ => camshiftTrack env cv E { p with handle := h, region := w.region } none w.images
    else .ok (.stop h)

/-! ## Behind `traxclient` -/

/-- The interactive tracker as a process: one turn of its loop for each request. A program that has ended writes nothing. -/
def interactive (env : Env) (cv : Reader) (user : List Moment) (junk : UInt32) (stream : Stream) : Link.Peer (Option Interactive) where
  start := (interactiveBegin junk stream).map fun p => (some p, p.handle.stream.out.sent.drop stream.out.sent.length)
  respond text
    | none => .ok (none, [])
    | some p =>
      match interactiveTurn env cv (text.length + 3) user { p with handle := Link.reads p.handle text } with
      | none => .ub
      | some o => o.map fun
        | .go q => (some q, q.handle.stream.out.sent.drop p.handle.stream.out.sent.length)
        | .stop h => (none, (h.terminate none).2.stream.out.sent.drop p.handle.stream.out.sent.length)

end Trax.Cv
