import Verif.Model.Runner
import Verif.Model.CliImages
import Verif.Model.Trajectory
import Verif.Model.Options

/-!
# The program `traxclient` (`support/client/cli.cpp` 435–775)

From the command line to the exit status and the files: the switches (`Model/Options`), the environment variables, the files that are
read, the run over the sequence (`Model/Runner`) and the files that are written. The tracker process, the files and the
measured times are parameters. The help text, the error messages and what the switch `-d` prints are left out.
-/

namespace Trax.Cli

/-- What `main` reads from the metadata of the tracker; a text that is missing is empty (`src/traxpp.cpp` 147–187). -/
structure About where
  name : Str
  description : Str
  family : Str
  formats : Nat
  channels : Nat
  deriving DecidableEq, Repr

/-- A tracker process, as `main` sees it: the methods of `TrackerProcess` (`support/client/client.cpp` 548–941). A Boolean
result is `false` when the call throws an exception, and where `main` throws one itself when the result is `false`. -/
structure Process (σ : Type) where
  /-- `tracker.query()`: `none` for an exception -/
  query : σ → Option Bool × σ
  /-- `tracker.ready()` -/
  ready : σ → Bool × σ
  /-- `tracker.metadata()`: `none` for an exception -/
  metadata : σ → Option About × σ
  /-- `tracker.initialize(image, initialize, properties)` -/
  setup : FrameImages → Option Region → Properties → σ → Bool × σ
  /-- `tracker.wait(status, additional)` -/
  wait : σ → Answer × σ
  /-- `tracker.frame(image, no_properties)` -/
  frame : FrameImages → σ → Bool × σ
  /-- `tracker.reset()` -/
  reset : σ → Bool × σ

/-- What is around the program. -/
structure World (σ : Type) where
  /-- `getenv` -/
  getenv : Str → Option Str
  /-- the content of a file, `none` if it cannot be opened -/
  read : Str → Option Str
  /-- whether a file can be opened for writing -/
  writable : Str → Bool
  /-- the content of fresh memory -/
  fresh : Nat → List UInt8
  /-- the text of the time measured for a frame -/
  clock : Nat → Str
  /-- the constructor of `TrackerProcess`: `none` for an exception -/
  start : Str → Environ.EnvMap → Int → Environ.Mode → Opt.Verbosity → Option σ
  process : Process σ

/-- How the program ends: the argument of `exit`, the files written, in order, what is printed, and the tracker process at the end of the run. -/
structure Ended (σ : Type) where
  status : Int
  written : List (Str × Str) := []
  printed : Str := []
  tracker : Option σ := none

/-- The variables of the tracking mode that the calls on the tracker use: `metadata`, the outer variable `image`, and the
images loaded last, which are in the inner variable of the same name after the first frame (`support/client/cli.cpp` 640–643, 713). -/
structure Session (σ : Type) where
  process : σ
  about : About
  image : FrameImages
  loaded : FrameImages

/-- A switch given by an environment variable (`support/client/cli.cpp` 540–551): `strcmpi(getenv(…), "true") == 0`. -/
def switchedOn (v : Option Str) : Bool :=
  match v with
  | none => false
  | some v => eqNoCase v b!"true"

/-- The line that is printed for an environment variable that is set (`support/client/cli.cpp` 541, 548). -/
def announce (name : Str) (v : Option Str) : Str :=
  match v with
  | none => []
  | some v => name ++ b!": " ++ v ++ b!" \n"

/-- The bounds for the overlap (`support/client/cli.cpp` 668–674): `image` is the outer variable. -/
def overlapBounds (read : Str → Option Str) (bounded : Bool) (image : FrameImages) : Outcome Bounds :=
  if bounded then
    (imagesGetSize read image).map fun is =>
      { left := .ofInt 0, top := .ofInt 0, right := .ofInt is.width, bottom := .ofInt is.height }
  else .ok Bounds.none

variable {σ : Type}

/-- The calls of the tracking mode on the tracker (`support/client/cli.cpp` 634–756), for the images and regions of the sequence. The exception
of `load_image` for a file that cannot be read is not caught and ends the program. -/
def sequenceTracker (W : World σ) (c : Opt.Settings) (images : List (List Str)) (groundtruth initialization : List (Option Region)) :
    Tracker (Session σ) where
  ready s := let r := W.process.ready s.process; (r.1, { s with process := r.2 })
  metadata s :=
    match W.process.metadata s.process with
    | (none, p) => (false, { s with process := p })
    | (some a, p) => (true, { s with process := p, about := a })
  load f s :=
    (frameImages W.read (images.getD f []) s.about.formats s.about.channels).bind fun
      | .error .noFormat => .ok (false, s)
      | .error .noFile => .abort
      | .ok l => .ok (true, { s with loaded := l })
  init f s :=
    let r := W.process.setup s.loaded (initialization[f]?.join) c.properties s.process
    (r.1, { s with process := r.2, image := s.loaded })
  wait s := let r := W.process.wait s.process; (r.1, { s with process := r.2 })
  frame _ s := let r := W.process.frame s.loaded s.process; (r.1, { s with process := r.2 })
  restart s :=
    match W.process.reset s.process with
    | (false, p) => (false, { s with process := p })
    | (true, p) =>
      match W.process.query p with
      | (none, p) => (false, { s with process := p })
      | (some _, p) => (true, { s with process := p })
  overlap f status s :=
    (overlapBounds W.read (switchedOn (W.getenv b!"TRAX_BOUNDED_OVERLAP")) s.image).bind fun bounds =>
      Region.apiOverlap (switchedOn (W.getenv b!"TRAX_REGION_LEGACY")) W.fresh (groundtruth[f]?.join) status bounds

/-- `load_trajectory` (`support/client/client.cpp` 943–970) on a file that may not exist. -/
def loadFile (read : Str → Option Str) (name : Str) : Outcome (List (Option Region)) :=
  match read name with
  | none => .ok []
  | some text => loadTrajectory text

/-- Write a file, if it can be opened (`support/client/client.cpp` 972–986, `support/client/cli.cpp` 336–350). -/
def writeFile (W : World σ) (name text : Str) (written : List (Str × Str)) : List (Str × Str) :=
  if W.writable name then written ++ [(name, text)] else written

/-- `save_timings` (`support/client/cli.cpp` 336–350): the content of the file. -/
def saveTimings (W : World σ) : List (Option Nat) → Str
  | [] => []
  | none :: ts => b!"0\n" ++ saveTimings W ts
  | some f :: ts => W.clock f ++ b!"\n" ++ saveTimings W ts

/-- The files at the end of the tracking mode (`support/client/cli.cpp` 759–763). -/
def saveResults (W : World σ) (c : Opt.Settings) (output : List (Option Region)) (timings : List (Option Nat)) : Outcome (List (Str × Str)) :=
  (if 0 < output.length then (saveTrajectory output).map fun text => writeFile W c.output text [] else .ok []).map fun written =>
    if 0 < timings.length ∧ 0 < c.timing.length then writeFile W c.timing (saveTimings W timings) written else written

/-- What the environment variables print (`support/client/cli.cpp` 540–551). -/
def announced (W : World σ) : Str :=
  announce b!"TRAX_BOUNDED_OVERLAP" (W.getenv b!"TRAX_BOUNDED_OVERLAP") ++ announce b!"TRAX_REGION_LEGACY" (W.getenv b!"TRAX_REGION_LEGACY")

/-- The end after a `runtime_error` (`support/client/cli.cpp` 767–774). -/
def failed (W : World σ) : Ended σ := { status := -1, printed := announced W }

/-- The query mode (`support/client/cli.cpp` 561–580). -/
def queryMode (W : World σ) (c : Opt.Settings) (command : Str) : Ended σ :=
  match W.start command c.environment c.timeout c.connection c.verbosity with
  | none => failed W
  | some t =>
    match W.process.query t with
    | (none, _) => failed W
    | (some false, t) => { status := -1, printed := announced W, tracker := some t }
    | (some true, t) =>
      match W.process.metadata t with
      | (none, _) => failed W
      | (some a, t) =>
        { status := 0, tracker := some t,
          printed := announced W ++ b!"Tracker name: " ++ a.name ++ b!"\n" ++ b!"Tracker description: " ++ a.description ++ b!"\n" ++
            b!"Tracker family: " ++ a.family ++ b!"\n" }

/-- The tracking mode (`support/client/cli.cpp` 582–765). -/
def trackingMode (W : World σ) (c : Opt.Settings) (command : Str) : Outcome (Ended σ) :=
  match W.read c.images with
  | none => .ok (failed W)
  | some text =>
    (loadFile W.read c.groundtruth).bind fun groundtruth =>
    let (images, groundtruth) := truncate (readImages text) groundtruth
    (if c.initialization ≠ [] then loadFile W.read c.initialization else .ok groundtruth).bind fun initialization =>
    match W.start command c.environment c.timeout c.connection c.verbosity with
    | none => .ok (failed W)
    | some t =>
      match W.process.query t with
      | (none, _) => .ok (failed W)
      | (some _, t) =>
        (run (sequenceTracker W c images groundtruth initialization)
            { frames := images.length, initialization, threshold := c.threshold, reinitialize := c.reinitialize.toNat }
            { process := t, about := ⟨[], [], [], 0, 0⟩, image := {}, loaded := {} }).bind fun
          | none => .ok (failed W)
          | some s =>
            (saveResults W c s.output s.timings).map fun written =>
              { status := 0, written, printed := announced W, tracker := some s.tracker.process }

/-- `main` (`support/client/cli.cpp` 435–775). -/
def cliMain (W : World σ) (argv : List Str) : Outcome (Ended σ) :=
  (Opt.cliStart argv).bind fun
    | .help code => .ok { status := code }
    | .error _ => .ok { status := -1 }
    | .go c command => if c.query then .ok (queryMode W c command) else trackingMode W c command

end Trax.Cli
