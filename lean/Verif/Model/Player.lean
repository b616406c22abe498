import Verif.Model.Options
import Verif.Model.OpenCv
import Verif.Model.TrackerProcess
import Verif.Model.CliMain

/-!
# The program `traxplayer` (`support/client/player.cpp`)

From the command line to the exit status: the switches, the first frame of the video, the region that is chosen with the mouse, and
the loop that plays the video to the tracker. The video, the user, the operating system and the tracker are parameters. The
process of the tracker is the one of `Model/TrackerProcess`. What is drawn and printed is left out; drawing does not fail.
-/

namespace Trax.Player

open Trax.Opt (Event Start withArg maxInt unknownSwitch charInt Verbosity)

/-! ## The switches -/

/-- `CMD_OPTIONS` (`support/client/player.cpp` 190). -/
def playerLetters : Str := b!"hdV:G:t:p:e:xXg"

/-- The variables set by the switches (`support/client/player.cpp` 43–44 and 228–235). -/
structure PlaySettings where
  verbosity : Verbosity
  connection : Environ.Mode
  video : Str
  timeout : Int
  environment : Environ.EnvMap
  properties : Properties

/-- The values before the switches are read (`support/client/player.cpp` 43–44 and 228–235). -/
def PlaySettings.initial : PlaySettings where
  verbosity := .standard
  connection := .standard
  video := b!"input.avi"
  timeout := 30
  environment := []
  properties := Properties.create

/-- The switches other than `-h` and unknown ones (`support/client/player.cpp` 246–276). -/
def playerSwitch (c : PlaySettings) (e : Event) : Outcome (Option PlaySettings) :=
  if e.result = charInt ch%'d' then .ok (some { c with verbosity := .debug })
  else if e.result = charInt ch%'x' then .ok (some { c with connection := .explicit })
  else if e.result = charInt ch%'X' then .ok (some { c with connection := .sockets })
  else if e.result = charInt ch%'V' then withArg e fun v => some { c with video := v }
  else if e.result = charInt ch%'t' then withArg e fun v => some { c with timeout := maxInt 0 (Environ.atoi v) }
  else if e.result = charInt ch%'e' then
    withArg e fun v => match Environ.splitVar v with
      | none => some c
      | some (k, v) => some { c with environment := c.environment.set k v }
  else if e.result = charInt ch%'p' then
    withArg e fun v => match Environ.splitVar v with
      | none => some c
      | some (k, v) => some { c with properties := c.properties.set k v }
  else .ok none

/-- The loop over the switches and what comes after it (`support/client/player.cpp` 241–295). -/
def playerSwitches (operands : List Str) : List Event → PlaySettings → Outcome (Start PlaySettings)
  | [], c => if operands = [] then .ok (.help (-1)) else .ok (.go c (Environ.trackerCommand operands))
  | e :: es, c =>
    if e.result = charInt ch%'h' then .ok (.help 0)
    else (playerSwitch c e).bind fun
      | none => .ok (.error (unknownSwitch e.optopt))
      | some c => playerSwitches operands es c

/-- The start of `traxplayer` (`support/client/player.cpp` 223–295). -/
def playerStart (argv : List Str) : Outcome (Start PlaySettings) :=
  (Opt.options argv playerLetters).bind fun r => playerSwitches (argv.drop r.2) r.1 .initial

/-! ## The choice of a region -/

/-- What the mouse does, as the window reports it. All other events are `moved`. -/
inductive Mouse where
  | down (x y : Int)
  | up (x y : Int)
  | moved (x y : Int)
  deriving DecidableEq, Repr

/-- `RegionCapture` (`support/client/player.cpp` 76–81). -/
structure Capture where
  dragging : Bool
  start : Int × Int
  current : Int × Int
  region : Option Region

/-- `RegionCapture rc; rc.dragging = false;` (`support/client/player.cpp` 105–106). The constructor of `Point` sets zeros, the one
of `Region` makes an empty region. -/
def Capture.initial : Capture := ⟨false, (0, 0), (0, 0), none⟩

/-- `on_mouse` (`support/client/player.cpp` 83–101). The integers are converted to `float`. -/
def onMouse (rc : Capture) (event : Mouse) : Capture :=
  let (point, rc) : (Int × Int) × Capture := match event with
    | .down x y => ((x, y), { rc with dragging := true, start := (x, y) })
    | .up x y =>
      ((x, y), { rc with
        dragging := false,
        region := some (Region.createRectangle (.ofInt rc.start.1) (.ofInt rc.start.2) (.ofInt (x - rc.start.1)) (.ofInt (y - rc.start.2))) })
    | .moved x y => ((x, y), rc)
  if rc.dragging then { rc with current := point } else rc

/-- One turn of the loop of `get_region_interactive`: the events of the mouse that `waitKey(25)` passes to `on_mouse`, and its
result. -/
structure Round where
  mouse : List Mouse
  key : Int

/-- `(char) i` (`support/client/player.cpp` 132). -/
def keyByte (i : Int) : Byte := UInt8.ofNat (i.emod 256).toNat

/-- The loop of `get_region_interactive` (`support/client/player.cpp` 115–143), with what the user does from now on. `none`: the loop has
not ended yet. -/
def choose : List Round → Capture → Option (Option Region)
  | [], _ => none
  | r :: rs, rc =>
    let rc := r.mouse.foldl onMouse rc
    if keyByte r.key = ch%'q' then choose rs { rc with region := none }
    else if keyByte r.key = ch%' ' then some rc.region
    else choose rs rc

/-- `get_region_interactive` (`support/client/player.cpp` 103–148). -/
def chooseRegion (rounds : List Round) : Option (Option Region) := choose rounds .initial

/-! ## The run -/

/-- Everything around the program: the video with its reader `κ` and its pictures `μ`, the user, and the process `σ`. -/
structure Around (κ μ σ : Type) where
  /-- `VideoCapture reader(video_file)` -/
  video : Str → κ
  /-- `(int) reader.get(CAP_PROP_FRAME_COUNT)` -/
  length : κ → Int
  /-- `(int) reader.get(CAP_PROP_POS_FRAMES)` -/
  position : κ → Int
  /-- `reader.read(image)` -/
  read : κ → μ × κ
  /-- `image.empty()` -/
  empty : μ → Bool
  /-- `Mat cvimage` -/
  noPicture : μ
  /-- what the user does when asked the `n`th time -/
  user : Nat → List Round
  /-- `imencode(".jpg", …)` -/
  jpeg : μ → List UInt8
  /-- `mat_to_image`: `none` for an exception -/
  memory : μ → Outcome (Option Image)
  /-- the constructor of `TrackerProcess`: `none` for an exception -/
  start : Str → Environ.EnvMap → Int → Environ.Mode → Verbosity → Option σ
  /-- the process -/
  world : Proc.World σ
  /-- the image formats of the tracker's metadata -/
  formats : σ → Nat
  /-- the arguments of the next call -/
  tell : Image → Option (Option Region × Properties) → σ → σ
  /-- how often the watchdog takes a turn while the user is asked the `n`th time -/
  turns : Nat → Nat

/-- How far the program has come. -/
inductive Ended (σ : Type) where
  /-- `exit(result)`, the message of a `runtime_error`, and the tracker process, if there is one -/
  | exit (status : Int) (message : Option Str) (tracker : Option (Proc.State σ))
  /-- the user has not confirmed a region yet -/
  | asking (tracker : Proc.State σ)
  /-- the loop goes on longer than `fuel` turns -/
  | playing

variable {κ μ σ : Type}

/-- The loop of `read_frame` (`support/client/player.cpp` 157–160): `n` is `frame + 1 - current`. -/
def skip (E : Around κ μ σ) : Nat → κ → μ → μ × κ
  | 0, reader, image => (image, reader)
  | n + 1, reader, _ => let r := E.read reader; skip E n r.2 r.1

/-- `read_frame` (`support/client/player.cpp` 151–164): the result, the picture and the reader. -/
def readFrame (E : Around κ μ σ) (reader : κ) (frame : Int) (image : μ) : Bool × μ × κ :=
  let current := E.position reader
  if frame < current then (false, image, reader)
  else
    let r := skip E (frame + 1 - current).toNat reader image
    (!E.empty r.1, r.1, r.2)

/-- `convert_image` (`support/client/player.cpp` 59–74). `&buffer[0]` of an empty vector is undefined. -/
def convertImage (E : Around κ μ σ) (sensor : μ) (formats : Nat) : Outcome (Option Image) :=
  if formats &&& 8 ≠ 0 then
    let buffer := E.jpeg sensor
    if buffer = [] then .ub else (Image.createBuffer buffer).map some
  else if formats &&& 4 ≠ 0 then E.memory sensor
  else .ok none

/-- Turns of the watchdog between the calls. -/
def idle (W : Proc.World σ) : Nat → Proc.State σ → Outcome (Proc.State σ)
  | 0, s => .ok s
  | n + 1, s => (Proc.watchdogTurn W s).bind (idle W n)

/-- The `catch` and the end (`support/client/player.cpp` 386–393). -/
def failed (message : Str) (s : Proc.State σ) : Outcome (Ended σ) := .ok (.exit (-1) (some message) (some s))

/-- How the inner loop ends: by `break` or because of its condition, with the values of the variables; or together with the program. -/
inductive Played (κ μ σ : Type) where
  | next (frame : Int) (reader : κ) (image : μ) (tracker : Proc.State σ)
  | ended (e : Ended σ)

/-- The inner loop (`support/client/player.cpp` 340–380). `limit` tells whether there is a timeout. -/
def play (E : Around κ μ σ) (limit : Bool) (length : Int) (formats : Nat) : Nat → Int → κ → μ → Proc.State σ → Outcome (Played κ μ σ)
  | 0, _, _, _, _ => .ok (.ended .playing)
  | fuel + 1, frame, reader, image, s =>
    if frame < length then
      (Proc.step E.world limit s .wait).bind fun (r, s) =>
      match r with
      | .thrown => (failed b!"Tracker not initialized yet." s).map .ended
      | .value false =>
        (Proc.ready E.world s).bind fun (b, s) =>
        if b then .ok (.next frame reader image s)
        else (failed b!"Unable to contact tracker." s).map .ended
      | .value true =>
        match readFrame E reader (frame + 1) image with
        | (false, image, reader) => .ok (.next (frame + 1) reader image s)
        | (true, image, reader) =>
          (convertImage E image formats).bind fun
          | none => (failed b!"No supported image format allowed" s).map .ended
          | some converted =>
            (Proc.step E.world limit { s with world := E.tell converted none s.world } .frame).bind fun (r, s) =>
            match r with
            | .value true => play E limit length formats fuel (frame + 1) reader image s
            | .value false => (failed b!"Unable to send new frame." s).map .ended
            | .thrown => (failed b!"Tracker not initialized yet." s).map .ended
    else .ok (.next frame reader image s)

/-- The outer loop (`support/client/player.cpp` 310–382). `n` counts how often the user was asked. -/
def rounds (E : Around κ μ σ) (c : PlaySettings) (length : Int) :
    Nat → Nat → Int → κ → μ → Proc.State σ → Outcome (Ended σ)
  | 0, _, _, _, _, _ => .ok .playing
  | fuel + 1, n, frame, reader, image, s =>
    match readFrame E reader frame image with
    | (false, _, _) => .ok (.exit 0 none (some s))
    | (true, image, reader) =>
      (idle E.world (E.turns n) s).bind fun s =>
      match chooseRegion (E.user n) with
      | none => .ok (.asking s)
      | some region =>
        if Region.getType region = 0 then .ok (.exit 0 none (some s))
        else
          (Proc.ready E.world s).bind fun (b, s) =>
          if !b then failed b!"Tracker process not alive anymore." s
          else
            (Proc.ready E.world s).bind fun (b, s) =>
            if !b then failed b!"Tracker not initialized yet." s
            else
              (convertImage E image (E.formats s.world)).bind fun
              | none => failed b!"No supported image format allowed" s
              | some converted =>
                let formats := E.formats s.world
                (Proc.step E.world (decide (0 < c.timeout)) { s with world := E.tell converted (some (region, c.properties)) s.world } .init).bind fun (r, s) =>
                match r with
                | .thrown => failed b!"Unable to initialize tracker." s
                | .value false => failed b!"Unable to initialize tracker." s
                | .value true =>
                  (play E (decide (0 < c.timeout)) length formats fuel frame reader image s).bind fun
                  | .ended e => .ok e
                  | .next frame reader image s => rounds E c length fuel (n + 1) frame reader image s

/-- `main` (`support/client/player.cpp` 223–395). `fuel` bounds the turns of the loops. -/
def playerMain (E : Around κ μ σ) (fuel : Nat) (argv : List Str) : Outcome (Ended σ) :=
  (playerStart argv).bind fun
    | .help code => .ok (.exit code none none)
    | .error message => .ok (.exit (-1) (some message) none)
    | .go c command =>
      let reader := E.video c.video
      match E.start command c.environment c.timeout c.connection c.verbosity with
      | none => .ok (.exit (-1) (some b!"Unable to configure TCP server socket.") none)
      | some w => rounds E c (E.length reader) fuel 0 0 reader E.noPicture (.fresh w)

end Trax.Player
