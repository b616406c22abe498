import Verif.Model.Matlab
import Verif.Model.Endpoint
import Verif.Model.CppHandle
import Verif.Model.Environment

/-!
# Model of the MATLAB function `traxserver` (`support/matlab/traxserver.cpp`)

A call has a list of arguments and a number of results. The function keeps one `Server` object (a `ServerMOT`, because
`TRAX_LEGACY_SINGLE` is not defined) between its calls. `MEX_ERROR` ends a call at once. The branches for Windows are
not modelled. The stream that a new server opens is given with each call; an object that is overwritten by a
second `setup` is forgotten, but not closed.
-/

namespace Trax.Mex

/-- An argument: an array, a matrix of cells, a structure or a logical value. -/
inductive Arg where
  | mx (a : Mx)
  | cell (m n : Nat) (l : List Value)
  | struct (fields : List (Str × Value))
  | logical (b : Bool)
  deriving DecidableEq, Repr

/-- `get_string` (`support/matlab/helpers.cpp` 17–36); `none` is the error. Of something that is not a text it reads memory that is
not initialised. -/
def getString : Arg → Outcome (Option Str)
  | .mx (.text s) => .ok (some (cstr s))
  | .mx (.bytes _ dims _) => if dims.head? = some 1 then .ub else .ok none
  | .mx (.double m _ _) => if m = 1 then .ub else .ok none
  | .cell m _ _ => if m = 1 then .ub else .ok none
  | .mx (.file _ _) => .ub
  | .struct _ => .ub
  | .logical _ => .ub

/-- The texts in cells; `none` if there is something else in one of them. -/
def cellTexts : List Value → Option (List Str)
  | [] => some []
  | .text s :: l => (cellTexts l).map (cstr s :: ·)
  | .number _ :: _ => none

/-- `get_flags` (`support/matlab/helpers.cpp` 698–719) of an argument. Simplification: a cell without a text is undefined behaviour even if
an error would come first. -/
def flagsArg (parser : Str → Option UInt32) : Arg → Outcome (Option UInt32)
  | .cell m n l => match cellTexts l with
    | some ts => .ok (getFlags parser (.many m n ts))
    | none => .ub
  | a => (getString a).map fun s => s.bind fun s => getFlags parser (.one s)

/-- `mxGetScalar` of a number or a logical value; of other things it is not defined. -/
def scalar : Arg → Outcome Flt
  | .mx (.double _ _ (x :: _)) => .ok x
  | .logical b => .ok (if b then doubleOfInt 1 else doubleOfInt 0)
  | _ => .ub

/-- `is_property_name` (`support/matlab/helpers.cpp` 8–15). -/
def isPropertyName (s : Str) : Bool := s.all fun c => isAlpha c || isDigit c || c = ch%'.' || c = ch%'_'

/-- `get_argument_code` (`support/matlab/helpers.cpp` 569–631, `support/matlab/helpers.h` 27–39); `none` is the error. -/
def argumentCode (s : Str) : Option Int :=
  if lower s = b!"propstruct" then some 0
  else if lower s = b!"name" then some 1
  else if lower s = b!"description" then some 3
  else if lower s = b!"family" then some 2
  else if lower s = b!"debug" then some 4
  else if lower s = b!"timeout" then some 5
  else if lower s = b!"environment" then some 6
  else if lower s = b!"data" then some 7
  else if lower s = b!"connection" then some 8
  else if lower s = b!"directory" then some 9
  else if lower s = b!"log" then some 10
  else if lower s = b!"channels" then some 11
  else if isPropertyName (lower s) then some (-1)
  else none

/-- `prhs[i]`: beyond the arguments there is nothing. -/
def argAt (args : List Arg) (i : Nat) : Outcome Arg := match args[i]? with
  | some a => .ok a
  | none => .ub

/-- The end of the loops over named arguments (`support/matlab/traxserver.cpp` 57, 121), `std::floor((float)nrhs/2) * 2`. -/
def pairsEnd (nrhs : Nat) : Nat := nrhs / 2 * 2

/-- A text argument is read and used; an error of `get_string` ends the call. -/
def withText {α : Type} (args : List Arg) (i : Nat) (f : Str → Outcome (Option α)) : Outcome (Option α) :=
  (argAt args i).bind fun a => (getString a).bind fun s => match s with
    | none => .ok none
    | some s => f s

/-! ## `setup` -/

/-- The variables that the named arguments set (`support/matlab/traxserver.cpp` 49–53). -/
structure Declared where
  name : Str
  description : Str
  family : Str
  channels : UInt32
  custom : Environ.EnvMap
  deriving DecidableEq, Repr

/-- Their values at first (`support/matlab/traxserver.cpp` 49–53). -/
def Declared.initial : Declared := ⟨[], [], [], 1, []⟩

/-- One named argument (`support/matlab/traxserver.cpp` 58–75). -/
def setupPair (args : List Arg) (i : Nat) (d : Declared) : Outcome (Option Declared) :=
  withText args i fun key =>
    match argumentCode key with
    | none => .ok none
    | some code =>
      if code = 1 then withText args (i + 1) fun s => .ok (some { d with name := s })
      else if code = 3 then withText args (i + 1) fun s => .ok (some { d with description := s })
      else if code = 2 then withText args (i + 1) fun s => .ok (some { d with family := s })
      else if code = 11 then (argAt args (i + 1)).bind fun a => (flagsArg channelCode a).map fun c => c.map fun c => { d with channels := c }
      else if code = -1 then
        if b!"trax.".isPrefixOf key then .ok none
        else withText args (i + 1) fun s => .ok (some { d with custom := d.custom.set key s })
      else .ok none

/-- The loop over the named arguments (`support/matlab/traxserver.cpp` 57–76), at most `n` times. -/
def setupLoop (args : List Arg) : Nat → Nat → Declared → Outcome (Option Declared)
  | 0, _, d => .ok (some d)
  | n + 1, i, d =>
    if i < pairsEnd args.length then
      (setupPair args i d).bind fun r => match r with
        | none => .ok none
        | some d => setupLoop args n (i + 2) d
    else .ok (some d)

/-- What a call gives. -/
inductive Out where
  | images (l : Cells Mx)
  | region (a : Mx)
  | struct (fields : List (Str × Value))
  | cell (m n : Nat) (l : List Value)
  | empty
  | logical (b : Bool)
  deriving Repr

/-- The end of a call: an error, or the results. -/
inductive Result where
  | error
  | values (l : List Out)
  deriving Repr

/-- The server object between calls, and what the ones that were deleted have written. -/
structure State where
  handle : Option Handle
  closed : List Writer

/-- `delete handle` (`support/matlab/traxserver.cpp` 162–163, 208–209, `src/traxpp.cpp` 235–241). -/
def State.delete (st : State) : State :=
  match st.handle with
  | none => st
  | some h => ⟨none, st.closed ++ [h.cleanup.2]⟩

/-- The operation `setup` (`support/matlab/traxserver.cpp` 43–111). -/
def setup (junk : UInt32) (stream : Stream) (nlhs : Nat) (args : List Arg) (st : State) : Outcome (Result × State) :=
  if args.length < 3 then .ok (.error, st)
  else if nlhs > 1 then .ok (.error, st)
  else
    (if args.length > 3 then setupLoop args args.length 3 .initial else .ok (some .initial)).bind fun d =>
      match d with
      | none => .ok (.error, st)
      | some d =>
        (argAt args 1).bind fun a => (flagsArg regionCode a).bind fun regions => match regions with
          | none => .ok (.error, st)
          | some regions =>
            (argAt args 2).bind fun a => (flagsArg imageCode a).bind fun images => match images with
              | none => .ok (.error, st)
              | some images =>
                (Cpp.declare ⟨regions, images, d.channels, d.name, d.description, d.family, 0⟩ d.custom).bind fun m =>
                  (Cpp.constructServer true junk m stream).bind fun h =>
                    let st := { st with handle := some h }
                    if ¬ h.isAlive then .ok (.error, st)
                    else .ok (.values (if nlhs = 1 then [.logical true] else []), st)

/-! ## `wait` -/

/-- The loop over the named arguments (`support/matlab/traxserver.cpp` 121–128), at most `n` times. -/
def waitLoop (args : List Arg) : Nat → Nat → Bool → Outcome (Option Bool)
  | 0, _, p => .ok (some p)
  | n + 1, i, p =>
    if i < pairsEnd args.length then
      withText args i fun key =>
        match argumentCode key with
        | some 0 => (argAt args (i + 1)).bind fun a => (scalar a).bind fun x => waitLoop args n (i + 2) (Flt.zero.lt x)
        | _ => .ok none
    else .ok (some p)

/-- The first `n` of the results, each made when it is its turn; `none` is an error in one of them. -/
def outputs : Nat → List (Outcome (Option Out)) → Outcome (Option (List Out))
  | 0, _ => .ok (some [])
  | _ + 1, [] => .ok (some [])
  | n + 1, o :: os => o.bind fun o => match o with
    | none => .ok none
    | some o => (outputs n os).map fun r => r.map (o :: ·)

/-- The properties as a structure or as cells. -/
def propsOut (propstruct : Bool) (p : Properties) : Option Out :=
  if propstruct then (parametersToStruct p).map .struct
  else some (.cell (parametersToCell p).1 (parametersToCell p).2.1 (parametersToCell p).2.2)

/-- The results of a call. -/
def finish (st : State) (r : Option (List Out)) : Result × State := match r with
  | none => (.error, st)
  | some l => (.values l, st)

/-- What `wait` makes of a message (`support/matlab/traxserver.cpp` 140–165). For a region that is NULL `region_to_array` gives NULL,
which is not a value: the model says error. -/
def received (nlhs : Nat) (propstruct : Bool) (w : Cpp.Waited) (st : State) : Outcome (Result × State) :=
  let st := { st with handle := w.handle }
  if w.ret = TRAX_INITIALIZE then
    (outputs nlhs [(imagesToArray (w.images.getD ImageList.create)).map fun a => a.map .images, (regionToArray w.region).map fun a => a.map .region,
      .ok (propsOut propstruct w.props)]).map (finish st)
  else if w.ret = TRAX_FRAME then
    (outputs nlhs [(imagesToArray (w.images.getD ImageList.create)).map fun a => a.map .images, .ok (some .empty),
      .ok (propsOut propstruct w.props)]).map (finish st)
  else if w.ret = TRAX_ERROR then .ok (.error, st)
  else (outputs nlhs [.ok (some .empty), .ok (some .empty), .ok (some .empty)]).map (finish st.delete)

/-- The operation `wait` (`support/matlab/traxserver.cpp` 113–165); `none`: not finished after reading `fuel` messages. -/
def wait (env : Env) (fuel : Nat) (nlhs : Nat) (args : List Arg) (st : State) : Option (Outcome (Result × State)) :=
  match st.handle with
  | none => some (.ok (.error, st))
  | some h =>
    match (if args.length > 1 then waitLoop args args.length 1 false else .ok (some false)) with
    | .ok none => some (.ok (.error, st))
    | .ok (some propstruct) =>
      if nlhs > 3 then some (.ok (.error, st))
      else (Cpp.serverWaitRegion env fuel (some h) none Properties.create).map fun o => o.bind fun w => received nlhs propstruct w st
    | .abort => some .abort
    | .ub => some .ub

/-! ## `status` and `quit` -/

/-- `array_to_region` of an argument. -/
def regionArg (env : Env) (freshPoints : Nat → List (Flt × Flt)) : Arg → Outcome (Option Region)
  | .mx a => arrayToRegion env.fresh freshPoints a
  | _ => .ok none

/-- The properties of an argument (`support/matlab/traxserver.cpp` 181). -/
def propsArg : Arg → Outcome (Option Properties)
  | .struct fields => .ok (some (structToParameters fields))
  | .cell m n l => cellToParameters m n l
  | _ => .ok none

/-- The operation `status` (`support/matlab/traxserver.cpp` 167–189). -/
def status (env : Env) (freshPoints : Nat → List (Flt × Flt)) (nlhs : Nat) (args : List Arg) (st : State) : Outcome (Result × State) :=
  match st.handle with
  | none => .ok (.error, st)
  | some h =>
    if args.length > 3 then .ok (.error, st)
    else if args.length < 2 then .ok (.error, st)
    else if nlhs > 1 then .ok (.error, st)
    else
      (argAt args 1).bind fun a => (regionArg env freshPoints a).bind fun r => match r with
        | none => .ok (.error, st)
        | some region =>
          (if args.length = 3 then (argAt args 2).bind propsArg else .ok (some Properties.create)).bind fun p => match p with
            | none => .ok (.error, st)
            | some p =>
              (Cpp.serverReplyRegion env (some h) (some region) (some p)).map fun r =>
                let st := { st with handle := r.2.1 }
                if r.1 = TRAX_ERROR then (.error, st)
                else (.values (if nlhs = 1 then [.logical true] else []), st)

/-- The operation `quit` (`support/matlab/traxserver.cpp` 191–209). `Handle::terminate` gives a `bool`, which is never
`TRAX_ERROR` (`src/traxpp.cpp` 267–270). -/
def quit (args : List Arg) (st : State) : Outcome (Result × State) :=
  match st.handle with
  | none => .ok (.values [], st)
  | some h =>
    if args.length > 2 then .ok (.error, st)
    else
      (argAt args 1).bind fun a => (getString a).bind fun s => match s with
        | none => .ok (.error, st)
        | some reason => .ok (.values [], { st with handle := some (h.terminate (some reason)).2 }.delete)

/-- What a call takes from its surroundings. -/
structure Surroundings where
  env : Env
  /-- points in new memory -/
  freshPoints : Nat → List (Flt × Flt)
  /-- the content of new memory (see `Handle.serverSetup`) -/
  junk : UInt32
  /-- the stream that a new server opens -/
  stream : Stream

/-- `mexFunction` (`support/matlab/traxserver.cpp` 33–215): `nlhs` results are asked for. `none`: not finished after reading `fuel`
messages. -/
def traxserver (s : Surroundings) (fuel : Nat) (nlhs : Nat) (args : List Arg) (st : State) : Option (Outcome (Result × State)) :=
  match args.head? with
  | some (.mx (.text op)) =>
    if lower (cstr op) = b!"setup" then some (setup s.junk s.stream nlhs args st)
    else if lower (cstr op) = b!"wait" then wait s.env fuel nlhs args st
    else if lower (cstr op) = b!"status" then some (status s.env s.freshPoints nlhs args st)
    else if lower (cstr op) = b!"quit" then some (quit args st)
    else some (.ok (.error, st))
  | _ => some (.ok (.error, st))

end Trax.Mex
