import Verif.Model.MexServer

/-!
# Model of the MATLAB function `traxclient` (`support/matlab/traxclient.cpp`)

The tracker process and the callback are parameters. `MEX_ERROR` and exceptions end the call with an error. The log, Octave and the destructors of the
tracker process are not modelled.
-/

namespace Trax.Mex.Client

/-! ## The arguments -/

/-- The local variables that the named arguments set (`support/matlab/traxclient.cpp` 328–332, 347). `verbosity` is 0 for silent, 1 for the default and 2 for
debug (`support/client/include/trax/client.hpp` 41). -/
structure Settings where
  verbosity : Nat
  timeout : Int
  connection : Environ.Mode
  environment : Environ.EnvMap
  data : Option Arg
  directory : Str
  log : Str
  deriving DecidableEq, Repr

/-- Their values at first (`support/matlab/traxclient.cpp` 328–332, 347). -/
def Settings.initial : Settings := ⟨0, 30, .standard, [], none, [], []⟩

/-- A `double` as `int`: the fraction is dropped; if the number does not fit the result is undefined. -/
def intOfDouble : Flt → Outcome Int
  | .fin neg m => chk32 (if neg then -((m / 2 ^ 1074 : Nat) : Int) else ((m / 2 ^ 1074 : Nat) : Int))
  | _ => .ub

/-- `get_connection_mode` (`support/matlab/traxclient.cpp` 209–228); `none` is the error. -/
def connectionMode (s : Str) : Option Environ.Mode :=
  if lower s = b!"standard" then some .standard
  else if lower s = b!"explicit" then some .explicit
  else if lower s = b!"socket" then some .sockets
  else none

/-- The loop of `struct_to_env` (`support/matlab/traxclient.cpp` 236–245); `none` is the error. -/
def envLoop : List (Str × Value) → Environ.EnvMap → Option Environ.EnvMap
  | [], m => some m
  | (name, .text s) :: l, m => envLoop l (m.set name (cstr s))
  | (_, .number _) :: _, _ => none

/-- `struct_to_env` (`support/matlab/traxclient.cpp` 230–247). -/
def structToEnv : Arg → Environ.EnvMap → Option Environ.EnvMap
  | .struct fields, m => envLoop fields m
  | _, _ => none

/-- One named argument (`support/matlab/traxclient.cpp` 352–363). -/
def settingsPair (args : List Arg) (i : Nat) (d : Settings) : Outcome (Option Settings) :=
  withText args i fun key =>
    match argumentCode key with
    | none => .ok none
    | some code =>
      if code = 4 then (argAt args (i + 1)).bind fun a => (scalar a).map fun x => some { d with verbosity := if x.feq Flt.zero then 1 else 2 }
      else if code = 5 then (argAt args (i + 1)).bind fun a => (scalar a).bind fun x => (intOfDouble x).map fun n => some { d with timeout := n }
      else if code = 8 then withText args (i + 1) fun s => .ok ((connectionMode s).map fun m => { d with connection := m })
      else if code = 6 then (argAt args (i + 1)).map fun a => (structToEnv a d.environment).map fun m => { d with environment := m }
      else if code = 7 then (argAt args (i + 1)).map fun a => some { d with data := some a }
      else if code = 9 then withText args (i + 1) fun s => .ok (some { d with directory := s })
      else if code = 10 then withText args (i + 1) fun s => .ok (some { d with log := s })
      else .ok none

/-- The loop over the named arguments (`support/matlab/traxclient.cpp` 351–364), at most `n` times; `args` are the arguments after the
command and the callback. -/
def settingsLoop (args : List Arg) : Nat → Nat → Settings → Outcome (Option Settings)
  | 0, _, d => .ok (some d)
  | n + 1, i, d =>
    if i + 2 < pairsEnd (args.length + 2) then
      (settingsPair args i d).bind fun r => match r with
        | none => .ok none
        | some d => settingsLoop args n (i + 2) d
    else .ok (some d)

/-- What `traxclient(command, @callback, …)` makes of its arguments (`support/matlab/traxclient.cpp` 336–377): the command and the settings. `function`
tells whether the second argument is a function. -/
def arguments (nlhs : Nat) (command : Arg) (function : Bool) (args : List Arg) : Outcome (Option (Str × Settings)) :=
  if nlhs > 1 then .ok none
  else match command with
    | .mx (.text s) =>
      if ¬ function then .ok none
      else (settingsLoop args args.length 0 .initial).map fun d => d.map fun d => (cstr s, d)
    | _ => .ok none

/-! ## The loop -/

/-- The metadata of the tracker. -/
structure Declaration where
  regions : UInt32
  images : UInt32
  channels : UInt32
  name : Str
  description : Str
  family : Str
  deriving DecidableEq, Repr

/-- `status` (`support/matlab/traxclient.cpp` 95–100), without the metadata. -/
structure Status where
  region : Option Region
  time : Flt
  properties : Properties

/-- The structure that the callback gets (`support/matlab/traxclient.cpp` 252–285); a field without a value is empty. -/
structure Shown where
  region : Option Mx
  time : Flt
  properties : List (Str × Value)
  name : Str
  description : Str
  family : Str
  regions : Cells Str
  images : Cells Str
  channels : Cells Str
  deriving Repr

/-- What the callback gives; `none` is an empty array. -/
structure Reply (δ : Type) where
  images : Option (Cells Mx)
  region : Option Mx
  parameters : Option Arg
  data : δ

/-- The answer of the tracker to an image: the region, the properties, and the time it took. -/
structure Answer where
  region : Region
  properties : Properties
  time : Flt

/-- The tracker process as the function sees it. A result is `false` or `none` also if the call throws an exception. -/
structure Tracker (σ : Type) where
  /-- `tracker.ready()`; also `false` if the user has interrupted the function -/
  ready : σ → Bool × σ
  /-- `tracker.reset()`, `false` only for an exception -/
  reset : σ → Bool × σ
  /-- `tracker.initialize(images, region, parameters)` -/
  init : ImageList → Region → Properties → σ → Bool × σ
  /-- `tracker.frame(images, parameters)` -/
  frame : ImageList → Properties → σ → Bool × σ
  /-- what arrives in `tracker.wait(…)` -/
  wait : σ → Option Answer × σ

/-- What happens in a run. -/
inductive Event (δ : Type) where
  | call (shown : Shown) (data : δ) (reply : Reply δ)
  | reset
  | init (images : ImageList) (region : Region) (parameters : Properties)
  | frame (images : ImageList) (parameters : Properties)
  | answer (a : Answer)

/-- The argument of the callback (`support/matlab/traxclient.cpp` 252–285); `none` is an error. A region without an array gives an empty
field; if there is no memory for the array there is an error. -/
def shown (d : Declaration) (st : Status) : Outcome (Option Shown) :=
  (regionToArray st.region).map fun region =>
    if st.region.isSome ∧ region.isNone then none
    else (parametersToStruct st.properties).map fun p =>
      ⟨region, st.time, p, d.name, d.description, d.family, decodeRegion d.regions, decodeImage d.images, decodeChannels d.channels⟩

/-- The parameters in the reply of the callback (`support/matlab/traxclient.cpp` 305–313). -/
def replyParameters : Option Arg → Outcome (Option Properties)
  | some (.struct fields) => .ok (some (structToParameters fields))
  | some (.cell m n l) => cellToParameters m n l
  | _ => .ok (some Properties.create)

/-- The images in the reply (`support/matlab/traxclient.cpp` 297–300); `none` is an error. -/
def replyImages (fresh : Nat → UInt8) (channels : UInt32) : Option (Cells Mx) → Outcome (Option ImageList)
  | none => .ok (some ImageList.create)
  | some a => arrayToImages fresh channels a

/-- The region in the reply (`support/matlab/traxclient.cpp` 301–304), if there is one; `none` is an error. -/
def replyRegion (freshMask : Nat → List UInt8) (freshPoints : Nat → List (Flt × Flt)) : Option Mx → Outcome (Option (Option Region))
  | none => .ok (some none)
  | some a => (arrayToRegion freshMask freshPoints a).map fun r => r.map some

/-- What the reply of the callback asks for (`support/matlab/traxclient.cpp` 296–317); `none` is an error. -/
def command {δ : Type} (fresh : Nat → UInt8) (freshMask : Nat → List UInt8) (freshPoints : Nat → List (Flt × Flt)) (channels : UInt32) (r : Reply δ) :
    Outcome (Option (ImageList × Option Region × Properties)) :=
  (replyImages fresh channels r.images).bind fun images => match images with
    | none => .ok none
    | some images => (replyRegion freshMask freshPoints r.region).bind fun region => match region with
      | none => .ok none
      | some region => (replyParameters r.parameters).map fun p => p.map fun p => (images, region, p)

/-- How a run ends. -/
inductive End (δ : Type) where
  | error
  | data (d : δ)

/-- What a run takes from its surroundings: the tracker, the metadata, the callback (`none` if it fails) and new memory. -/
structure Setting (σ γ δ : Type) where
  tracker : Tracker σ
  declared : Declaration
  callback : Shown → δ → γ → Option (Reply δ) × γ
  fresh : Nat → UInt8
  freshMask : Nat → List UInt8
  freshPoints : Nat → List (Flt × Flt)

variable {σ γ δ : Type}

/-- The request of the client (`support/matlab/traxclient.cpp` 431–451): the events and whether it was accepted; `none` instead of a Boolean value if
there is nothing to ask, which ends the loop. -/
def request (T : Tracker σ) (initialized : Bool) (images : ImageList) (region : Option Region) (p : Properties) (t : σ) :
    Option Bool × List (Event δ) × σ :=
  match region with
  | some r =>
    if initialized then
      match T.reset t with
      | (false, t) => (some false, [], t)
      | (true, t) => let x := T.init images r p t; (some x.1, [.reset, .init images r p], x.2)
    else let x := T.init images r p t; (some x.1, [.init images r p], x.2)
  | none =>
    if ¬ initialized then (none, [], t)
    else let x := T.frame images p t; (some x.1, [.frame images p], x.2)

/-- The loop (`support/matlab/traxclient.cpp` 410–463), at most `n` turns; the end and the events. `Client::wait` adds the properties of an answer to the
properties of the caller, which are not cleared before (`src/traxpp.cpp` 317–321). -/
def loop (S : Setting σ γ δ) : Nat → Bool → Status → δ → σ → γ → Option (Outcome (End δ × List (Event δ)))
  | 0, _, _, _, _, _ => none
  | n + 1, initialized, st, data, t, k =>
    match S.tracker.ready t with
    | (false, _) => some (.ok (.error, []))
    | (true, t) => match shown S.declared st with
      | .abort => some .abort
      | .ub => some .ub
      | .ok none => some (.ok (.error, []))
      | .ok (some sh) => match S.callback sh data k with
        | (none, _) => some (.ok (.error, []))
        | (some r, k) => match command S.fresh S.freshMask S.freshPoints S.declared.channels r with
          | .abort => some .abort
          | .ub => some .ub
          | .ok none => some (.ok (.error, [.call sh data r]))
          | .ok (some (images, region, p)) =>
            if images.countP (·.isSome) = 0 then some (.ok (.data r.data, [.call sh data r]))
            else match request S.tracker initialized images region p t with
              | (none, _, _) => some (.ok (.data r.data, [.call sh data r]))
              | (some false, es, _) => some (.ok (.error, .call sh data r :: es))
              | (some true, es, t) => match S.tracker.wait t with
                | (none, _) => some (.ok (.error, .call sh data r :: es))
                | (some a, t) =>
                  (loop S n true ⟨some a.region, a.time, Properties.append a.properties st.properties false⟩ r.data t k).map fun o => o.map fun x =>
                    (x.1, .call sh data r :: es ++ .answer a :: x.2)

/-- The run after the arguments are read (`support/matlab/traxclient.cpp` 400–463). -/
def run (S : Setting σ γ δ) (n : Nat) (data : δ) (t : σ) (k : γ) : Option (Outcome (End δ × List (Event δ))) :=
  loop S n false ⟨none, Flt.zero, Properties.create⟩ data t k

end Trax.Mex.Client
