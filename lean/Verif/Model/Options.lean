import Verif.Model.Environment
import Verif.Model.Properties
import Verif.Model.PropertyOps
import Verif.Model.FloatOps

/-!
# The command lines of the programs

`support/client/getopt.c`, `support/client/cli.cpp` 91–99 and 436–538, `support/client/tester.cpp`
131–133 and 171–244. The file `getopt.c` is used when the compiler is not GNU C; otherwise the programs use the function of
the C library, which is not modelled.
-/

namespace Trax.Opt

/-- `s[i]` for a C string: the byte, zero at the end, undefined behaviour behind the end. -/
def charAt (s : Str) (i : Nat) : Outcome Byte :=
  match s[i]? with
  | some c => .ok c
  | none => if i = s.length then .ok 0 else .ub

/-- `strchr(opts, c)` (C library); the result is the text behind the byte found, which is what `getopt` looks
at next. -/
def strchrRest (c : Byte) : Str → Option Str
  | [] => none
  | d :: s => if d = c then some s else strchrRest c s

/-- The value of a `char` as an `int`: `char` is signed. -/
def charInt (c : Byte) : Int := if c.toNat < 128 then c.toNat else c.toNat - 256

/-- The variables of `support/client/getopt.c` (31–34 and 39). -/
structure Scan where
  optind : Nat
  sp : Nat
  optopt : Byte
  optarg : Option Str
  deriving DecidableEq, Repr

/-- The values at the start of the program (`support/client/getopt.c` 31–34, 39). -/
def Scan.initial : Scan := ⟨1, 1, 0, none⟩

/-- Go on to the next letter of a word, or to the next word (`support/client/getopt.c` 69–75, 103–109). -/
def advance (a : Str) (s : Scan) : Outcome Scan :=
  (charAt a (s.sp + 1)).map fun d =>
    if d = 0 then { s with optind := s.optind + 1, sp := 1 } else { s with sp := s.sp + 1 }

/-- `getopt` from line 63 of `support/client/getopt.c` on: the letter at the current position. The error
messages (67, 89) are not modelled, the programs turn them off. `strchr` with a zero byte finds the end of
the string, and the program then reads behind it. -/
def takeLetter (argv : List Str) (opts : Str) (s : Scan) : Outcome (Int × Scan) :=
  match argv[s.optind]? with
  | none => .ub
  | some a =>
    (charAt a s.sp).bind fun c =>
      let s := { s with optopt := c }
      if c = 0 then .ub
      else if c = ch%':' then (advance a s).map fun s => (charInt ch%'?', s)
      else
        match strchrRest c opts with
        | none => (advance a s).map fun s => (charInt ch%'?', s)
        | some rest =>
          if rest.head? = some ch%':' then
            (charAt a (s.sp + 1)).bind fun d =>
              if d ≠ 0 then
                .ok (charInt c, { s with optarg := some (a.drop (s.sp + 1)), optind := s.optind + 1, sp := 1 })
              else
                match argv[s.optind + 1]? with
                | none => .ok (charInt ch%'?', { s with optind := s.optind + 1, sp := 1 })
                | some b => .ok (charInt c, { s with optarg := some b, optind := s.optind + 2, sp := 1 })
          else (advance a s).map fun s => (charInt c, { s with optarg := none })

/-- `getopt` (`support/client/getopt.c` 36–117). -/
def getopt (argv : List Str) (opts : Str) (s : Scan) : Outcome (Int × Scan) :=
  if s.sp = 1 then
    match argv[s.optind]? with
    | none => .ok (-1, s)
    | some a =>
      (charAt a 0).bind fun c0 =>
        if c0 ≠ ch%'-' then .ok (-1, s)
        else
          (charAt a 1).bind fun c1 =>
            if c1 = 0 then .ok (-1, s)
            else if a = b!"--" then .ok (-1, { s with optind := s.optind + 1 })
            else takeLetter argv opts s
  else takeLetter argv opts s

/-- What a program sees after a call that did not return -1: the result, `optopt` and `optarg`. -/
structure Event where
  result : Int
  optopt : Byte
  optarg : Option Str
  deriving DecidableEq, Repr

/-- The loop `while ((c = getopt(argc, argv, CMD_OPTIONS)) != -1)` (`support/client/cli.cpp` 460,
`support/client/tester.cpp` 190): what the body sees, and `optind` after the loop. A loop without end is undefined
behaviour (`fuel` bounds the number of turns). -/
def optionLoop (argv : List Str) (opts : Str) : Nat → Scan → Outcome (List Event × Nat)
  | 0, _ => .ub
  | fuel + 1, s =>
    (getopt argv opts s).bind fun r =>
      if r.1 = -1 then .ok ([], r.2.optind)
      else (optionLoop argv opts fuel r.2).map fun p => (⟨r.1, r.2.optopt, r.2.optarg⟩ :: p.1, p.2)

/-- The options of a command line. No word gives more results than it has bytes. -/
def options (argv : List Str) (opts : Str) : Outcome (List Event × Nat) :=
  optionLoop argv opts ((argv.map List.length).sum + 1) .initial

/-! ## `traxclient` -/

/-- `CMD_OPTIONS` (`support/client/cli.cpp` 91). -/
def cliLetters : Str := b!"hsdI:G:f:O:S:r:t:T:p:e:xXQ"

/-- `VerbosityMode` (`support/client/include/trax/client.hpp` 41). -/
inductive Verbosity where
  | silent
  | standard
  | debug
  deriving DecidableEq, Repr

/-- The variables set by the switches of `traxclient` (`support/client/cli.cpp` 420–421 and 437–454). -/
structure Settings where
  verbosity : Verbosity
  connection : Environ.Mode
  query : Bool
  images : Str
  groundtruth : Str
  output : Str
  initialization : Str
  timing : Str
  threshold : Flt
  timeout : Int
  reinitialize : Int
  environment : Environ.EnvMap
  properties : Properties

/-- The values before the switches are read (`support/client/cli.cpp` 420–421 and 437–454). -/
def Settings.initial : Settings where
  verbosity := .standard
  connection := .standard
  query := false
  images := b!"images.txt"
  groundtruth := b!"groundtruth.txt"
  output := b!"output.txt"
  initialization := []
  timing := []
  threshold := Flt.ofInt (-1)
  timeout := 30
  reinitialize := 0
  environment := []
  properties := Properties.create

/-- How a program goes on after its command line: the help and an exit with a code, an exception with a
message, or the settings and the command of the tracker. -/
inductive Start (α : Type) where
  | help (code : Int)
  | error (message : Str)
  | go (settings : α) (command : Str)

/-- `string(optarg)` and other uses of `optarg`: a null pointer is undefined behaviour. -/
def withArg {α : Type} (e : Event) (f : Str → α) : Outcome α :=
  match e.optarg with
  | none => .ub
  | some v => .ok (f v)

/-- `MIN(1, MAX(0, (float)atof(optarg)))` (`support/client/cli.cpp` 93–99, 494). -/
def clamp (x : Flt) : Flt :=
  let m := if x.lt Flt.zero then Flt.zero else x
  if Flt.one.lt m then Flt.one else m

/-- `MAX(a, b)` for integers (`support/client/cli.cpp` 94, `support/client/tester.cpp` 132). -/
def maxInt (a b : Int) : Int := if a > b then a else b

/-- The switches of `traxclient` other than `-h` and unknown ones (`support/client/cli.cpp` 465–518). -/
def cliSwitch (c : Settings) (e : Event) : Outcome (Option Settings) :=
  if e.result = charInt ch%'d' then .ok (some { c with verbosity := .debug })
  else if e.result = charInt ch%'s' then .ok (some { c with verbosity := .silent })
  else if e.result = charInt ch%'x' then .ok (some { c with connection := .explicit })
  else if e.result = charInt ch%'X' then .ok (some { c with connection := .sockets })
  else if e.result = charInt ch%'Q' then .ok (some { c with query := true })
  else if e.result = charInt ch%'I' then withArg e fun v => some { c with images := v }
  else if e.result = charInt ch%'G' then withArg e fun v => some { c with groundtruth := v }
  else if e.result = charInt ch%'O' then withArg e fun v => some { c with output := v }
  else if e.result = charInt ch%'S' then withArg e fun v => some { c with initialization := v }
  else if e.result = charInt ch%'f' then withArg e fun v => some { c with threshold := clamp (atofFloat v) }
  else if e.result = charInt ch%'r' then withArg e fun v => some { c with reinitialize := maxInt 1 (Environ.atoi v) }
  else if e.result = charInt ch%'t' then withArg e fun v => some { c with timeout := maxInt 0 (Environ.atoi v) }
  else if e.result = charInt ch%'T' then withArg e fun v => some { c with timing := v }
  else if e.result = charInt ch%'e' then
    withArg e fun v => match Environ.splitVar v with
      | none => some c
      | some (k, v) => some { c with environment := c.environment.set k v }
  else if e.result = charInt ch%'p' then
    withArg e fun v => match Environ.splitVar v with
      | none => some c
      | some (k, v) => some { c with properties := c.properties.set k v }
  else .ok none

/-- The message for an unknown switch (`support/client/cli.cpp` 522, `support/client/tester.cpp` 228). -/
def unknownSwitch (c : Byte) : Str := b!"Unknown switch -" ++ [c]

/-- The loop over the switches of `traxclient` and what comes after it (`support/client/cli.cpp` 460–538);
`operands` is the part of `argv` from `optind` on. -/
def cliSwitches (operands : List Str) : List Event → Settings → Outcome (Start Settings)
  | [], c => if operands = [] then .ok (.help (-1)) else .ok (.go c (Environ.trackerCommand operands))
  | e :: es, c =>
    if e.result = charInt ch%'h' then .ok (.help 0)
    else (cliSwitch c e).bind fun
      | none => .ok (.error (unknownSwitch e.optopt))
      | some c => cliSwitches operands es c

/-- The start of `traxclient` (`support/client/cli.cpp` 436–538). The loop ends early in case of `-h` or an unknown
switch; the calls of `getopt` that are not made then have no effect in the model. -/
def cliStart (argv : List Str) : Outcome (Start Settings) :=
  (options argv cliLetters).bind fun r => cliSwitches (argv.drop r.2) r.1 .initial

/-! ## `traxtest` -/

/-- `CMD_OPTIONS` (`support/client/tester.cpp` 171). -/
def testerLetters : Str := b!"hdt:p:e:xXI"

/-- The variables set by the switches of `traxtest` (`support/client/tester.cpp` 154–155 and 175–184). -/
structure TestSettings where
  verbosity : Verbosity
  connection : Environ.Mode
  timeout : Int
  reinitializations : Int
  environment : Environ.EnvMap
  properties : Properties

/-- The values before the switches are read (`support/client/tester.cpp` 154–155 and 175–184). -/
def TestSettings.initial : TestSettings where
  verbosity := .standard
  connection := .standard
  timeout := 30
  reinitializations := 1
  environment := []
  properties := Properties.create

/-- The switches of `traxtest` other than `-h` and unknown ones (`support/client/tester.cpp` 195–225). -/
def testerSwitch (c : TestSettings) (e : Event) : Outcome (Option TestSettings) :=
  if e.result = charInt ch%'d' then .ok (some { c with verbosity := .debug })
  else if e.result = charInt ch%'x' then .ok (some { c with connection := .explicit })
  else if e.result = charInt ch%'X' then .ok (some { c with connection := .sockets })
  else if e.result = charInt ch%'t' then withArg e fun v => some { c with timeout := maxInt 0 (Environ.atoi v) }
  else if e.result = charInt ch%'I' then
    withArg e fun v => some { c with reinitializations := maxInt 1 (Environ.atoi v) }
  else if e.result = charInt ch%'e' then
    withArg e fun v => match Environ.splitVar v with
      | none => some c
      | some (k, v) => some { c with environment := c.environment.set k v }
  else if e.result = charInt ch%'p' then
    withArg e fun v => match Environ.splitVar v with
      | none => some c
      | some (k, v) => some { c with properties := c.properties.set k v }
  else .ok none

/-- The loop over the switches of `traxtest` and what comes after it (`support/client/tester.cpp` 190–244). -/
def testerSwitches (operands : List Str) : List Event → TestSettings → Outcome (Start TestSettings)
  | [], c => if operands = [] then .ok (.help (-1)) else .ok (.go c (Environ.trackerCommand operands))
  | e :: es, c =>
    if e.result = charInt ch%'h' then .ok (.help 0)
    else (testerSwitch c e).bind fun
      | none => .ok (.error (unknownSwitch e.optopt))
      | some c => testerSwitches operands es c

/-- The start of `traxtest` (`support/client/tester.cpp` 173–244). -/
def testerStart (argv : List Str) : Outcome (Start TestSettings) :=
  (options argv testerLetters).bind fun r => testerSwitches (argv.drop r.2) r.1 .initial

end Trax.Opt
