import Verif.Model.Bytes
import Verif.Model.Decimal
import Verif.Model.Outcome

/-!
# The command and the environment of a tracker

`support/client/cli.cpp` 504–533, `support/client/client.cpp` 310–328,
`support/client/process.cpp` 328–358 and 633–679, `src/trax.c` 1032–1064.
-/

namespace Trax.Environ

/-- The comparison of `std::string`: bytes as unsigned numbers, a prefix comes first (C++ standard
library). -/
def strLt : Str → Str → Bool
  | _, [] => false
  | [], _ :: _ => true
  | a :: as, b :: bs => if a = b then strLt as bs else decide (a.toNat < b.toNat)

/-- `std::map<string, string>`: the entries in the order of their keys. -/
abbrev EnvMap := List (Str × Str)

/-- `map[key] = value` (C++ standard library). -/
def EnvMap.set (key value : Str) : EnvMap → EnvMap
  | [] => [(key, value)]
  | (k, v) :: rest =>
    if k = key then (k, value) :: rest
    else if strLt key k then (key, value) :: (k, v) :: rest
    else (k, v) :: EnvMap.set key value rest

/-- `strchr(var, '=')` and the two parts made from its result (`support/client/cli.cpp` 505–508 and
512–516, `support/client/process.cpp` 670–674); `none` if there is no such byte. -/
def splitVar : Str → Option (Str × Str)
  | [] => none
  | c :: cs => if c = ch%'=' then some ([], cs) else (splitVar cs).map fun p => (c :: p.1, p.2)

/-- The switches `-e` of the command line tool (`support/client/cli.cpp` 454, 504–510), in the order in
which they are given: the map `environment`. -/
def environmentOptions (switches : List Str) : EnvMap :=
  switches.foldl (fun m s => match splitVar s with | none => m | some (k, v) => m.set k v) []

/-- The command of the tracker, made of the remaining arguments of the command line tool
(`support/client/cli.cpp` 525–533). Without any the tool prints its help and exits. -/
def trackerCommand (arguments : List Str) : Str := arguments.flatMap fun a => b!" \"" ++ a ++ b!"\" "

/-- `Process::copy_environment` (`support/client/process.cpp` 639–679); the list is `environ`. -/
def copyEnvironment (m : EnvMap) (environ : List Str) : EnvMap :=
  environ.foldl (fun m s => match splitVar s with | none => m | some (k, v) => m.set k v) m

/-- `ConnectionMode` (`support/client/include/trax/client.hpp` 39). -/
inductive Mode where
  | standard
  | explicit
  | sockets
  deriving DecidableEq, Repr

/-- The map of the process made by `TrackerProcess::State::start_process` (`support/client/client.cpp`
310–328): the environment of the client, then the variables given by the user, then the port. -/
def processMap (mode : Mode) (environ : List Str) (given : EnvMap) (port : Int) : EnvMap :=
  let m := copyEnvironment [] environ
  let m := given.foldl (fun m e => m.set e.1 e.2) m
  if mode = .sockets then m.set b!"TRAX_SOCKET" (fmtInt port) else m

/-- The environment of the child made by `Process::start` (`support/client/process.cpp` 328–358). `fdIn`
and `fdOut` are `out[0]` and `in[1]`. The strings are handed over as pointers, so they end at a zero byte. -/
def childEnviron (explicit : Bool) (m : EnvMap) (fdIn fdOut : Int) : List Str :=
  let vars := m.map fun e => e.1 ++ b!"=" ++ e.2
  let vars := if explicit then vars ++ [b!"TRAX_OUT=" ++ fmtInt fdOut] ++ [b!"TRAX_IN=" ++ fmtInt fdIn] else vars
  vars.map cstr

/-- The environment of the tracker started by `TrackerProcess::State::start_process`
(`support/client/client.cpp` 310–334). -/
def trackerEnviron (mode : Mode) (environ : List Str) (given : EnvMap) (port fdIn fdOut : Int) : List Str :=
  childEnviron (mode = .explicit) (processMap mode environ given port) fdIn fdOut

/-- `getenv(name)` (C library): the first entry that starts with the name and an equals sign. -/
def getenv (name : Str) : List Str → Option Str
  | [] => none
  | e :: rest => if (name ++ b!"=").isPrefixOf e then some (e.drop (name.length + 1)) else getenv name rest

/-- `atoi` (C library). -/
def atoi (s : Str) : Int := wrap32 (strtol s).1

/-- How a server is connected to its client. -/
inductive Connection where
  | socket (port : Int)
  | files (input output : Int)
  deriving DecidableEq, Repr

/-- The choice of `trax_server_setup_v` (`src/trax.c` 1032–1060); `fileno(stdin)` and `fileno(stdout)`
are 0 and 1, `get_shared_fd` (62–64) returns its argument. -/
def serverConnection (environ : List Str) : Connection :=
  match getenv b!"TRAX_SOCKET" environ with
  | some s => .socket (atoi s)
  | none => .files ((getenv b!"TRAX_IN" environ).elim 0 atoi) ((getenv b!"TRAX_OUT" environ).elim 1 atoi)

end Trax.Environ
