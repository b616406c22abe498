import Verif.Model.Bytes
import Verif.Model.Decimal
import Verif.Model.Outcome

/-!
# Messages for debugging and prefixes of texts (`src/debug.h`, `src/debug.c`, `compare_prefix` in `src/trax.c`)

Simplifications: a stream is a number, and what is written to it is written at once (so that `__debug_flush`, `src/debug.c` 58–61, changes nothing); the messages are the text that `fprintf` makes of the arguments of the macro; a text is
the list of its bytes before the NUL, and reading behind the NUL is undefined. `tic` and `toc` are not modelled.
-/

namespace Trax.Debug

/-- What `text[i]` gives: a byte, the NUL behind the last byte, or `none` behind it (undefined). -/
def at? (text : Str) (i : Nat) : Option UInt8 :=
  match text[i]? with
  | some c => some c
  | none => if i = text.length then some 0 else Option.none

/-- The loop of `compare_prefix` (`src/trax.c` 188–200) from position `i` on. The first argument bounds the number of turns: `none` if there are more, and for a read behind the NUL. -/
def compareFrom : Nat → Str → Str → Nat → Option Bool
  | 0, _, _, _ => Option.none
  | fuel + 1, str, pre, i =>
    match at? str i, at? pre i with
    | some a, some b => if a = b then (if b = 0 then some true else compareFrom fuel str pre (i + 1)) else some (b == 0)
    | _, _ => Option.none

/-- `compare_prefix` (`src/trax.c` 188–200). -/
def comparePrefix (str pre : Str) : Option Bool := compareFrom (str.length + pre.length + 1) str pre 0

/-- How the library was built: is `TRAX_DEBUG` defined, is `TRAX_ENABLE_DEBUG`, and what is `TRAX_SOURCE_COMPILE_ROOT` (`src/debug.c` 13–28; the empty text if it is not defined). -/
structure Build where
  debug : Bool
  enabled : Bool
  root : Str
  deriving DecidableEq, Repr

/-- A stream (`FILE*`). -/
abbrev Stream := Nat

/-- `stdout`. -/
def stdout : Stream := 1

/-- `___debug`, `___stream`, `_source_root_len` (`src/debug.c` 18–30), and what has been written to which stream. -/
structure State where
  level : Int
  stream : Option Stream
  rootLen : Nat
  written : List (Stream × Str)
  deriving DecidableEq, Repr

/-- The initial values (`src/debug.c` 18–30). -/
def start (b : Build) : State :=
  ⟨if b.debug then (if b.enabled then 1 else -1) else 0, Option.none, 0, []⟩

/-- `__debug_enable` (`src/debug.c` 32–37). -/
def enable (b : Build) (s : State) : State :=
  { s with rootLen := b.root.length, stream := (match s.stream with | some f => some f | Option.none => some stdout), level := 1 }

/-- `__debug_disable` (`src/debug.c` 39–41). -/
def disable (s : State) : State := { s with level := 0 }

/-- `__is_debug_enabled` (`src/debug.c` 43–48); `env`: is `TRAX_DEBUG` in the environment. -/
def isEnabled (env : Bool) (s : State) : Bool × State :=
  let s := if s.level < 0 then { s with level := if env then 1 else 0 } else s
  (s.level != 0, s)

/-- `__debug_set_target` (`src/debug.c` 50–52). -/
def setTarget (f : Option Stream) (s : State) : State := { s with stream := f }

/-- The loop of `__short_file_name` (`src/debug.c` 71–87) for the next `n` positions from `i` on: the position where the name starts; `none` for a read behind a NUL. -/
def shortFrom (root file : Str) : Nat → Nat → Option Nat
  | 0, i => some i
  | n + 1, i =>
    match at? file i, at? root i with
    | some c, some r => if c = 0 then some 0 else if r ≠ c then some 0 else shortFrom root file n (i + 1)
    | _, _ => Option.none

/-- `__short_file_name` (`src/debug.c` 71–87). -/
def shortFileName (b : Build) (s : State) (file : Str) : Option Str :=
  (shortFrom b.root file s.rootLen 0).map fun i => file.drop i

/-- The macro `DEBUGMSG` (`src/debug.h` 16, 22) at a line of a file. `fprintf` with a null pointer for the stream is undefined. -/
def message (b : Build) (env : Bool) (file : Str) (line : Nat) (text : Str) (s : State) : Outcome State :=
  if b.debug then
    let (on, s) := isEnabled env s
    if on then
      match s.stream, shortFileName b s file with
      | some f, some name => .ok { s with written := s.written ++ [(f, name ++ b!"(" ++ fmtInt line ++ b!"): "), (f, text)] }
      | _, _ => .ub
    else .ok s
  else .ok s

/-- What can be called. -/
inductive Op where
  | enable
  | disable
  | ask
  | target (f : Option Stream)
  | message (file : Str) (line : Nat) (text : Str)
  deriving DecidableEq, Repr

/-- One call. -/
def step (b : Build) (env : Bool) (s : State) : Op → Outcome State
  | .enable => .ok (enable b s)
  | .disable => .ok (disable s)
  | .ask => .ok (isEnabled env s).2
  | .target f => .ok (setTarget f s)
  | .message file line text => message b env file line text s

/-- All calls, one after another. -/
def run (b : Build) (env : Bool) (s : State) : List Op → Outcome State
  | [] => .ok s
  | o :: rest =>
    match step b env s o with
    | .ok s => run b env s rest
    | .abort => .abort
    | .ub => .ub

end Trax.Debug
