import Verif.Model.Outcome

/-!
# The descriptors of tracker processes (`support/client/process.cpp` 145–178, 180–191, 317–393, 432–517)

Tables of open files as POSIX describes them, the pipes made for a tracker, and the table the tracker
starts with. Only the part for POSIX systems is modelled.
-/

namespace Trax.Fds

/-- What a descriptor refers to: the end of a pipe (pipes are numbered in the order of their creation),
or a file of the user. -/
inductive File where
  | user (id : Nat)
  | readEnd (pipe : Nat)
  | writeEnd (pipe : Nat)
  deriving DecidableEq, Repr

/-- The descriptors of a process (POSIX). -/
abbrev Table := List (Option File)

namespace Table

/-- The file of a descriptor. -/
def get : Table → Nat → Option File
  | [], _ => none
  | x :: _, 0 => x
  | _ :: r, n + 1 => get r n

/-- Sets or removes the file of a descriptor. -/
def put : Table → Nat → Option File → Table
  | [], 0, f => [f]
  | [], n + 1, f => none :: put [] n f
  | _ :: r, 0, f => f :: r
  | x :: r, n + 1, f => x :: put r n f

/-- The lowest descriptor that is not in use, the one POSIX takes for a new file. -/
def lowest : Table → Nat
  | [] => 0
  | none :: _ => 0
  | some _ :: r => lowest r + 1

/-- `close(fd)` (POSIX); closing what is not open does nothing. -/
def close (t : Table) (fd : Int) : Table := if fd < 0 then t else t.put fd.toNat none

/-- `dup2(src, dst)` as an action of `posix_spawn` (POSIX): it fails if `src` is not open. -/
def dup2 (t : Table) (src dst : Int) : Option Table :=
  match t.get src.toNat with
  | none => none
  | some f => some (t.put dst.toNat (some f))

/-- `pipe(fds)` (POSIX) for the pipe with number `p`: the table, the read end and the write end. -/
def pipe (t : Table) (p : Nat) : Table × Int × Int :=
  let r := t.lowest
  let t := t.put r (some (.readEnd p))
  let w := t.lowest
  (t.put w (some (.writeEnd p)), r, w)

end Table

/-- The members of `Process` about descriptors (`support/client/process.h` 62–71): the arrays `out`, `in` and `err`, and `p_stdin`, `p_stdout`, `p_stderr`. -/
structure Proc where
  out0 : Int
  out1 : Int
  in0 : Int
  in1 : Int
  err0 : Int
  err1 : Int
  stdin : Int
  stdout : Int
  stderr : Int
  running : Bool
  deriving DecidableEq, Repr

/-- How `Process::start` goes: a `pipe` fails (after 0, 1 or 2 that succeed), `posix_spawnp` fails, or
the tracker is started. -/
inductive Start where
  | noPipe (made : Nat)
  | noSpawn
  | started
  deriving DecidableEq, Repr

/-- The process of the client, and the trackers. Objects of the class `Process` are numbered; `children`
are the tables of the trackers that are running. -/
structure Sys where
  table : Table
  nextPipe : Nat
  procs : Nat → Option Proc
  children : Nat → Option Table

/-- Changes a function at one argument. -/
def upd {α : Type} (f : Nat → α) (k : Nat) (x : α) : Nat → α := fun i => if i = k then x else f i

namespace Sys

/-- The constructor `Process::Process` (`support/client/process.cpp` 145–161) as far as descriptors go: it
leaves the arrays `out`, `in`, `err` as they are; `garbage` is what is in them. -/
def construct (garbage : Proc) : Proc := { garbage with running := false }

/-- `Process::cleanup` (`support/client/process.cpp` 460–517): the six descriptors that are not -1 are
closed. -/
def cleanup (t : Table) (p : Proc) : Table × Proc :=
  let close := fun (t : Table) (fd : Int) => if fd ≠ -1 then t.close fd else t
  let t := close t p.out0
  let t := close t p.err0
  let t := close t p.in1
  let t := close t p.out1
  let t := close t p.err1
  let t := close t p.in0
  (t, { p with out0 := -1, err0 := -1, in1 := -1, out1 := -1, err1 := -1, in0 := -1, running := false })

/-- The table of the child (`support/client/process.cpp` 336–350): a copy of the table of the client
with the actions applied. -/
def childTable (explicit : Bool) (t : Table) (p : Proc) : Option Table :=
  let t := t.close p.out1
  let t := t.close p.in0
  let t := t.close p.err0
  if !explicit then
    ((t.dup2 p.out0 0).bind fun t => t.dup2 p.in1 1).bind fun t => t.dup2 p.err1 2
  else t.dup2 p.err1 2

/-- `Process::start` (`support/client/process.cpp` 180–191, 317–393) of a new object: the table of the
client, the object, the number of pipes and the table of the child, if there is one. The test of `running` (184)
and of `pid` (321) fail for a new object. The working directory (360–378) is not modelled; the environment is in
`Trax.Environ.childEnviron`. -/
def start (explicit : Bool) (t : Table) (next : Nat) (p : Proc) (result : Start) : Table × Proc × Nat × Option Table :=
  let p := { p with stdin := -1, stdout := -1, stderr := -1 }
  match result with
  | .noPipe 0 => (t, p, next, none)
  | result =>
    let (t, r, w) := t.pipe next
    let p := { p with out0 := r, out1 := w }
    match result with
    | .noPipe 1 => (t, p, next + 1, none)
    | result =>
      let (t, r, w) := t.pipe (next + 1)
      let p := { p with in0 := r, in1 := w }
      match result with
      | .noPipe _ => (t, p, next + 2, none)
      | result =>
        let (t, r, w) := t.pipe (next + 2)
        let p := { p with err0 := r, err1 := w }
        match result, childTable explicit t p with
        | .started, some child => (t, { p with stdin := p.out1, stdout := p.in0, stderr := p.err0, running := true }, next + 3, some child)
        | _, _ =>
          let (t, p) := cleanup t p
          (t, p, next + 3, none)

/-- A new object and its start, as in `start_process` (`support/client/client.cpp` 310–334). -/
def launch (s : Sys) (k : Nat) (explicit : Bool) (garbage : Proc) (result : Start) : Sys :=
  let r := start explicit s.table s.nextPipe (construct garbage) result
  ⟨r.1, r.2.2.1, upd s.procs k (some r.2.1), upd s.children k r.2.2.2⟩

/-- A tracker ends, for whatever reason: its descriptors are closed (POSIX). -/
def exit (s : Sys) (k : Nat) : Sys := { s with children := upd s.children k none }

/-- `Process::is_alive` (`support/client/process.cpp` 559–602) for a tracker that has ended. -/
def reap (s : Sys) (k : Nat) : Sys :=
  match s.procs k, s.children k with
  | some p, none => { s with procs := upd s.procs k (some { p with running := false }) }
  | _, _ => s

/-- The destructor (`support/client/process.cpp` 163–178): the tracker is killed if it is running (432–450)
and the descriptors are closed. Simplified: a tracker killed ends at once. -/
def destroy (s : Sys) (k : Nat) : Sys :=
  match s.procs k with
  | none => s
  | some p =>
    let s := if p.running then s.exit k else s
    { s with table := (cleanup s.table p).1, procs := upd s.procs k none }

/-- The user opens a file. -/
def userOpen (s : Sys) (id : Nat) : Sys := { s with table := s.table.put s.table.lowest (some (.user id)) }

/-- The user closes a descriptor. -/
def userClose (s : Sys) (fd : Nat) : Sys := { s with table := s.table.put fd none }

end Sys

/-- What can happen. -/
inductive Op where
  | launch (k : Nat) (explicit : Bool) (garbage : Proc) (result : Start)
  | exit (k : Nat)
  | reap (k : Nat)
  | destroy (k : Nat)
  | userOpen (id : Nat)
  | userClose (fd : Nat)

/-- One event (see the functions above). -/
def Sys.step (s : Sys) : Op → Sys
  | .launch k explicit garbage result => s.launch k explicit garbage result
  | .exit k => s.exit k
  | .reap k => s.reap k
  | .destroy k => s.destroy k
  | .userOpen id => s.userOpen id
  | .userClose fd => s.userClose fd

/-- A history of events. -/
def Sys.run (s : Sys) : List Op → Sys
  | [] => s
  | o :: os => (s.step o).run os

/-- `TrackerProcess::State::start_process` (`support/client/client.cpp` 297–334) as far as processes go: the
member `process` is `var`, the new object gets the number `fresh`. -/
def startProcess (s : Sys) (var : Option Nat) (fresh : Nat) (explicit : Bool) (garbage : Proc) (result : Start) : Sys × Option Nat :=
  let running := match var with
    | none => false
    | some k => (s.children k).isSome
  if running then (s, var) else (s.launch fresh explicit garbage result, some fresh)

end Trax.Fds
