import Verif.Model.Outcome

/-!
# Sockets and their descriptors (`src/message.c` 114–264, `support/client/client.cpp` 83–148, 236–249, 284–288)

Tables of open files as POSIX describes them. What the system answers is not known: it is given by a state machine. Only the
part for POSIX systems is modelled, without `SO_NOSIGPIPE` (`support/client/client.cpp` 105–113).
-/

namespace Trax.Net

/-- What a descriptor refers to: a file of the user, the listening socket of a tracker object, or the socket of a connection.
The number tells which object of the program it was opened for. -/
inductive File where
  | user
  | listener (k : Nat)
  | connection (h : Nat)
  deriving DecidableEq, Repr

/-- The descriptors of the process (POSIX). -/
abbrev Table := Nat → Option File

namespace Table

/-- A new descriptor. -/
def opened (t : Table) (fd : Nat) (f : File) : Table := fun n => if n = fd then some f else t n

/-- `close(fd)` (POSIX); closing what is not open does nothing. -/
def close (t : Table) (fd : Int) : Table := fun n => if (n : Int) = fd then none else t n

/-- Is this a descriptor in use? System calls on others fail (POSIX). -/
def isOpen (t : Table) (fd : Int) : Bool := decide (0 ≤ fd) && (t fd.toNat).isSome

end Table

/-- The system calls that succeed or fail, and whether a message `hello` arrives on a new connection. -/
inductive Call where
  | reuse
  | bind
  | listen
  | select
  | nodelay
  | connect
  | hello
  deriving DecidableEq, Repr

/-- The system: `socket` and `accept` give a descriptor or fail; other calls succeed or fail. -/
structure Kernel (σ : Type) where
  socket : Table → σ → Option Nat × σ
  accept : Table → σ → Option Nat × σ
  call : Call → σ → Bool × σ

/-- A call that needs an open descriptor. -/
def Kernel.on {σ : Type} (K : Kernel σ) (c : Call) (t : Table) (fd : Int) (w : σ) : Bool × σ :=
  ((K.call c w).1 && t.isOpen fd, (K.call c w).2)

/-- `create_server_socket` (`support/client/client.cpp` 83–135): the result, the table, the system. If `setsockopt` fails the
socket is not closed (99–102). -/
def createServerSocket {σ : Type} (K : Kernel σ) (k : Nat) (t : Table) (w : σ) : Int × Table × σ :=
  match K.socket t w with
  | (none, w) => (-1, t, w)
  | (some sid, w) =>
    let t := t.opened sid (.listener k)
    match K.on .reuse t sid w with
    | (false, w) => (-1, t, w)
    | (true, w) =>
      match K.on .bind t sid w with
      | (false, w) => (-1, t.close sid, w)
      | (true, w) =>
        match K.on .listen t sid w with
        | (false, w) => (-1, t.close sid, w)
        | (true, w) => (sid, t, w)

/-- The loop of the constructor of a tracker object (`support/client/client.cpp` 240–247); ports are in
`Verif/Model/Port.lean`. -/
def attempts {σ : Type} (K : Kernel σ) (k : Nat) : Nat → Int → Table → σ → Int × Table × σ
  | 0, sid, t, w => (sid, t, w)
  | n + 1, _, t, w =>
    match createServerSocket K k t w with
    | (sid, t, w) => if sid > 0 then (sid, t, w) else attempts K k n sid t w

/-- `destroy_server_socket` (`support/client/client.cpp` 137–148). `shutdown` does not change the table. -/
def destroyServerSocket (server : Int) (t : Table) : Table := if server < 0 then t else t.close server

/-- `struct message_stream`, as far as descriptors go (`src/message.h` 42–53). -/
inductive Stream where
  | files (input output : Int)
  | socket (fd : Int)
  deriving DecidableEq, Repr

/-- `create_message_stream_socket_accept` (`src/message.c` 183–241). The answer of `select` is whether the descriptor is in the
set afterwards (206–219). `accept` can fail, `setsockopt` fails then (222–226); if it fails on an open
descriptor, this is not closed. -/
def socketAccept {σ : Type} (K : Kernel σ) (h : Nat) (server : Int) (t : Table) (w : σ) : Option Stream × Table × σ :=
  match K.on .listen t server w with
  | (false, w) => (none, t, w)
  | (true, w) =>
    match K.call .select w with
    | (false, w) => (none, t, w)
    | (true, w) =>
      let (asock, t, w) := match K.accept t w with
        | (none, w) => ((-1 : Int), t, w)
        | (some fd, w) => ((fd : Int), t.opened fd (.connection h), w)
      match K.on .nodelay t asock w with
      | (false, w) => (none, t, w)
      | (true, w) => (some (.socket asock), t, w)

/-- The loop of `create_message_stream_socket_connect` (`src/message.c` 153–166) for the given number of rounds: is there a
connection? The second component is the system. -/
def connectLoop {σ : Type} (K : Kernel σ) (t : Table) (sid : Int) : Nat → σ → Bool × σ
  | 0, w => (false, w)
  | n + 1, w =>
    match K.on .connect t sid w with
    | (true, w) => (true, w)
    | (false, w) => connectLoop K t sid n w

/-- How `create_message_stream_socket_connect` goes on. -/
inductive Connect where
  /-- NULL -/
  | failed
  /-- still in the loop -/
  | waiting
  | connected (s : Stream)
  deriving DecidableEq, Repr

/-- `create_message_stream_socket_connect` (`src/message.c` 128–181) for the given number of rounds of its loop. If `setsockopt`
fails the socket is closed, and the function goes on with it (147–151). -/
def socketConnect {σ : Type} (K : Kernel σ) (h rounds : Nat) (t : Table) (w : σ) : Connect × Table × σ :=
  match K.socket t w with
  | (none, w) => (.failed, t, w)
  | (some sid, w) =>
    let t := t.opened sid (.connection h)
    let (t, w) := match K.on .nodelay t sid w with
      | (true, w) => (t, w)
      | (false, w) => (t.close sid, w)
    match connectLoop K t sid rounds w with
    | (true, w) => (.connected (.socket sid), t, w)
    | (false, w) => (.waiting, t, w)

/-- `destroy_message_stream` (`src/message.c` 243–264): files are left open. -/
def destroyStream (s : Stream) (t : Table) : Table :=
  match s with
  | .files _ _ => t
  | .socket fd => t.close fd

/-- The process: its descriptors, the tracker objects and the handles of the program, and whether it is held up in a call for
good. -/
structure Sys (σ : Type) where
  table : Table
  listeners : Nat → Option Int
  handles : Nat → Option Stream
  waiting : Bool
  world : σ

/-- Changes a function at one argument. -/
def upd {α : Type} (f : Nat → α) (k : Nat) (x : α) : Nat → α := fun i => if i = k then x else f i

/-- The steps of a program. -/
inductive Op where
  /-- the user opens a file and gets this descriptor -/
  | openFile (fd : Nat)
  /-- the user closes a file -/
  | closeFile (fd : Nat)
  /-- a tracker object with a socket connection is made -/
  | construct (k : Nat)
  /-- it is destroyed -/
  | destroy (k : Nat)
  /-- `trax_client_setup_socket` -/
  | accept (h : Nat) (server : Int)
  /-- `trax_client_setup_file` and `trax_server_setup_file` -/
  | files (h : Nat) (input output : Int)
  /-- `trax_server_setup` with the variable `TRAX_SOCKET`, for the given number of rounds -/
  | connect (h rounds : Nat)
  /-- `trax_cleanup` -/
  | cleanup (h : Nat)
  deriving DecidableEq, Repr

/-- One step.
* The constructor (`support/client/client.cpp` 236–249) throws if the last result is negative; there is no object then. The
  destructor closes the socket (284–288).
* `trax_client_setup_socket` (`src/trax.c` 760–768) gives NULL without a stream. `client_setup` (561–643) gives NULL if no `hello`
  arrives, and does not destroy the stream (638–643); otherwise there is a handle.
* `trax_client_setup_file` (`src/trax.c` 752–758) and `trax_server_setup_file_v` (1066–1071): simplified, there is a handle.
* `trax_server_setup_v` (`src/trax.c` 1032–1064) passes NULL on if there is no socket, and `write_message` (`src/message.c` 65, 726)
  reads it.
* `trax_cleanup` (`src/trax.c` 1478–1496) destroys the stream. -/
def step {σ : Type} (K : Kernel σ) (s : Sys σ) : Op → Outcome (Sys σ)
  | .openFile fd => .ok { s with table := s.table.opened fd .user }
  | .closeFile fd => .ok { s with table := s.table.close fd }
  | .construct k =>
    match attempts K k 10 (-1) s.table s.world with
    | (sid, t, w) => .ok { s with table := t, world := w, listeners := upd s.listeners k (if sid < 0 then none else some sid) }
  | .destroy k =>
    match s.listeners k with
    | none => .ok s
    | some sid => .ok { s with table := destroyServerSocket sid s.table, listeners := upd s.listeners k none }
  | .accept h server =>
    match socketAccept K h server s.table s.world with
    | (none, t, w) => .ok { s with table := t, world := w }
    | (some stream, t, w) =>
      match K.call .hello w with
      | (false, w) => .ok { s with table := t, world := w }
      | (true, w) => .ok { s with table := t, world := w, handles := upd s.handles h (some stream) }
  | .files h input output => .ok { s with handles := upd s.handles h (some (.files input output)) }
  | .connect h rounds =>
    match socketConnect K h rounds s.table s.world with
    | (.failed, _, _) => .ub
    | (.waiting, t, w) => .ok { s with table := t, world := w, waiting := true }
    | (.connected stream, t, w) => .ok { s with table := t, world := w, handles := upd s.handles h (some stream) }
  | .cleanup h =>
    match s.handles h with
    | none => .ok s
    | some stream => .ok { s with table := destroyStream stream s.table, handles := upd s.handles h none }

/-- A program; nothing more happens once it is held up. -/
def run {σ : Type} (K : Kernel σ) : List Op → Sys σ → Outcome (Sys σ)
  | [], s => .ok s
  | op :: ops, s => if s.waiting then .ok s else (step K s op).bind (run K ops)

end Trax.Net
