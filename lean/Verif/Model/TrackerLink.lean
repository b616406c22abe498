import Verif.Model.Endpoint
import Verif.Model.TrackerProcess
import Verif.Model.CliMain
import Verif.Model.StaticTracker

/-!
# A tracker process and its client library, connected (`support/client/client.cpp` 730–941)

`Model/TrackerProcess` leaves open what is exchanged with the tracker, `Model/CliMain` leaves open what a tracker process is. Here both
are put together: the methods of `TrackerProcess` with the calls of the class `Client` in them, and behind the pipes the program of a
tracker. Simplifications: the operating system starts the program; the pipes lose nothing; the tracker takes
its turn when the client waits for it (before that it may have written, but nothing that it reads is missing, and nothing that it writes is read earlier);
no time limit is exceeded, no callback asks to end, and the watchdog takes no turn while the process is being started (see C84 for what happens
otherwise). At all other points it takes its turns as it likes.
-/

namespace Trax.Link

/-- The program of a tracker, seen from outside: what it writes when it starts, what it writes after it has read a text, and what the operating system says of the
process at a moment. -/
structure Peer (π : Type) where
  start : Outcome (π × Str)
  respond : Str → π → Outcome (π × Str)
  polled : π → Nat → Proc.Poll := fun _ _ => .running

/-- The two ends of the connection: the tracker (`none` before it is started), the client (`none` before it is set up), what the tracker has written before
that, and how much of what the client has written has gone to the tracker. `images`, `region` and `properties` are the arguments of the call that is made, `answer`
is what the last call of `wait` has stored in its first argument. `moment` counts the points where the watchdog can take a turn; what the operating system says of the process changes only there. `broken`
tells whether a call has had undefined behaviour or a failed assertion. -/
structure State (π : Type) where
  peer : Option π := none
  client : Option Handle := none
  arrived : Str := []
  passed : Nat := 0
  images : Cli.FrameImages := {}
  region : Option Region := none
  properties : Properties := Properties.create
  answer : Option Region := none
  moment : Nat := 0
  broken : Bool := false

/-- The list that the class `ImageList` wraps (`src/traxpp.cpp` 744–749, 820–848). -/
def imageList (l : Cli.FrameImages) : ImageList := [l.color, l.depth, l.ir]

variable {π : Type}

/-- A call that gives a result code and a handle; one that does not return leaves the state broken. -/
def State.after (s : State π) (x : Outcome (Int × Option Handle)) : Int × State π :=
  match x with
  | .ok (ret, h) => (ret, { s with client := h })
  | _ => (TRAX_ERROR, { s with broken := true })

/-- `Client::wait` (`src/traxpp.cpp` 300–327), before which the tracker gets what the client has sent and responds to it. -/
def State.waits (P : Peer π) (env : Env) (s : State π) : Int × State π :=
  match s.client, s.peer with
  | some c, some p =>
    match P.respond (c.stream.out.sent.drop s.passed) p with
    | .ok (p, text) =>
      match Cpp.clientWaitRegion env (some { c with stream := { c.stream with input := c.stream.input ++ text.map InEv.byte } }) none Properties.create with
      | .ok w => (w.ret, { s with client := w.handle, peer := some p, passed := c.stream.out.sent.length, answer := w.region })
      | _ => (TRAX_ERROR, { s with broken := true })
    | _ => (TRAX_ERROR, { s with broken := true })
  | _, _ => (TRAX_ERROR, { s with broken := true })

/-- Everything that `TrackerProcess` has to do with. The class `Client` is used in `support/client/client.cpp` 350–380 (set up), 750–821
(exchanges) and 896–902 (`is_alive`). `out` is the state of the pipe to the tracker when it is opened. -/
def world (P : Peer π) (env : Env) (out : Writer) (turns : Nat → Bool) : Proc.World (State π) where
  spawn s :=
    match P.start with
    | .ok (p, text) => (true, { s with peer := some p, arrived := text })
    | _ => (false, { s with broken := true })
  poll s := ((match s.peer with | none => .running | some p => P.polled p s.moment), s)
  connect s :=
    match Handle.clientSetup ⟨none, s.arrived.map InEv.byte, out⟩ with
    | .ok (some c) => (some c.version, { s with client := some c, passed := out.sent.length })
    | .ok none => (none, s)
    | _ => (none, { s with broken := true })
  alive s := ((match s.client with | none => false | some c => c.isAlive), s)
  exchange
    | .init, s => s.after (Cpp.clientInitializeRegion env s.client (imageList s.images) s.region (some s.properties))
    | .frame, s => s.after (Cpp.clientFrameImages env s.client (imageList s.images) none)
    | .wait, s => s.waits P env
  callback s := (false, s)
  expired s := (false, s)
  turn starting s := if starting then (false, s) else (turns s.moment, { s with moment := s.moment + 1 })

/-- A method of `TrackerProcess`: `none` for an exception. -/
def method (W : Proc.World (State π)) (limit : Bool) (op : Proc.Op) (s : Proc.State (State π)) : Option Bool × Proc.State (State π) :=
  match Proc.step W limit s op with
  | .ok (.value b, s) => (some b, s)
  | .ok (.thrown, s) => (none, s)
  | _ => (none, { s with world := { s.world with broken := true } })

/-- What `main` reads from the metadata (`src/traxpp.cpp` 147–187). -/
def about (m : Metadata) : Cli.About where
  name := m.name.getD []
  description := m.description.getD []
  family := m.family.getD []
  formats := m.images.toNat
  channels := m.channels.toNat

/-- The methods of `TrackerProcess` that `traxclient` uses (`support/client/client.cpp` 744–748, 750–821, 896–918, 930–935). `limit` tells whether
there is a time limit. -/
def process (W : Proc.World (State π)) (limit : Bool) : Cli.Process (Proc.State (State π)) where
  query s := method W limit .query s
  ready s := let r := method W limit .ready s; (r.1.getD false, r.2)
  metadata s :=
    match method W limit .ready s with
    | (some true, s) =>
      match s.world.client with
      | some c => (some (about c.metadata), s)
      | none => (none, { s with world := { s.world with broken := true } })
    | (_, s) => (none, s)
  setup images region properties s :=
    let r := method W limit .init { s with world := { s.world with images, region, properties } }
    (r.1.getD false, r.2)
  wait s :=
    match method W limit .wait s with
    | (some true, s) => (.state s.world.answer, s)
    | (some false, s) => (.no, s)
    | (none, s) => (.thrown, s)
  frame images s :=
    let r := method W limit .frame { s with world := { s.world with images } }
    (r.1.getD false, r.2)
  reset s := let r := method W limit .reset s; (r.1.getD false, r.2)

/-- The text of a turn of the loop: what goes through the protocol's stream, then what is flushed to `stdout`, if that is the same pipe. -/
def turned {μ : Type} (shared : Bool) (before : Handle) : Static.Next μ → Option (Static.Program μ) × Str
  | .go p text => (some p, p.handle.stream.out.sent.drop before.stream.out.sent.length ++ if shared then text else [])
  | .stop h text => (none, (h.terminate none).2.stream.out.sent.drop before.stream.out.sent.length ++ if shared then text else [])

/-- What a process reads next. -/
def reads (h : Handle) (text : Str) : Handle := { h with stream := { h.stream with input := h.stream.input ++ text.map InEv.byte } }

/-- The static tracker (`support/tests/static/native_static.c`): one turn of its loop for each request. `shared` tells whether the protocol uses the
standard streams, so that the other output of the program is mixed with it. A program that has ended writes nothing. -/
def static (env : Env) (shared depth ir : Bool) (junk : UInt32) (stream : Stream) : Peer (Option (Static.Program ObjList)) where
  start := (Static.begin false depth ir junk stream).map fun p => (some p, p.handle.stream.out.sent.drop stream.out.sent.length)
  respond text
    | none => .ok (none, [])
    | some p =>
      match Static.turn env (text.length + 3) { p with handle := reads p.handle text } with
      | none => .ub
      | some o => o.map (turned shared p.handle)

/-- The static tracker compiled with `TRAX_LEGACY_SINGLE`. -/
def staticSingle (env : Env) (shared depth ir : Bool) (junk : UInt32) (stream : Stream) : Peer (Option (Static.Program Region)) where
  start := (Static.begin true depth ir junk stream).map fun p => (some p, p.handle.stream.out.sent.drop stream.out.sent.length)
  respond text
    | none => .ok (none, [])
    | some p => (Static.turnSingle env { p with handle := reads p.handle text }).map (turned shared p.handle)

end Trax.Link
