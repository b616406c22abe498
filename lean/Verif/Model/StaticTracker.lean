import Verif.Model.Handle

/-!
# The static tracker of the tests (`support/tests/static/native_static.c`)

The program is compiled twice: as it is, and with `TRAX_LEGACY_SINGLE`, where `trax_server_setup`, `trax_server_wait` and
`trax_server_reply` are the functions for a single object (`include/trax.h` 108–118). The log file, the text printed to `stderr`, the
waiting time and the release of memory are left out. What is printed to `stdout` stays in its buffer until `fflush`: it is
short, and `stdout` is not a terminal.
-/

namespace Trax.Static

/-- The channels that are declared (`support/tests/static/native_static.c` 72–80): `depth` and `ir` tell whether the environment variables
`TRAX_TEST_USE_DEPTH` and `TRAX_TEST_USE_IR` are set. -/
def channels (depth ir : Bool) : UInt32 := 1 ||| (if depth then 2 else 0) ||| (if ir then 4 else 0)

/-- The metadata (`support/tests/static/native_static.c` 87–93): all regions, all images. -/
def metadata (single depth ir : Bool) : Outcome Metadata :=
  Metadata.create (2 ||| 4 ||| 8) (1 ||| 2 ||| 4 ||| 8) (channels depth ir) (some b!"Static") (some b!"Static demo tracker") (some b!"Demo")
    (if single then 0 else 1)

/-- The variables of `main`, with the variable `mem` (`none` for NULL) of one of the two types, and what is in the buffer of `stdout`. -/
structure Program (μ : Type) where
  handle : Handle
  mem : Option μ
  buffered : Str

/-- `main` up to the loop (`support/tests/static/native_static.c` 58–103). -/
def begin {μ : Type} (single depth ir : Bool) (junk : UInt32) (stream : Stream) : Outcome (Program μ) :=
  (metadata single depth ir).bind fun m =>
    (Handle.serverSetup junk m stream (if single then 3 else 0)).map fun h => { handle := h, mem := none, buffered := b!"OUT: START\n" }

/-- How a turn of the loop ends: with the variables for the next turn, or with `run = 0`. The text is what is flushed to `stdout`. -/
inductive Next (μ : Type) where
  | go (p : Program μ) (text : Str)
  | stop (h : Handle) (text : Str)

/-- A turn of the loop (`support/tests/static/native_static.c` 105–187) without `TRAX_LEGACY_SINGLE`. `none`: the message
that ends the call `trax_server_wait` is not among the first `fuel`. A NULL list given to `trax_object_list_append` or to `trax_server_reply` fails
an assertion. -/
def turn (env : Env) (fuel : Nat) (p : Program ObjList) : Option (Outcome (Next ObjList)) :=
  (Handle.serverWaitMot env fuel p.handle (some Properties.create)).map fun o => o.bind fun w =>
    if w.ret = TRAX_INITIALIZE then
      match w.objects with
      | none => .abort
      | some new =>
        (ObjList.append env.legacy env.fresh (ObjList.create 0) new).bind fun mem =>
          (Handle.serverReplyMot w.handle mem).map fun x : Int × Handle =>
            .go { handle := x.2, mem := some mem, buffered := [] } (p.buffered ++ b!"OUT: INIT\n")
    else if w.ret = TRAX_FRAME then
      match p.mem with
      | none => .abort
      | some mem =>
        (match w.objects with
          | none => (Outcome.ok mem : Outcome ObjList)
          | some new => ObjList.append env.legacy env.fresh mem new).bind fun mem =>
          (Handle.serverReplyMot w.handle mem).map fun x : Int × Handle =>
            .go { handle := x.2, mem := some mem, buffered := [] } (p.buffered ++ b!"OUT: FRAME\n")
    else .ok (.stop w.handle (p.buffered ++ b!"OUT: QUITTING\n"))

/-- A turn of the loop (`support/tests/static/native_static.c` 105–187) with `TRAX_LEGACY_SINGLE`. -/
def turnSingle (env : Env) (p : Program Region) : Outcome (Next Region) :=
  (Handle.serverWaitSot env p.handle (some Properties.create)).bind fun w =>
    if w.ret = TRAX_INITIALIZE then
      (Region.clone env.legacy env.fresh w.region).bind fun mem =>
        (Handle.serverReplySot w.handle mem none).map fun x : Int × Handle =>
          .go { handle := x.2, mem, buffered := [] } (p.buffered ++ b!"OUT: INIT\n")
    else if w.ret = TRAX_FRAME then
      (Handle.serverReplySot w.handle p.mem none).map fun x : Int × Handle =>
        .go { handle := x.2, mem := p.mem, buffered := [] } (p.buffered ++ b!"OUT: FRAME\n")
    else .ok (.stop w.handle (p.buffered ++ b!"OUT: QUITTING\n"))

end Trax.Static
