import Verif.Model.Bytes
import Verif.Model.Outcome

/-!
# The images in the test utility (`support/client/tester_resources.c` 7676–7896)

The function `tinfl_decompress` (`support/client/tester_resources.c` 264–537) is a parameter: a function of its state, the input, the room for the output and whether there is more input. The buffer for the output (`pDict`) is only
modelled as far as its size goes, as its content is passed on at once. Allocations succeed. A loop that does not end within the given number of turns is `.ub`.
-/

namespace Trax.Resources

/-- `tinfl_status` (`support/client/tester_resources.c` 85–93); the three errors are one. -/
inductive Status where
  | failed
  | done
  | needsInput
  | moreOutput
  deriving DecidableEq, Repr

/-- What `tinfl_decompress` returns: the number of bytes of the input it used, the output, the status and its state. -/
structure Result (σ : Type) where
  used : Nat
  out : Str
  status : Status
  next : σ

/-- `tinfl_decompress`: its state, the input, the room for the output, and `TINFL_FLAG_HAS_MORE_INPUT`. -/
abbrev Inflate (σ : Type) := σ → Str → Nat → Bool → Result σ

/-- `tester_CHUNK_SIZE` (`support/client/tester_resources.c` 7707). -/
def chunkSize : Nat := 32 * 1024

/-- `tester_SEGMENT_LENGTH` (`support/client/tester_resources.c` 7676). -/
def segmentLength : Nat := 1024

/-- One entry of the tables `tester_resource_data`, `tester_resource_names`, `tester_resource_metadata`, `tester_resource_length_inflated` and `tester_resource_length_deflated` (`support/client/tester_resources.c` 7667–7675). -/
structure Resource where
  name : Str
  compressed : Bool
  segments : List Str
  inflated : Nat
  deflated : Nat
  deriving DecidableEq, Repr

/-- The inner loop of `tester_inflate_resource` (`support/client/tester_resources.c` 7751–7774) for one segment: `result`, `dict_ofs`, the state of the decompressor and all pieces that were passed to the callback. `accept` is what the callback
returns, for all pieces it has got. -/
def inflateSegment {σ : Type} (inf : Inflate σ) (accept : List Str → Bool) (seg : Str) (more : Bool) : Nat → Nat → Nat → σ → List Str → Outcome (Int × Nat × σ × List Str)
  | 0, _, _, _, _ => .ub
  | fuel + 1, inOfs, dictOfs, s, got =>
    let r := inf s (seg.drop inOfs) (chunkSize - dictOfs) more
    let inOfs := inOfs + r.used
    let got := if r.out.length ≠ 0 then got ++ [r.out] else got
    if r.out.length ≠ 0 ∧ accept got = false then .ok (-1, dictOfs, r.next, got)
    else
      let dictOfs := (dictOfs + r.out.length) % chunkSize
      match r.status with
      | .needsInput => if inOfs = seg.length then .ok (3, dictOfs, r.next, got) else inflateSegment inf accept seg more fuel inOfs dictOfs r.next got
      | .moreOutput => inflateSegment inf accept seg more fuel inOfs dictOfs r.next got
      | .done => .ok (1, dictOfs, r.next, got)
      | .failed => .ok (0, dictOfs, r.next, got)

/-- The number of bytes of a segment (`support/client/tester_resources.c` 7744–7750, 7846–7850): `last` if it is the last one, `total` for all segments. -/
def segmentSize (total index : Nat) (last : Bool) : Nat :=
  if last then total - index * segmentLength else segmentLength

/-- The outer loop of `tester_inflate_resource` (`support/client/tester_resources.c` 7736–7778): `result` and the pieces. More bytes than a segment has are undefined. -/
def inflateSegments {σ : Type} (inf : Inflate σ) (accept : List Str → Bool) (fuel deflated : Nat) : List Str → Nat → Nat → σ → List Str → Outcome (Int × List Str)
  | [], _, _, _, got => .ok (3, got)
  | seg :: rest, index, dictOfs, s, got =>
    let size := segmentSize deflated index rest.isEmpty
    if size ≤ seg.length then
      match inflateSegment inf accept (seg.take size) (!rest.isEmpty) fuel 0 dictOfs s got with
      | .ok (result, dictOfs, s, got) =>
        if result ≠ 3 then .ok (result, got) else inflateSegments inf accept fuel deflated rest (index + 1) dictOfs s got
      | .abort => .abort
      | .ub => .ub
    else .ub

/-- `tester_inflate_resource` (`support/client/tester_resources.c` 7723–7783). -/
def inflate {σ : Type} (inf : Inflate σ) (init : σ) (accept : List Str → Bool) (fuel : Nat) (r : Resource) : Outcome (Int × List Str) :=
  inflateSegments inf accept fuel r.deflated r.segments 0 0 init []

/-- `tester_has_resource` (`support/client/tester_resources.c` 7785–7797). -/
def has (table : List Resource) (name : Str) : Bool :=
  match table with
  | [] => false
  | r :: rest => if name = r.name then true else has rest name

/-- `tester_get_resource` (`support/client/tester_resources.c` 7799–7817): `none` if it returns 0, otherwise the pieces passed to the callback. Without compression, the callback gets the table of the pointers to the segments (`pointers`:
its bytes), of which it has one for each segment and a null pointer of eight bytes each; more bytes than that are undefined. -/
def get {σ : Type} (inf : Inflate σ) (init : σ) (accept : List Str → Bool) (pointers : Resource → Str) (fuel : Nat) (table : List Resource) (name : Str) : Outcome (Option (List Str)) :=
  match table with
  | [] => .ok Option.none
  | r :: rest =>
    if name = r.name then
      if r.compressed then
        match inflate inf init accept fuel r with
        | .ok (_, got) => .ok (some got)
        | .abort => .abort
        | .ub => .ub
      else if r.deflated ≤ 8 * (r.segments.length + 1) then .ok (some [(pointers r).take r.deflated])
      else .ub
    else get inf init accept pointers fuel rest name

/-- The segments without compression (`support/client/tester_resources.c` 7836–7855). -/
def plainSegments (inflated : Nat) : List Str → Nat → List Str → Outcome (List Str)
  | [], _, got => .ok got
  | seg :: rest, index, got =>
    let size := segmentSize inflated index rest.isEmpty
    if size ≤ seg.length then plainSegments inflated rest (index + 1) (got ++ [seg.take size]) else .ub

/-- The buffer after `tester_copy_callback` (`support/client/tester_resources.c` 7713–7721) has got all pieces: they are written one behind another without a look at the size of the buffer, whose memory is `fresh` before. -/
def fill (fresh : Nat → UInt8) (size : Nat) (got : List Str) : Outcome Str :=
  if got.flatten.length ≤ size then .ok (got.flatten ++ (List.range (size - got.flatten.length)).map fun i => fresh (got.flatten.length + i)) else .ub

/-- `tester_copy_resource` (`support/client/tester_resources.c` 7819–7867): `none` if it returns 0, otherwise the buffer. -/
def copy {σ : Type} (inf : Inflate σ) (init : σ) (fresh : Nat → UInt8) (fuel : Nat) (table : List Resource) (name : Str) : Outcome (Option Str) :=
  match table with
  | [] => .ok Option.none
  | r :: rest =>
    if name = r.name then
      let pieces : Outcome (List Str) :=
        if r.compressed then
          match inflate inf init (fun _ => true) fuel r with
          | .ok (_, got) => .ok got
          | .abort => .abort
          | .ub => .ub
        else plainSegments r.inflated r.segments 0 []
      match pieces with
      | .ok got =>
        match fill fresh r.inflated got with
        | .ok buffer => .ok (some buffer)
        | .abort => .abort
        | .ub => .ub
      | .abort => .abort
      | .ub => .ub
    else copy inf init fresh fuel rest name

/-- `tester_get_length` (`support/client/tester_resources.c` 7869–7890): the compressed and the uncompressed length; `none` if it returns 0. -/
def length (table : List Resource) (name : Str) : Option (Nat × Nat) :=
  match table with
  | [] => Option.none
  | r :: rest => if name = r.name then some (r.deflated, r.inflated) else length rest name

end Trax.Resources
