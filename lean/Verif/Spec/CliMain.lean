import Verif.Model.CliMain
import Verif.Spec.Runner
import Mathlib.Data.List.Forall2

/-!
# What a run of `traxclient` leaves behind
-/

namespace Trax.Cli.Spec

variable {σ : Type}

/-- What is exchanged with a tracker: an initialization, a frame, what came back. -/
inductive Call where
  | setup (images : FrameImages) (region : Region) (properties : Properties)
  | frame (images : FrameImages)
  | answer (a : Answer)

/-- From the state `t` the tracker process gets to another state, with the exchanges of a list. Other calls can come in between. -/
inductive Did (P : Process σ) (t : σ) : List Call → σ → Prop
  | start : Did P t [] t
  | query {cs t'} : Did P t cs t' → Did P t cs (P.query t').2
  | ready {cs t'} : Did P t cs t' → Did P t cs (P.ready t').2
  | metadata {cs t'} : Did P t cs t' → Did P t cs (P.metadata t').2
  | reset {cs t'} : Did P t cs t' → Did P t cs (P.reset t').2
  | setup {cs t'} (i : FrameImages) (r : Region) (p : Properties) : Did P t cs t' → (P.setup i (some r) p t').1 = true →
      Did P t (cs ++ [.setup i r p]) (P.setup i (some r) p t').2
  | frame {cs t'} (i : FrameImages) : Did P t cs t' → (P.frame i t').1 = true → Did P t (cs ++ [.frame i]) (P.frame i t').2
  | wait {cs t'} : Did P t cs t' → Did P t (cs ++ [.answer (P.wait t').1]) (P.wait t').2

/-- A tracker process that is always there, introduces itself with `a`, takes what it is given, and answers with a region of `A`. -/
structure Willing (P : Process σ) (a : About) (A : Region → Prop) : Prop where
  query : ∀ t, ∃ b, (P.query t).1 = some b
  ready : ∀ t, (P.ready t).1 = true
  metadata : ∀ t, (P.metadata t).1 = some a
  setup : ∀ i r p t, (P.setup i r p t).1 = true
  wait : ∀ t, ∃ r, (P.wait t).1 = .state (some r) ∧ A r
  frame : ∀ i t, (P.frame i t).1 = true

/-- An image of a frame is the path of the file in its column, or the content of that file. -/
def Shows (read : Str → Option Str) (column : Str) : Option Image → Prop
  | none => True
  | some (.path p) => p = cstr column
  | some (.buffer _ data) => read column = some data
  | some _ => False

/-- The images of a frame come from its row: colour, depth, infrared. -/
def FromRow (read : Str → Option Str) (row : List Str) (images : FrameImages) : Prop :=
  Shows read (row.getD 0 []) images.color ∧ Shows read (row.getD 1 []) images.depth ∧ Shows read (row.getD 2 []) images.ir

/-- Capital letters made small. -/
def small (c : UInt8) : UInt8 := if 65 ≤ c ∧ c ≤ 90 then c + 32 else c

/-- An environment variable that says "true", in small or capital letters. -/
def isTrue (v : Option Str) : Bool := v.map (List.map small) == some b!"true"

/-- What a run works with. -/
structure Sequence where
  rows : List (List Str)
  groundtruth : List (Option Region)
  initialization : List (Option Region)

/-- The number of frames. -/
def Sequence.frames (q : Sequence) : Nat := min q.rows.length q.groundtruth.length

/-- The regions in a file; a file that cannot be opened has none. -/
def Regions (read : Str → Option Str) (name : Str) (rs : List (Option Region)) : Prop :=
  (∃ text, read name = some text ∧ loadTrajectory text = .ok rs) ∨ (read name = none ∧ rs = [])

/-- The sequence that the files of the command line give. Without a file for the initialization it is the groundtruth. -/
def Given (read : Str → Option Str) (c : Opt.Settings) (q : Sequence) : Prop :=
  (∃ text, read c.images = some text ∧ q.rows = readImages text) ∧ Regions read c.groundtruth q.groundtruth ∧
  ((c.initialization = [] ∧ q.initialization = q.groundtruth) ∨ (c.initialization ≠ [] ∧ Regions read c.initialization q.initialization))

/-- The overlap of an answer with the groundtruth, inside some bounds; without bounds unless the environment asks for them. -/
def Measured (W : World σ) (q : Sequence) (f : Nat) (answer : Option Region) (overlap : Flt) : Prop :=
  ∃ bounds, (isTrue (W.getenv b!"TRAX_BOUNDED_OVERLAP") = false → bounds = Bounds.none) ∧
    Region.apiOverlap (isTrue (W.getenv b!"TRAX_REGION_LEGACY")) W.fresh (q.groundtruth[f]?.join) answer bounds = .ok overlap

/-- The overlap is too small: there is a threshold, and the overlap is not above it. -/
def TooSmall (threshold overlap : Flt) : Prop := Flt.le .zero threshold = true ∧ Flt.le overlap threshold = true

/-- An answer that counts as a failure: the tracker wants to end, or its region is too far from the groundtruth. -/
def Failure (W : World σ) (c : Opt.Settings) (q : Sequence) (f : Nat) : Answer → Prop
  | .thrown => False
  | .no => True
  | .state r => ∃ o, Measured W q f r o ∧ TooSmall c.threshold o

/-- An answer that is accepted. -/
def Accepted (W : World σ) (c : Opt.Settings) (q : Sequence) (f : Nat) (r : Option Region) : Prop :=
  ∃ o, Measured W q f r o ∧ ¬ TooSmall c.threshold o

/-- What comes after a failure. -/
def afterFailure (c : Opt.Settings) : Phase := if c.reinitialize ≤ 0 then .stopped else .idle (c.reinitialize.toNat - 1)

/-- The frame `f` of a sequence: what is exchanged with the tracker, the entry of the result, and the times noted. -/
inductive Step (W : World σ) (c : Opt.Settings) (q : Sequence) (f : Nat) : Phase → List Call → Option Region → List (Option Nat) → Phase → Prop
  | stopped : Step W c q f .stopped [] (some (.special 0)) [none] .stopped
  | pass (k : Nat) : Step W c q f (.idle (k + 1)) [] (some (.special 0)) [none] (.idle k)
  | skip : q.initialization[f]? = some none → Step W c q f (.idle 0) [] (some (.special 0)) [] (.idle 0)
  | begin {row images r a} : q.rows[f]? = some row → FromRow W.read row images → q.initialization[f]? = some (some r) → Accepted W c q f a →
      Step W c q f (.idle 0) [.setup images r c.properties, .answer (.state a)] (some (.special 1)) [some f] .tracking
  | beginFailed {row images r a} : q.rows[f]? = some row → FromRow W.read row images → q.initialization[f]? = some (some r) → Failure W c q f a →
      Step W c q f (.idle 0) [.setup images r c.properties, .answer a] (some (.special 2)) [none] (afterFailure c)
  | go {row images a} : q.rows[f]? = some row → FromRow W.read row images → Accepted W c q f a →
      Step W c q f .tracking [.frame images, .answer (.state a)] a [some f] .tracking
  | goFailed {row images a} : q.rows[f]? = some row → FromRow W.read row images → Failure W c q f a →
      Step W c q f .tracking [.frame images, .answer a] (some (.special 2)) [none] (afterFailure c)

/-- The frames from `f` on, up to the last. -/
inductive Steps (W : World σ) (c : Opt.Settings) (q : Sequence) : Nat → Phase → List Call → List (Option Region) → List (Option Nat) → Prop
  | done {f ph} : f = q.frames → Steps W c q f ph [] [] []
  | next {f ph ph' calls calls' entry entries times times'} : f < q.frames → Step W c q f ph calls entry times ph' →
      Steps W c q (f + 1) ph' calls' entries times' → Steps W c q f ph (calls ++ calls') (entry :: entries) (times ++ times')

/-- What is needed for a run without interruption: a tracker that does what it is asked, images that can be loaded, answers with a
text and an overlap that can be computed, and no threshold for failures. -/
structure Smooth (W : World σ) (c : Opt.Settings) (q : Sequence) (a : About) (A : Region → Prop) : Prop where
  willing : Willing W.process a A
  images : ∀ row ∈ q.rows, ∃ l, frameImages W.read row a.formats a.channels = .ok (.ok l)
  texts : ∀ r, A r → ∃ text, r.string = .ok (some text)
  overlap : ∀ f r, f < q.frames → A r →
    ∃ o, Region.apiOverlap (isTrue (W.getenv b!"TRAX_REGION_LEGACY")) W.fresh (q.groundtruth[f]?.join) (some r) Bounds.none = .ok o
  unbounded : isTrue (W.getenv b!"TRAX_BOUNDED_OVERLAP") = false
  threshold : Flt.le .zero c.threshold = false

/-- The text of a file of lines. -/
def lines : List Str → Str
  | [] => []
  | l :: ls => l ++ ch%'\n' :: lines ls

/-- The line for an entry of the result: empty without a region, otherwise the text of the region, if it has one. -/
def EntryText : Option Region → Str → Prop
  | none, t => t = []
  | some r, t => r.string = .ok (some t) ∨ (r.string = .ok none ∧ t = [])

/-- The line for a time. -/
def timeText (W : World σ) : Option Nat → Str
  | none => b!"0"
  | some f => W.clock f

end Trax.Cli.Spec
