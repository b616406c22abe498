import Verif.Spec.StaticRun
import Verif.Spec.Session
import Verif.Model.LoopTracker

/-!
# What a run of `traxclient` with a tracker is about
-/

namespace Trax.Cli.Spec
open Trax.Spec

/-- The images of a row as they come to a tracker: the paths of the channels that it has declared. -/
def pictures (channels : UInt32) (row : List Str) : ImageList :=
  [if channels &&& 1 ≠ 0 then some (.path (row.getD 0 [])) else none, if channels &&& 2 ≠ 0 then some (.path (row.getD 1 [])) else none,
    if channels &&& 4 ≠ 0 then some (.path (row.getD 2 [])) else none]

/-- A row with a path for each channel that is declared. -/
def Pictured (channels : UInt32) (row : List Str) : Prop :=
  (channels &&& 1 ≠ 0 → Path (row.getD 0 [])) ∧ (channels &&& 2 ≠ 0 → Path (row.getD 1 [])) ∧ (channels &&& 4 ≠ 0 → Path (row.getD 2 []))

/-- The declarations with which `traxclient` loads the images of all declared channels, as paths: because it takes formats for channels and channels for formats
(C104), the tracker must have declared colour and paths, addresses if it has declared depth, and memory if it has declared infrared. -/
def Suits (m : Metadata) : Prop :=
  m.channels &&& 1 ≠ 0 ∧ m.images &&& 1 ≠ 0 ∧ (m.channels &&& 2 ≠ 0 → m.images &&& 2 ≠ 0) ∧ (m.channels &&& 4 ≠ 0 → m.images &&& 4 ≠ 0)

/-- What the tracker does, frame by frame: it is initialized with the first one and updated with the others. -/
def course {τ : Type} (T : Loop.Tracker τ) (r : Region) (images : Nat → ImageList) (props : Properties) : Nat → Loop.Step τ
  | 0 => T.init r (images 0) props
  | f + 1 => T.update (course T r images props f).state (images (f + 1)) Properties.create

/-- Lines that are not messages: 7-bit text that does not begin as messages do. -/
def Chatter (t : Str) : Prop := ∃ ls : List Str, (∀ l ∈ ls, (∀ c ∈ l, c.toNat < 128 ∧ c ≠ 10) ∧ ¬ b!"@@TRAX:" <+: l) ∧ t = ls.flatMap fun l => l ++ b!"\n"

/-- The region `r` of a sequence comes to the tracker as `start`, in a form that it has declared. -/
def Offered (env : Env) (m : Metadata) (r start : Region) : Prop :=
  Sendable r ∧ ∃ sent text, Region.toSend env.legacy env.fresh r m.regions = .ok sent ∧ Sendable sent ∧ sent.string = .ok (some text) ∧ Reads text start

/-- A step of the tracker that is passed on: its region has the text `text`, which the client reads as `y`. -/
def Reported {τ : Type} (x : Loop.Step τ) (text : Str) (y : Region) : Prop :=
  x.fate = .answers ∧ Sendable x.region ∧ Chatter x.before ∧ Chatter x.after ∧ x.region.string = .ok (some text) ∧ Reads text y

/-- What goes on between two frames: a number of frames to pass over before the next initialization, a tracker at work, or nothing more. -/
inductive Status (τ : Type) where
  | waiting (pass : Nat)
  | working (state : τ)
  | over

/-- After a failure. -/
def Status.failed {τ : Type} (c : Opt.Settings) : Status τ := if c.reinitialize ≤ 0 then .over else .waiting (c.reinitialize.toNat - 1)

/-- A run from frame `f` to frame `n`, where `final` is what goes on then: the lines of the result, and the times. -/
inductive Supervised {τ σ : Type} (W : World σ) (c : Opt.Settings) (q : Sequence) (env : Env) (m : Metadata) (T : Loop.Tracker τ) (n : Nat) (final : Status τ) :
    Nat → Status τ → List Str → List Str → Prop
  /-- there -/
  | done : Supervised W c q env m T n final n final [] []
  /-- nothing more after a failure -/
  | over {f ls ts} : f < q.frames → Supervised W c q env m T n final (f + 1) .over ls ts → Supervised W c q env m T n final f .over (b!"0" :: ls) (b!"0" :: ts)
  /-- a frame that is passed over after a failure -/
  | pass {f k ls ts} : f < q.frames → Supervised W c q env m T n final (f + 1) (.waiting k) ls ts → Supervised W c q env m T n final f (.waiting (k + 1)) (b!"0" :: ls) (b!"0" :: ts)
  /-- a frame without a region to begin with -/
  | skip {f ls ts} : f < q.frames → q.initialization[f]? = some none → Supervised W c q env m T n final (f + 1) (.waiting 0) ls ts →
      Supervised W c q env m T n final f (.waiting 0) (b!"0" :: ls) ts
  /-- the initialization -/
  | begin {f r start x text y ls ts} : f < q.frames → q.initialization[f]? = some (some r) → Offered env m r start →
      x = T.init start (pictures m.channels (q.rows.getD f [])) c.properties → Reported x text y → Accepted W c q f (some y) →
      Supervised W c q env m T n final (f + 1) (.working x.state) ls ts → Supervised W c q env m T n final f (.waiting 0) (b!"1" :: ls) (W.clock f :: ts)
  /-- an initialization that fails -/
  | beginFailed {f r start x text y ls ts} : f < q.frames → q.initialization[f]? = some (some r) → Offered env m r start →
      x = T.init start (pictures m.channels (q.rows.getD f [])) c.properties → Reported x text y → Failure W c q f (.state (some y)) →
      Supervised W c q env m T n final (f + 1) (.failed c) ls ts → Supervised W c q env m T n final f (.waiting 0) (b!"2" :: ls) (b!"0" :: ts)
  /-- a frame -/
  | go {f state x text y ls ts} : f < q.frames → x = T.update state (pictures m.channels (q.rows.getD f [])) Properties.create → Reported x text y →
      Accepted W c q f (some y) → Supervised W c q env m T n final (f + 1) (.working x.state) ls ts → Supervised W c q env m T n final f (.working state) (text :: ls) (W.clock f :: ts)
  /-- a frame in which the tracker fails -/
  | goFailed {f state x text y ls ts} : f < q.frames → x = T.update state (pictures m.channels (q.rows.getD f [])) Properties.create → Reported x text y →
      Failure W c q f (.state (some y)) → Supervised W c q env m T n final (f + 1) (.failed c) ls ts → Supervised W c q env m T n final f (.working state) (b!"2" :: ls) (b!"0" :: ts)

/-- The step of the tracker for frame `n`, when `status` goes on before: it is initialized with a region of the sequence, or updated. -/
def Due {τ : Type} (c : Opt.Settings) (q : Sequence) (env : Env) (m : Metadata) (T : Loop.Tracker τ) (n : Nat) : Status τ → Loop.Step τ → Prop
  | .waiting 0, x => ∃ r start, q.initialization[n]? = some (some r) ∧ Offered env m r start ∧ x = T.init start (pictures m.channels (q.rows.getD n [])) c.properties
  | .working state, x => x = T.update state (pictures m.channels (q.rows.getD n [])) Properties.create
  | _, _ => False

end Trax.Cli.Spec
