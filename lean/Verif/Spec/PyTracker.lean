import Verif.Spec.LoopRun
import Verif.Spec.PyStart
import Verif.Model.PyTracker

/-!
# What a run of `traxclient` with a tracker written in Python is about
-/

namespace Trax.PyLoop.Spec
open Trax.Spec Trax.Py Trax.Py.Spec Trax.Cli.Spec
variable {τ : Type}

/-- The dictionary of the images that have come. -/
def dictionary : ImageList → List (Text × Image)
  | [color, depth, ir] => (color.map fun i => (t!"color", i)).toList ++ (depth.map fun i => (t!"depth", i)).toList ++ (ir.map fun i => (t!"ir", i)).toList
  | _ => []

/-- The request to begin with one object, and the request to go on. -/
def begins (r : Region) (images : ImageList) (properties : Properties) : Request := ⟨t!"initialize", some (dictionary images), some [(some r, [])], properties⟩
def continues (images : ImageList) (properties : Properties) : Request := ⟨t!"frame", some (dictionary images), none, properties⟩

/-- An answer for one object, with properties that can be sent. -/
def Single (x : Step τ) : Prop := x.fate = .answers ∧ (∃ o, x.objects = [o] ∧ SendableDict o.2) ∧ SendableDict x.properties

/-- A step as a step of any tracker: what matters is the region of the object. The state is the step itself. -/
noncomputable def likeStep (x : Step τ) : Loop.Step (Step τ) where
  state := x
  region := (x.objects.head?.map Prod.fst).getD (.special 0)
  before := x.before
  after := x.after
  fate := open Classical in if Single x then .answers else .crashes

/-- The tracker, as one that follows the documentation of the other language: it is initialized by the first request, and updated by the others. -/
noncomputable def like (T : Tracker τ) : Loop.Tracker (Step τ) where
  init r images properties := likeStep (T.step T.first (begins r images properties))
  update x images properties := likeStep (T.step x.state (continues images properties))

/-- What the tracker declares, as the client is told. -/
def declaration (a : ServerArgs) : Metadata where
  regions := (if t!"rectangle" ∈ a.regions then 2 else 0) ||| (if t!"polygon" ∈ a.regions then 4 else 0) ||| (if t!"mask" ∈ a.regions then 8 else 0)
  images := (if t!"path" ∈ a.images then 1 else 0) ||| (if t!"url" ∈ a.images then 2 else 0) ||| (if t!"memory" ∈ a.images then 4 else 0) ||| (if t!"buffer" ∈ a.images then 8 else 0)
  channels := (if t!"color" ∈ a.channels then 1 else 0) ||| (if t!"depth" ∈ a.channels then 2 else 0) ||| (if t!"ir" ∈ a.channels then 4 else 0)
  name := some (ascii a.name)
  description := some (ascii a.description)
  family := some (ascii a.family)
  custom := Properties.ofPairs (pairs a.custom)
  flags := if a.multiobject then 1 else 0

/-- A text that goes through the protocol as the reason for the end of a session. -/
def Reason (t : Text) : Prop := ∀ c ∈ t, 0 < c ∧ c < 128

end Trax.PyLoop.Spec
