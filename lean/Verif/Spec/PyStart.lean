import Verif.Model.PyStart
import Verif.Spec.PySession

/-!
# Specification of the start of a session in the Python package
-/

namespace Trax.Py.Spec
open Trax.Spec (ValidKey Plain)

/-- What a server can declare: formats with known names (regions of the kinds that can be sent), at least one channel, ASCII texts, and custom properties that are not of the library and do
not use the name `multiobject`. -/
structure Declarable (a : ServerArgs) : Prop where
  regions : ∀ s ∈ a.regions, s ∈ [t!"rectangle", t!"polygon", t!"mask"]
  images : ∀ s ∈ a.images, s ∈ [t!"path", t!"url", t!"memory", t!"buffer"]
  channels : ∀ s ∈ a.channels, s ∈ [t!"color", t!"depth", t!"ir"]
  channel : a.channels ≠ []
  name : ∀ c ∈ a.name, 0 < c ∧ c < 128
  description : ∀ c ∈ a.description, 0 < c ∧ c < 128
  family : ∀ c ∈ a.family, 0 < c ∧ c < 128
  custom : SendableDict a.custom
  external : ∀ e ∈ a.custom, ¬ t!"trax." <+: e.1 ∧ e.1 ≠ t!"multiobject"

/-- The list has exactly the names of the other, each once. -/
def SameNames (l l' : List Text) : Prop := l'.Nodup ∧ ∀ s, s ∈ l ↔ s ∈ l'

/-- The client knows of the tracker what the tracker declared. -/
structure Introduced (a : ServerArgs) (i : ClientInfo) : Prop where
  regions : SameNames a.regions i.regions
  images : SameNames a.images i.images
  channels : SameNames a.channels i.channels
  name : i.name = a.name
  description : i.description = a.description
  family : i.family = a.family
  custom : ∀ k, k ≠ t!"multiobject" → i.get k = (lookup a.custom k).map .text
  multiobject : i.get t!"multiobject" = some (.flag a.multiobject)

end Trax.Py.Spec
