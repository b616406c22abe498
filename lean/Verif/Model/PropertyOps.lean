import Verif.Model.Properties
import Verif.Spec.PropertyMap

/-!
# Histories of calls on property objects

The store of the model: every `trax_properties*` is an object of its own. That objects do
not share memory is the modelling of `sm_put` copying keys and values into fresh
allocations (`src/strmap.c` 162–246). Appending an object to itself is modelled as
appending a snapshot.
-/

namespace Trax

/-- One API call on a store of property objects of the model. -/
def PropOp.run (s : List Properties) : Spec.PropOp → List Properties
  | .create => s ++ [Properties.create]
  | .set i k v => s.modify i fun p => p.set k v
  | .clear i => s.modify i fun p => p.clear
  | .copy i => match s[i]? with
    | some p => s ++ [p.copy]
    | none => s
  | .append i j => match s[i]? with
    | some p => s.modify j fun d => Properties.append p d true
    | none => s

/-- A history of API calls, starting without objects. -/
def runPropOps (ops : List Spec.PropOp) : List Properties := ops.foldl PropOp.run []

end Trax
