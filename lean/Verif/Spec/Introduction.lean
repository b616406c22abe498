import Verif.Model.Handle
import Verif.Spec.Formats

/-!
# What an introduction says

docs/protocol.rst, message `hello`.
-/

namespace Trax.Spec

/-- The message is an introduction of a tracker that speaks version `v` and says that it takes the regions named in `regions`, the images
named in `images` and the channels named in `channels` (from version 2 on), and, from version 4 on, whether it can follow more than one
object. -/
structure Introduces (m : ReadResult) (v : Int) (regions images channels : List Str) (multi : Bool) : Prop where
  hello : m.mtype = some .hello
  alone : m.args = []
  range : -(2 ^ 31) ≤ v ∧ v < 2 ^ 31
  version : m.props.get b!"trax.version" = some (fmtInt v)
  regions : ∃ s, m.props.get b!"trax.region" = some s ∧ Listing regions s
  images : ∃ s, m.props.get b!"trax.image" = some s ∧ Listing images s
  channels : 2 ≤ v → ∃ s, m.props.get b!"trax.channels" = some s ∧ Listing channels s
  multi : (m.props.get b!"trax.multiobject" = none ∧ multi = false) ∨
    ∃ n : Int, -(2 ^ 31) ≤ n ∧ n < 2 ^ 31 ∧ m.props.get b!"trax.multiobject" = some (fmtInt n) ∧ (multi = true ↔ n ≠ 0)

/-- Every bit of the set is there. -/
def Everything (f : UInt32) : Prop := ∀ i, i < 32 → f.toNat.testBit i = true

end Trax.Spec
