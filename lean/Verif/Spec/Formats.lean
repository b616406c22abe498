import Verif.Model.Bytes

/-!
# Specification of the lists of formats and channels

The values of `trax.image`, `trax.region` and `trax.channels` (docs/protocol.rst): names separated by semicolons.
-/

namespace Trax.Spec

/-- The names of the kinds of images, with the number of the bit. -/
def imageNames : List (Str × Nat) := [(b!"path", 0), (b!"url", 1), (b!"memory", 2), (b!"buffer", 3)]

/-- The names of the kinds of regions. -/
def regionNames : List (Str × Nat) := [(b!"rectangle", 1), (b!"polygon", 2), (b!"mask", 3)]

/-- The names of the channels. -/
def channelNames : List (Str × Nat) := [(b!"color", 0), (b!"depth", 1), (b!"ir", 2)]

/-- A text without blanks and semicolons. -/
def ListWord (w : Str) : Prop := w ≠ [] ∧ ch%';' ∉ w ∧ ch%' ' ∉ w

/-- The text is a list of these words, with one or more semicolons behind each; the last one may have none, and
there may be semicolons in front. -/
inductive Listing : List Str → Str → Prop
  | nil : Listing [] []
  | sep {ws s} : Listing ws s → Listing ws (ch%';' :: s)
  | last {w} : ListWord w → Listing [w] w
  | cons {w ws s} : ListWord w → Listing ws s → Listing (w :: ws) (w ++ ch%';' :: s)

/-- The set of the words: bit `i` is set exactly when one of the words is its name. -/
def SetOf (table : List (Str × Nat)) (ws : List Str) (f : UInt32) : Prop :=
  ∀ i, f.toNat.testBit i = true ↔ ∃ w ∈ ws, (w, i) ∈ table

/-- Every word is in the table. -/
def AllKnown (table : List (Str × Nat)) (ws : List Str) : Prop := ∀ w ∈ ws, ∃ i, (w, i) ∈ table

/-- A reader of such lists gives the set of the words, or nothing when one of them is unknown. -/
def ReadsLists (table : List (Str × Nat)) (decode : Str → Option UInt32) : Prop :=
  ∀ ws s, Listing ws s →
    (AllKnown table ws → ∃ f, decode s = some f ∧ SetOf table ws f) ∧ (¬ AllKnown table ws → decode s = none)

/-- A writer of such lists lists the names of the bits that are set, and only those. -/
def WritesLists (table : List (Str × Nat)) (encode : UInt32 → Str) : Prop :=
  ∀ f, ∃ ws, Listing ws (encode f) ∧ ∀ w, w ∈ ws ↔ ∃ i, (w, i) ∈ table ∧ f.toNat.testBit i = true

end Trax.Spec
