import Verif.Spec.Values
import Verif.Spec.Image
import Verif.Model.CppHandle

/-!
# Specification of `Metadata` and `Image` objects as values
-/

namespace Trax.Cpp.Spec

open Trax.Spec (AMap pixelBytes PixelData FileData)

/-! ## `Metadata` -/

/-- What a `Metadata` object says. -/
structure MetaVal where
  regions : UInt32
  images : UInt32
  channels : UInt32
  flags : UInt32
  name : Str
  description : Str
  family : Str
  custom : AMap

/-- The effect of a step on `Metadata` objects; at least one channel has to be declared. -/
def metaStep (s : Values MetaVal) : MetaOp → Option (Values MetaVal)
  | .construct x => s.construct x ⟨0, 0, 1, 0, [], [], [], Trax.Spec.AMap.empty⟩
  | .create x a =>
    if a.channels = 0 then none
    else s.construct x ⟨a.regions, a.images, a.channels, a.flags, a.name, a.description, a.family, Trax.Spec.AMap.empty⟩
  | .copy x y => s.copy x y
  | .move x y => s.move x y
  | .assign x y => s.assign x y
  | .moveAssign x y => s.moveAssign x y
  | .destroy x => s.destroy x
  | .setCustom x k v => s.change x fun b => some { b with custom := Trax.Spec.AMap.set b.custom k v }

def metaRun : List MetaOp → Values MetaVal → Option (Values MetaVal)
  | [], s => some s
  | op :: ops, s => (metaStep s op).bind (metaRun ops)

/-- The strings are C strings; no object is assigned to itself, none that was moved from is copied, and no custom property
is set while another object has the same value by copying. -/
def MetaCareful (s : Values MetaVal) : MetaOp → Prop
  | .create _ a => NoNul a.name ∧ NoNul a.description ∧ NoNul a.family
  | .copy _ y => ¬ s.Moved y
  | .assign x y => x ≠ y ∧ ¬ s.Moved y
  | .setCustom x k v => NoNul k ∧ NoNul v ∧ ¬ s.Shared x
  | _ => True

def MetaCarefulRun : List MetaOp → Values MetaVal → Prop
  | [], _ => True
  | op :: ops, s => MetaCareful s op ∧ ∀ s', metaStep s op = some s' → MetaCarefulRun ops s'

/-! ## `Image` -/

/-- The image after byte `j` of its row `row` was written: the rows follow each other, each with the bytes of all its
pixels. -/
def writeByte (row j : Int) (v : UInt8) : Option Image → Option (Option Image)
  | some (.memory w h f data) =>
    if 0 ≤ row ∧ row < h ∧ 0 ≤ j ∧ j < w * pixelBytes f then
      some (some (.memory w h f (data.set (row * (w * pixelBytes f) + j).toNat v)))
    else none
  | _ => none

/-- The effect of a step on `Image` objects. -/
def imageStep (s : Values (Option Image)) : ImageOp → Option (Values (Option Image))
  | .construct x => s.construct x none
  | .path x p => s.construct x (some (.path p))
  | .url x u => s.construct x (some (.url u))
  | .memory x w h f fresh =>
    if (f = 1 ∨ f = 2 ∨ f = 3) ∧ 1 ≤ w ∧ 1 ≤ h ∧ w * h * pixelBytes f < 2147483648 then
      s.construct x (some (.memory w h f ((List.range (w * h * pixelBytes f).toNat).map fresh)))
    else none
  | .buffer x data =>
    if 5 ≤ data.length then
      if data.take 4 = [0xFF, 0xD8, 0xFF, 0xE0] then s.construct x (some (.buffer 2 data))
      else if data.take 4 = [0x89, 0x50, 0x4E, 0x47] then s.construct x (some (.buffer 1 data))
      else none
    else none
  | .copy x y => s.copy x y
  | .move x y => s.move x y
  | .assign x y => s.assign x y
  | .moveAssign x y => s.moveAssign x y
  | .destroy x => s.destroy x
  | .write x row j v => s.change x (writeByte row j v)

def imageRun : List ImageOp → Values (Option Image) → Option (Values (Option Image))
  | [], s => some s
  | op :: ops, s => (imageStep s op).bind (imageRun ops)

/-- Paths and URLs are C strings; no object is assigned to itself, none that was moved from is copied, nothing is written
while another object has the same value by copying, and it is written to the first row or to images of one column. -/
def ImageCareful (s : Values (Option Image)) : ImageOp → Prop
  | .path _ p => NoNul p
  | .url _ u => NoNul u
  | .copy _ y => ¬ s.Moved y
  | .assign x y => x ≠ y ∧ ¬ s.Moved y
  | .write x row _ _ => ¬ s.Shared x ∧ (row = 0 ∨ ∀ t w h f d, s.vars x = some (.val t (some (.memory w h f d))) → w = 1)
  | _ => True

def ImageCarefulRun : List ImageOp → Values (Option Image) → Prop
  | [], _ => True
  | op :: ops, s => ImageCareful s op ∧ ∀ s', imageStep s op = some s' → ImageCarefulRun ops s'

end Trax.Cpp.Spec
