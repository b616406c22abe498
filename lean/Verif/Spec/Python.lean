import Verif.Model.Python

/-!
# Specification of texts, names and properties in the Python package
-/

namespace Trax.Py.Spec

/-- The names of the region formats with their flags (`include/trax.h`: special 1, rectangle 2, polygon 4, mask 8). -/
def regionNames : List (Text × Nat) := [(t!"special", 1), (t!"rectangle", 2), (t!"polygon", 4), (t!"mask", 8)]

/-- The names of the image formats with their flags (`include/trax.h`: path 1, url 2, memory 4, buffer 8). -/
def imageNames : List (Text × Nat) := [(t!"path", 1), (t!"url", 2), (t!"memory", 4), (t!"buffer", 8)]

/-- The names of the channels with their flags (`include/trax.h`: color 1, depth 2, infrared 4). -/
def channelNames : List (Text × Nat) := [(t!"color", 1), (t!"depth", 2), (t!"ir", 4)]

/-- A text that can be encoded: its code points are characters, not surrogates. -/
def Encodable (t : Text) : Prop := ∀ c ∈ t, c.isValidChar

/-- A text that C can take: without the NUL character, too. -/
def CText (t : Text) : Prop := Encodable t ∧ 0 ∉ t

/-- The bytes of a text in UTF-8, as Lean's own strings have them. -/
def utf8Bytes (cs : List Char) : List UInt8 := cs.flatMap String.utf8EncodeChar

/-- The code points of characters. -/
def codePoints (cs : List Char) : Text := cs.map Char.toNat

/-- An abstract property object: the value of each key, if any. -/
abbrev TMap := Text → Option Text

/-- The value of a key in a dictionary. -/
def lookup (d : Dict) (k : Text) : Option Text := (d.find? fun e => e.1 = k).map Prod.snd

/-- What the calls should do. -/
def apply (s : List TMap) : PropCall → List TMap
  | .new d => s ++ [lookup d]
  | .set i k v => s.modify i fun m k' => if k' = k then some v else m k'
  | .copy i j => match s[j]? with
    | some src => s.modify i fun m k => (src k).or (m k)
    | none => s

/-- The abstract objects after a history. -/
def applyAll (cs : List PropCall) : List TMap := cs.foldl apply []

/-- A dictionary: every key once, and its texts can be given to C. -/
def GoodDict (d : Dict) : Prop := (d.map Prod.fst).Nodup ∧ ∀ e ∈ d, CText e.1 ∧ CText e.2

/-- A call with objects that exist (there are `n`) and with texts that C can take. -/
def GoodCall (n : Nat) : PropCall → Prop
  | .new d => GoodDict d
  | .set i k v => i < n ∧ CText k ∧ CText v
  | .copy i j => i < n ∧ j < n

/-- A history of such calls. -/
def GoodCalls : Nat → List PropCall → Prop
  | _, [] => True
  | n, c :: cs => GoodCall n c ∧ GoodCalls (match c with | .new _ => n + 1 | _ => n) cs

end Trax.Py.Spec
