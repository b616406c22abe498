import Verif.Model.Message

/-!
# Specification of the wire format

What a message looks like on the wire (docs/protocol.rst), written without reference to
the way the writer produces it, and the classes of messages used in the properties.
-/

namespace Trax.Spec

/-- Escaping inside quotes: `"` and `\` get a backslash, a line break becomes `\n`. -/
def escape : Str → Str
  | [] => []
  | c :: t =>
    (if c = ch%'"' then b!"\\\"" else if c = ch%'\\' then b!"\\\\"
     else if c = ch%'\n' then b!"\\n" else [c]) ++ escape t

/-- A quoted field and the separator after it. -/
def quoted (s : Str) : Str := b!"\"" ++ s ++ b!"\" "

/-- The names of the messages. -/
def typeName : MsgType → Str
  | .hello => b!"hello"
  | .initialize => b!"initialize"
  | .frame => b!"frame"
  | .state => b!"state"
  | .quit => b!"quit"

/-- Small letters in place of capitals. -/
def small (c : UInt8) : UInt8 := if ch%'A' ≤ c ∧ c ≤ ch%'Z' then c - ch%'A' + ch%'a' else c

/-- The spellings of the names of the messages: capitals or small letters; `status` is
another name of `state`. -/
def Spelling (t : MsgType) (name : Str) : Prop :=
  name.map small = typeName t ∨ (t = .state ∧ name.map small = b!"status")

instance (t : MsgType) (name : Str) : Decidable (Spelling t name) := inferInstanceAs (Decidable (_ ∨ _))

/-- The text of a message. -/
def wire (t : MsgType) (args : List Str) (props : List (Str × Str)) : Str :=
  b!"@@TRAX:" ++ typeName t ++ b!" "
    ++ args.flatMap (fun a => quoted (escape a))
    ++ props.flatMap (fun kv => quoted (kv.1 ++ b!"=" ++ escape kv.2))
    ++ b!"\n"

/-- 7-bit text without NUL. -/
def Plain (s : Str) : Prop := ∀ c ∈ s, c ≠ 0 ∧ c.toNat < 128

instance (s : Str) : Decidable (Plain s) :=
  inferInstanceAs (Decidable (∀ c ∈ s, c ≠ 0 ∧ c.toNat < 128))

/-- A valid protocol key: at most 64 letters, digits, dots and underscores. -/
def ValidKey (k : Str) : Prop :=
  k.length ≤ 64 ∧ ∀ c ∈ k, (isAlnum c ∨ c = ch%'.' ∨ c = ch%'_')

instance (k : Str) : Decidable (ValidKey k) := inferInstanceAs (Decidable (_ ∧ _))

/-- The argument could be taken for a property: it is a valid key, an equals sign and a value. -/
def LooksLikeProperty (a : Str) : Prop := ∃ k v, a = k ++ b!"=" ++ v ∧ ValidKey k

/-- The messages for which delivery is promised. -/
structure Deliverable (args : List Str) (props : List (Str × Str)) : Prop where
  args_plain : ∀ a ∈ args, Plain a
  args_clear : ∀ a ∈ args, ¬ LooksLikeProperty a
  keys_valid : ∀ kv ∈ props, ValidKey kv.1
  values_plain : ∀ kv ∈ props, Plain kv.2

/-- A byte string as input events. -/
def bytes (s : Str) : List InEv := s.map .byte

end Trax.Spec
