import Verif.Spec.Wire

/-!
# Specification of the messages that are accepted

`Spec.wire` is the one text in which this library writes a message. Other implementations of the
protocol (docs/protocol.rst, "Message format" and "Escape sequences") may write the same message
in other ways: arguments without quotes, more than one separating space, arguments and named
arguments in any order, any character escaped, no space at the end of the line, the name of
the message in capitals. This file says which texts are writings of which message.
-/

namespace Trax.Spec

/-- One character of a text as it is written: as it is, or after a backslash. -/
inductive Piece where
  | plain (c : UInt8)
  | escaped (c : UInt8)
deriving DecidableEq, Repr

/-- The characters on the wire. -/
def Piece.written : Piece → Str
  | .plain c => [c]
  | .escaped c => [ch%'\\', c]

/-- The character that is meant: after a backslash, `n` means a line break and everything else
means itself. -/
def Piece.meant : Piece → UInt8
  | .plain c => c
  | .escaped c => if c = ch%'n' then ch%'\n' else c

/-- A text written by pieces, and what it means. -/
def written (ps : List Piece) : Str := ps.flatMap Piece.written
/-- See `written`. -/
def meant (ps : List Piece) : Str := ps.map Piece.meant

/-- Characters that may be written inside quotes. -/
def Piece.InQuotes : Piece → Prop
  | .plain c => c ≠ 0 ∧ c.toNat < 128 ∧ c ≠ ch%'"' ∧ c ≠ ch%'\\' ∧ c ≠ ch%'\n'
  | .escaped c => c ≠ 0 ∧ c.toNat < 128 ∧ c ≠ ch%'\n'

/-- Characters that may be written without quotes. -/
def Piece.Bare : Piece → Prop
  | .plain c => c ≠ 0 ∧ c.toNat < 128 ∧ c ≠ ch%' ' ∧ c ≠ ch%'\\' ∧ c ≠ ch%'\n'
  | .escaped c => c ≠ 0 ∧ c.toNat < 128 ∧ c ≠ ch%'\n'

/-- No equals sign ends a valid key, unless it is escaped: the text is not a named argument. -/
def NoKey (ps : List Piece) : Prop :=
  ∀ a b, ps = a ++ .plain ch%'=' :: b → ¬ ValidKey (meant a)

/-- One argument or named argument as it is written. -/
inductive Field where
  /-- `"text"` -/
  | quotedArg (ps : List Piece)
  /-- `text`, with a first character that is not escaped -/
  | bareArg (c : UInt8) (ps : List Piece)
  /-- `"key=text"` -/
  | quotedNamed (key : Str) (ps : List Piece)
  /-- `key=text` -/
  | bareNamed (key : Str) (ps : List Piece)
deriving DecidableEq, Repr

/-- The characters on the wire. -/
def Field.written : Field → Str
  | .quotedArg ps => b!"\"" ++ Spec.written ps ++ b!"\""
  | .bareArg c ps => [c] ++ Spec.written ps
  | .quotedNamed k ps => b!"\"" ++ k ++ b!"=" ++ Spec.written ps ++ b!"\""
  | .bareNamed k ps => k ++ b!"=" ++ Spec.written ps

/-- The fields that may be written. -/
def Field.Allowed : Field → Prop
  | .quotedArg ps => (∀ p ∈ ps, p.InQuotes) ∧ NoKey ps
  | .bareArg c ps => (Piece.plain c).Bare ∧ c ≠ ch%'"' ∧ c ≠ ch%'\r' ∧ (∀ p ∈ ps, p.Bare) ∧
      ∀ a b, ps = a ++ .plain ch%'=' :: b → ¬ ValidKey (c :: meant a)
  | .quotedNamed k ps => ValidKey k ∧ ∀ p ∈ ps, p.InQuotes
  | .bareNamed k ps => k ≠ [] ∧ ValidKey k ∧ ∀ p ∈ ps, p.Bare

/-- The fields in quotes. -/
def Field.Quoted : Field → Prop
  | .quotedArg _ => True
  | .quotedNamed _ _ => True
  | _ => False

/-- The positional argument that is meant, if any. -/
def Field.arg : Field → Option Str
  | .quotedArg ps => some (meant ps)
  | .bareArg c ps => some (c :: meant ps)
  | _ => none

/-- The named argument that is meant, if any. -/
def Field.named : Field → Option (Str × Str)
  | .quotedNamed k ps => some (k, meant ps)
  | .bareNamed k ps => some (k, meant ps)
  | _ => none

/-- Separating characters: a space, and then any number of spaces and carriage returns. -/
def Separator (s : Str) : Prop := ∃ t, s = ch%' ' :: t ∧ ∀ c ∈ t, c = ch%' ' ∨ c = ch%'\r'

/-- The beginning of a message: the name and some complete fields, each after a separator. -/
inductive Head (t : MsgType) : List Field → Str → Prop where
  | name (name : Str) : Spelling t name → Head t [] (b!"@@TRAX:" ++ name)
  | field (fs : List Field) (text sep : Str) (f : Field) :
      Head t fs text → Separator sep → f.Allowed → Head t (fs ++ [f]) (text ++ sep ++ f.written)

/-- A complete message: the beginning, possibly a separator, the end of the line. -/
def Writes (t : MsgType) (fs : List Field) (line : Str) : Prop :=
  ∃ text, Head t fs text ∧
    (line = text ++ b!"\n" ∨ ∃ sep, Separator sep ∧ line = text ++ sep ++ b!"\n")

/-- A message that breaks off: the last field ends, at the end of the line, with a backslash that
has nothing to escape, or the quotes of the last field are followed by a character
that is no separator. -/
inductive Broken (t : MsgType) : Str → Prop where
  | quotedEscape (fs : List Field) (text sep : Str) (ps : List Piece) :
      Head t fs text → Separator sep → (∀ p ∈ ps, p.InQuotes) →
      Broken t (text ++ sep ++ b!"\"" ++ written ps ++ b!"\\\n")
  | bareEscape (fs : List Field) (text sep : Str) (c : UInt8) (ps : List Piece) :
      Head t fs text → Separator sep → (Piece.plain c).Bare → c ≠ ch%'"' → c ≠ ch%'\r' →
      (∀ p ∈ ps, p.Bare) → Broken t (text ++ sep ++ [c] ++ written ps ++ b!"\\\n")
  | stray (fs : List Field) (text sep : Str) (f : Field) (x : UInt8) (tail : Str) :
      Head t fs text → Separator sep → f.Allowed → f.Quoted →
      x.toNat < 128 → x ≠ ch%' ' → x ≠ ch%'\n' → (∀ c ∈ tail, c.toNat < 128 ∧ c ≠ ch%'\n') →
      Broken t (text ++ sep ++ f.written ++ [x] ++ tail ++ b!"\n")

end Trax.Spec
