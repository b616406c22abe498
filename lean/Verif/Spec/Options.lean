import Verif.Model.Bytes

/-!
# Command lines with options, as in the POSIX utility syntax guidelines
-/

namespace Trax.Spec

/-- The option letters of a program; the Boolean tells that the option has an argument. -/
abbrev Letters := List (Byte × Bool)

/-- Letters a program can use: no zero byte, no byte above 127, no colon, no letter twice. -/
def Letters.Proper (t : Letters) : Prop :=
  (∀ p ∈ t, p.1 ≠ 0 ∧ p.1.toNat < 128 ∧ p.1 ≠ ch%':') ∧ (t.map (·.1)).Nodup

/-- The string that describes the letters to `getopt`: each letter, followed by a colon when it has an argument. -/
def Letters.text (t : Letters) : Str := t.flatMap fun p => if p.2 then [p.1, ch%':'] else [p.1]

/-- What a command line says. -/
inductive Item where
  /-- an option without argument -/
  | flag (letter : Byte)
  /-- an option with its argument -/
  | value (letter : Byte) (argument : Str)
  /-- a letter that is not an option of the program -/
  | unknown (letter : Byte)
  /-- an option at the end of the command line that lacks its argument -/
  | missing (letter : Byte)
  deriving DecidableEq, Repr

/-- A letter without argument, known or not, and what it says. -/
inductive PlainLetter (t : Letters) : Byte → Item → Prop where
  | flag (c : Byte) : (c, false) ∈ t → PlainLetter t c (.flag c)
  | unknown (c : Byte) : c ∉ t.map (·.1) → PlainLetter t c (.unknown c)

/-- Letters in one word, and what they say. -/
inductive Group (t : Letters) : Str → List Item → Prop where
  | nil : Group t [] []
  | cons (c : Byte) (i : Item) (cs : Str) (is : List Item) : PlainLetter t c i → Group t cs is → Group t (c :: cs) (i :: is)

/-- `Reads t words items operands`: the words say the items, and the operands are left over. -/
inductive Reads (t : Letters) : List Str → List Item → List Str → Prop where
  /-- the end -/
  | done : Reads t [] [] []
  /-- a word that does not start with a minus sign, or is only a minus sign, is the first operand -/
  | operand (w : Str) (ws : List Str) : w.head? ≠ some ch%'-' ∨ w = b!"-" → Reads t (w :: ws) [] (w :: ws)
  /-- two minus signs end the options -/
  | dashes (ws : List Str) : Reads t (b!"--" :: ws) [] ws
  /-- letters without arguments after a minus sign -/
  | group (cs : Str) (is : List Item) (ws : List Str) (items : List Item) (ops : List Str) :
      Group t cs is → cs ≠ [] → cs ≠ b!"-" → Reads t ws items ops → Reads t ((ch%'-' :: cs) :: ws) (is ++ items) ops
  /-- the last letter has its argument in the same word -/
  | attached (cs : Str) (is : List Item) (c : Byte) (a : Str) (ws : List Str) (items : List Item) (ops : List Str) :
      Group t cs is → (c, true) ∈ t → a ≠ [] → Reads t ws items ops →
      Reads t ((ch%'-' :: (cs ++ c :: a)) :: ws) (is ++ .value c a :: items) ops
  /-- the last letter has its argument in the next word, whatever that is -/
  | separate (cs : Str) (is : List Item) (c : Byte) (a : Str) (ws : List Str) (items : List Item) (ops : List Str) :
      Group t cs is → (c, true) ∈ t → cs ++ [c] ≠ b!"-" → Reads t ws items ops →
      Reads t ((ch%'-' :: (cs ++ [c])) :: a :: ws) (is ++ .value c a :: items) ops
  /-- the last letter lacks its argument -/
  | missing (cs : Str) (is : List Item) (c : Byte) :
      Group t cs is → (c, true) ∈ t → cs ++ [c] ≠ b!"-" → Reads t [ch%'-' :: (cs ++ [c])] (is ++ [.missing c]) []

/-- How `getopt` tells an item: its result, `optopt` and `optarg`. -/
def Item.Shown : Item → Int → Byte → Option Str → Prop
  | .flag c, result, letter, argument => result = c.toNat ∧ letter = c ∧ argument = none
  | .value c a, result, letter, argument => result = c.toNat ∧ letter = c ∧ argument = some a
  | .unknown c, result, letter, _ => result = (ch%'?').toNat ∧ letter = c
  | .missing c, result, letter, _ => result = (ch%'?').toNat ∧ letter = c

/-- The arguments given to an option, in order. -/
def given (c : Byte) (items : List Item) : List Str :=
  items.filterMap fun | .value d a => if d = c then some a else none | _ => none

/-- The argument of the last use of an option. -/
def lastGiven (c : Byte) (items : List Item) (default : Str) : Str := (given c items).getLast?.getD default

/-- The last of the given flags. -/
def lastFlag (cs : List Byte) (items : List Item) : Option Byte :=
  (items.filterMap fun | .flag d => if d ∈ cs then some d else none | _ => none).getLast?

/-- The letters of `traxclient`, as its help describes them. -/
def cliOptions : Letters :=
  [(ch%'h', false), (ch%'s', false), (ch%'d', false), (ch%'I', true), (ch%'G', true), (ch%'f', true), (ch%'O', true),
   (ch%'S', true), (ch%'r', true), (ch%'t', true), (ch%'T', true), (ch%'p', true), (ch%'e', true), (ch%'x', false),
   (ch%'X', false), (ch%'Q', false)]

/-- The letters of `traxtest`, as the program reads them. Its help says that `-I` has an argument, a number. -/
def testerOptions : Letters :=
  [(ch%'h', false), (ch%'d', false), (ch%'t', true), (ch%'p', true), (ch%'e', true), (ch%'x', false), (ch%'X', false),
   (ch%'I', false)]

end Trax.Spec
