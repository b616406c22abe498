/-!
# Bytes and C strings

Basic notions shared by all modules of the model.
-/

namespace Trax

/-- A C `char` seen as an unsigned byte. Where the sign matters (`char` is signed
on the modelled platforms) the model converts explicitly, see `sextChar`. -/
abbrev Byte := UInt8

/-- The contents of a C string (without the terminating NUL). -/
abbrev Str := List UInt8

open Lean in
/-- `b!"abc"` is the list of the (UTF-8) bytes of a string literal, expanded when
the file is elaborated so that the kernel only sees byte literals. -/
macro:max "b!" s:str : term => do
  let bs := s.getString.toUTF8.toList.toArray
  let elems : Array (TSyntax `term) := bs.map fun b => ⟨Syntax.mkNumLit (toString b.toNat)⟩
  `(([ $elems,* ] : List UInt8))

open Lean in
/-- `ch%'x'` is the byte of an ASCII character literal. -/
macro:max "ch%" c:char : term => do
  let n := c.getChar.toNat
  let e : TSyntax `term := ⟨Syntax.mkNumLit (toString n)⟩
  `(($e : UInt8))

/-- What a `strlen`/`strcpy`-style function sees of a byte buffer: everything up
to the first NUL. Used wherever the code copies a buffer as a C string
(for example `src/buffer.h` 165–175, `src/strmap.c` 162–246). -/
def cstr (s : Str) : Str := s.takeWhile (· != 0)

/-- No NUL byte inside: such byte lists are exactly the possible contents of C strings. -/
def NoNul (s : Str) : Prop := ∀ c ∈ s, c ≠ 0

instance (s : Str) : Decidable (NoNul s) := inferInstanceAs (Decidable (∀ c ∈ s, c ≠ 0))

/-- `isdigit` of the "C" locale. -/
def isDigit (c : UInt8) : Bool := 48 ≤ c.toNat && c.toNat ≤ 57

/-- `isalpha` of the "C" locale. -/
def isAlpha (c : UInt8) : Bool :=
  (65 ≤ c.toNat && c.toNat ≤ 90) || (97 ≤ c.toNat && c.toNat ≤ 122)

/-- `isalnum` of the "C" locale. -/
def isAlnum (c : UInt8) : Bool := isDigit c || isAlpha c

/-- `tolower` of the "C" locale. -/
def toLower (c : UInt8) : UInt8 := if 65 ≤ c.toNat && c.toNat ≤ 90 then c + 32 else c

/-- `strcasecmp(a, b) == 0`. -/
def eqNoCase (a b : Str) : Bool := a.map toLower == b.map toLower

/-- Sign extension of a `char` to 64 bits (`int c = *str++` added to an `unsigned long`). -/
def sextChar (c : UInt8) : UInt64 :=
  if c.toNat < 128 then c.toUInt64 else c.toUInt64 - 256

end Trax
