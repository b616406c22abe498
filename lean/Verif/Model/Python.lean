import Verif.Model.Properties
import Verif.Model.Formats

/-!
# Model of the Python package: texts, names of formats, properties (`support/python/trax`)

Python, `ctypes` and NumPy are not in the repository: what the package uses of them is modelled from their documentation. A `str` is
a list of code points (surrogates are possible, and cannot be encoded); `encode('utf8')` and `decode('utf8')` are the strict
UTF-8 codec. A `bytes` object that `ctypes` passes as `c_char_p` is seen by C up to its first NUL; an argument that
is not of the declared type raises `ctypes.ArgumentError`. An exception in a function that C calls back is printed and ignored.
-/

namespace Trax.Py

deriving instance DecidableEq, Repr for Except

/-- A `str`: its code points. -/
abbrev Text := List Nat

open Lean in
/-- `t!"abc"` is the list of the code points of a string literal. -/
macro:max "t!" s:str : term => do
  let elems : Array (TSyntax `term) := (s.getString.toList.map fun c => (⟨Syntax.mkNumLit (toString c.toNat)⟩ : TSyntax `term)).toArray
  `(([ $elems,* ] : List Nat))

/-- The exceptions that are told apart. -/
inductive Exc where
  | trax
  | assertion
  | index
  | type
  | value
  | attribute
  | unicode
  | argument
  deriving DecidableEq, Repr

/-- The bytes of a code point in UTF-8; there are none for surrogates. -/
def utf8 (c : Nat) : Option Str :=
  if c < 0x80 then some [.ofNat c]
  else if c < 0x800 then some [.ofNat (0xC0 + c / 64), .ofNat (0x80 + c % 64)]
  else if 0xD800 ≤ c ∧ c < 0xE000 then none
  else if c < 0x10000 then some [.ofNat (0xE0 + c / 4096), .ofNat (0x80 + c / 64 % 64), .ofNat (0x80 + c % 64)]
  else if c < 0x110000 then some [.ofNat (0xF0 + c / 262144), .ofNat (0x80 + c / 4096 % 64), .ofNat (0x80 + c / 64 % 64), .ofNat (0x80 + c % 64)]
  else none

/-- `str.encode('utf8')`; `none` is `UnicodeEncodeError`. -/
def Text.encode : Text → Option Str
  | [] => some []
  | c :: t => match utf8 c, Text.encode t with
    | some a, some b => some (a ++ b)
    | _, _ => none

/-- The number of bytes that a first byte announces, and the code point that they spell. -/
def spelled (s : Str) : Nat × Nat :=
  let b (i : Nat) : Nat := (s[i]?.getD 0).toNat % 64
  match s with
  | [] => (0, 0)
  | a :: _ =>
    if a.toNat < 0x80 then (1, a.toNat)
    else if a.toNat < 0xE0 then (2, a.toNat % 32 * 64 + b 1)
    else if a.toNat < 0xF0 then (3, a.toNat % 16 * 4096 + b 1 * 64 + b 2)
    else (4, a.toNat % 8 * 262144 + b 1 * 4096 + b 2 * 64 + b 3)

/-- The loop of the decoder: a code point is accepted only from the bytes that are its encoding. -/
def decodeLoop : Nat → Str → Option Text
  | _, [] => some []
  | 0, _ => none
  | n + 1, s =>
    if utf8 (spelled s).2 = some (s.take (spelled s).1) then (decodeLoop n (s.drop (spelled s).1)).map ((spelled s).2 :: ·) else none

/-- `bytes.decode('utf8')`; `none` is `UnicodeDecodeError`. -/
def decode (s : Str) : Option Text := decodeLoop s.length s

/-- A text that is passed to C: encoded, and read up to the first NUL. -/
def toC (t : Text) : Except Exc Str := match t.encode with
  | some s => .ok (cstr s)
  | none => .error .unicode

/-- A text that comes from C. -/
def fromC (s : Str) : Except Exc Text := match decode s with
  | some t => .ok t
  | none => .error .unicode

/-! ## Names of formats -/

/-- `Region.encode` (`support/python/trax/region.py` 81–97). -/
def regionEncode (s : Text) : Except Exc Nat :=
  if s = t!"special" then .ok 1
  else if s = t!"rectangle" then .ok 2
  else if s = t!"polygon" then .ok 4
  else if s = t!"mask" then .ok 8
  else .error .index

/-- `Region.decode_list` (`support/python/trax/region.py` 60–79). -/
def regionDecodeList (n : Nat) : List Text :=
  (if n &&& 1 ≠ 0 then [t!"special"] else []) ++ (if n &&& 2 ≠ 0 then [t!"rectangle"] else []) ++
    (if n &&& 4 ≠ 0 then [t!"polygon"] else []) ++ (if n &&& 8 ≠ 0 then [t!"mask"] else [])

/-- `Image.encode` (`support/python/trax/image.py` 143–153). -/
def imageEncode (s : Text) : Except Exc Nat :=
  if s = t!"path" then .ok 1
  else if s = t!"url" then .ok 2
  else if s = t!"memory" then .ok 4
  else if s = t!"buffer" then .ok 8
  else .error .index

/-- `Image.decode_list` (`support/python/trax/image.py` 108–124). -/
def imageDecodeList (n : Nat) : List Text :=
  (if n &&& 1 ≠ 0 then [t!"path"] else []) ++ (if n &&& 2 ≠ 0 then [t!"url"] else []) ++
    (if n &&& 4 ≠ 0 then [t!"memory"] else []) ++ (if n &&& 8 ≠ 0 then [t!"buffer"] else [])

/-- `ImageChannel.encode` (`support/python/trax/image.py` 58–67). -/
def channelEncode (s : Text) : Except Exc Nat :=
  if s = t!"color" then .ok 1
  else if s = t!"depth" then .ok 2
  else if s = t!"ir" then .ok 4
  else .error .index

/-- `ImageChannel.decode_list` (`support/python/trax/image.py` 42–56). -/
def channelDecodeList (n : Nat) : List Text :=
  (if n &&& 1 ≠ 0 then [t!"color"] else []) ++ (if n &&& 2 ≠ 0 then [t!"depth"] else []) ++
    (if n &&& 4 ≠ 0 then [t!"ir"] else [])

/-- The three functions `encode_list` (`support/python/trax/region.py` 99–112, `support/python/trax/image.py` 69–84, 156–172). -/
def encodeList (encode : Text → Except Exc Nat) : List Text → Nat → Except Exc Nat
  | [], n => .ok n
  | s :: l, n => (encode s).bind fun c => encodeList encode l (n ||| c)

/-- `ImageChannel.decode` (`support/python/trax/image.py` 27–40). -/
def channelDecode (n : Int) : Except Exc Text :=
  if n = 1 then .ok t!"color" else if n = 2 then .ok t!"depth" else if n = 4 then .ok t!"ir" else .error .index

/-- `TraxStatus.decode` (`support/python/trax/__init__.py` 42–65); `none` is `None`. -/
def statusDecode (n : Int) : Option Text :=
  if n = -1 then some t!"error"
  else if n = 0 then some t!"ok"
  else if n = 1 then some t!"hello"
  else if n = 2 then some t!"initialize"
  else if n = 3 then some t!"frame"
  else if n = 4 then some t!"quit"
  else if n = 5 then some t!"state"
  else none

/-! ## Properties -/

/-- A dictionary of texts, in the order of insertion. Values of other types are given by their `str(value)`. -/
abbrev Dict := List (Text × Text)

/-- `dict.setdefault`. -/
def Dict.setdefault (d : Dict) (k v : Text) : Dict := if d.any fun e => e.1 = k then d else d ++ [(k, v)]

/-- `Properties.set` and `Properties.__setitem__` (`support/python/trax/__init__.py` 428–435, 452–459). -/
def propSet (p : Properties) (k v : Text) : Except Exc Properties :=
  (toC k).bind fun k => (toC v).bind fun v => .ok (p.set k v)

/-- The loops over a dictionary (`support/python/trax/__init__.py` 399–400, 408–409). -/
def propSetAll (p : Properties) : Dict → Except Exc Properties
  | [] => .ok p
  | (k, v) :: d => (propSet p k v).bind fun p => propSetAll p d

/-- `Properties(data)` of a dictionary or `None` (`support/python/trax/__init__.py` 386–400). -/
def propNew (d : Dict) : Except Exc Properties := propSetAll Properties.create d

/-- `Properties.__getitem__` (`support/python/trax/__init__.py` 420–426): the key is not encoded, so that it is not
the `bytes` object that `ctypes` needs. -/
def propGetItem (_ : Properties) (_ : Text) : Except Exc Text := .error .argument

/-- `Properties.get` (`support/python/trax/__init__.py` 437–450). -/
def propGet (p : Properties) (k : Text) (dflt : Option Text) : Except Exc (Option Text) :=
  (toC k).bind fun k => match p.get k with
    | none => .ok dflt
    | some v => (fromC v).bind fun t => .ok (some t)

/-- The function that C calls back for each entry (`support/python/trax/__init__.py` 466): a text that cannot be decoded raises an
exception there, and the entry is left out. -/
def dictEntry (d : Dict) (kv : Str × Str) : Dict := match decode kv.1, decode kv.2 with
  | some k, some v => d.setdefault k v
  | _, _ => d

/-- `Properties.dict` (`support/python/trax/__init__.py` 461–468). -/
def propDict (p : Properties) : Dict := p.enumerate.foldl dictEntry []

/-- `Properties.copy` (`support/python/trax/__init__.py` 402–409). -/
def propCopy (p source : Properties) : Except Exc Properties := propSetAll p (propDict source)

/-- The calls of a program on its property objects, which are numbered. -/
inductive PropCall where
  | new (d : Dict)
  | set (i : Nat) (k v : Text)
  | copy (i j : Nat)
  deriving DecidableEq, Repr

/-- One call (`support/python/trax/__init__.py` 383–459). An exception ends the program; so does an object that does not exist. -/
def PropCall.run (s : List Properties) : PropCall → Except Exc (List Properties)
  | .new d => (propNew d).map fun p => s ++ [p]
  | .set i k v => match s[i]? with
    | some p => (propSet p k v).map fun p => List.set s i p
    | none => .error .index
  | .copy i j => match s[i]?, s[j]? with
    | some p, some q => (propCopy p q).map fun p => List.set s i p
    | _, _ => .error .index

/-- A history of calls. -/
def runPropCalls : List PropCall → List Properties → Except Exc (List Properties)
  | [], s => .ok s
  | c :: cs, s => (c.run s).bind (runPropCalls cs)

end Trax.Py
