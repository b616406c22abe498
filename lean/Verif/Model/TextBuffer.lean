import Verif.Model.Bytes
import Verif.Model.Outcome

/-!
# Growing text buffers and lists of strings (`src/buffer.h`)

All texts that are read from the wire, and the texts of regions, are collected in these buffers. A block of
memory is a list of bytes; `junk` gives the contents of fresh memory. `malloc` and `realloc` succeed.
-/

namespace Trax

/-- `string_buffer` (`src/buffer.h` 18–22): the block, the number of bytes in use and the declared size. -/
structure TextBuffer where
  block : List Byte
  position : Int
  size : Int
  deriving DecidableEq, Repr

/-- Addition of `int`s: overflow is undefined behaviour. -/
def add32 (a b : Int) : Outcome Int := if InInt32 (a + b) then .ok (a + b) else .ub

/-- `realloc`: the first bytes are kept, the others are arbitrary. A size that is not positive does not give a usable block. -/
def realloc {α : Type} (junk : Nat → List α) (block : List α) (size : Int) : Outcome (List α) :=
  if 0 < size then .ok (block.take size.toNat ++ junk (size.toNat - block.length)) else .ub

/-- Write `bytes` at `position`: undefined behaviour unless all of them lie within the block. -/
def blit {α : Type} (block : List α) (position : Int) (bytes : List α) : Outcome (List α) :=
  if 0 ≤ position ∧ position + bytes.length ≤ block.length then
    .ok (block.take position.toNat ++ bytes ++ block.drop (position.toNat + bytes.length))
  else .ub

namespace TextBuffer

/-- `BUFFER_INCREMENT_STEP` (`src/buffer.h` 30). -/
def step : Int := 4096

/-- `buffer_create` (`src/buffer.h` 32–38). A negative length is converted to a huge `size_t`. -/
def create (junk : Nat → List Byte) (l : Int) : Outcome TextBuffer :=
  if 0 ≤ l then .ok ⟨junk l.toNat, 0, l⟩ else .ub

/-- `buffer_reset` (`src/buffer.h` 40–42). -/
def reset (b : TextBuffer) : TextBuffer := { b with position := 0 }

/-- `buffer_extract` (`src/buffer.h` 54–59): the new block. -/
def extract (b : TextBuffer) : Outcome (List Byte) :=
  (add32 b.position 1).bind fun _ =>
    if 0 ≤ b.position ∧ b.position ≤ b.block.length then .ok (b.block.take b.position.toNat ++ [0]) else .ub

/-- `buffer_size` (`src/buffer.h` 61–63). -/
def length (b : TextBuffer) : Int := b.position

/-- `buffer_push` (`src/buffer.h` 65–73). -/
def push (junk : Nat → List Byte) (b : TextBuffer) (c : Byte) : Outcome TextBuffer :=
  (add32 b.size (-b.position)).bind fun room =>
  (if 1 > room then
      (add32 b.position step).bind fun size => (realloc junk b.block size).map fun block => { b with block, size }
    else .ok b).bind fun b =>
  (blit b.block b.position [c]).bind fun block =>
  (add32 b.position 1).map fun position => { b with block, position }

/-- `vsnprintf(&block[position], room, …)` for a format that gives `text`: what it writes. Nothing is written if there is no
room at all, otherwise as much as fits, and a NUL behind it. A negative room is converted to a huge `size_t`. -/
def print (block : List Byte) (position room : Int) (text : Str) : Outcome (List Byte) :=
  if room = 0 then .ok block
  else if room < 0 then blit block position (text ++ [0])
  else blit block position (text.take (room.toNat - 1) ++ [0])

/-- The value returned by `vsnprintf`: the length of the text, or −1 if it is no `int`. -/
def printed (text : Str) : Int := if InInt32 text.length then text.length else -1

/-- `buffer_append` (`src/buffer.h` 75–108, the branch for other systems than Windows) for a format and arguments that give `text`. -/
def append (junk : Nat → List Byte) (b : TextBuffer) (text : Str) : Outcome TextBuffer :=
  (add32 b.size (-b.position)).bind fun room =>
  (print b.block b.position room text).bind fun block =>
  let required := printed text
  (if required ≥ room then
      (add32 b.position required).bind fun n => (add32 n 1).bind fun size =>
      (realloc junk block size).bind fun block =>
      (print block b.position (size - b.position) text).map fun block => { b with block, size }
    else .ok { b with block }).bind fun b =>
  (add32 b.position required).map fun position => { b with position }

end TextBuffer

/-- A use of a text buffer. -/
inductive TextOp where
  | char (c : Byte)
  | text (t : Str)
  | reset
  deriving DecidableEq, Repr

namespace TextBuffer

/-- One use. -/
def apply (junk : Nat → List Byte) (b : TextBuffer) : TextOp → Outcome TextBuffer
  | .char c => b.push junk c
  | .text t => b.append junk t
  | .reset => .ok b.reset

/-- A history of a text buffer. -/
def applyAll (junk : Nat → List Byte) : List TextOp → TextBuffer → Outcome TextBuffer
  | [], b => .ok b
  | o :: rest, b => (b.apply junk o).bind (applyAll junk rest)

end TextBuffer

/-- An entry of the array of a `string_list`: NULL, a string, or whatever `realloc` left there. -/
inductive Slot where
  | null
  | string (s : Str)
  | junk
  deriving DecidableEq, Repr

/-- `string_list` (`src/buffer.h` 24–28). -/
structure StringList where
  slots : List Slot
  position : Int
  size : Int
  deriving DecidableEq, Repr

namespace StringList

/-- `list_create` (`src/buffer.h` 110–117). -/
def create (l : Int) : Outcome StringList :=
  if 0 ≤ l then .ok ⟨List.replicate l.toNat .null, 0, l⟩ else .ub

/-- The loop of `list_reset` (`src/buffer.h` 121–124) over the entries in use: freeing a pointer that was never set is undefined behaviour. -/
def clearSlots : Nat → List Slot → Outcome (List Slot)
  | 0, slots => .ok slots
  | _ + 1, [] => .ub
  | _ + 1, .junk :: _ => .ub
  | n + 1, _ :: rest => (clearSlots n rest).map (.null :: ·)

/-- `list_reset` (`src/buffer.h` 119–126). -/
def reset (l : StringList) : Outcome StringList :=
  (clearSlots l.position.toNat l.slots).map fun slots => { l with slots, position := 0 }

/-- `list_get` (`src/buffer.h` 145–159): `none` for NULL. -/
def get (l : StringList) (i : Int) : Outcome (Option Str) :=
  if i < 0 ∨ i ≥ l.position then .ok none
  else
    match l.slots[i.toNat]? with
    | none => .ub
    | some .null => .ok none
    | some .junk => .ub
    | some (.string s) => .ok (some s)

/-- `list_size` (`src/buffer.h` 161–163). -/
def length (l : StringList) : Int := l.position

/-- `list_append` (`src/buffer.h` 165–175) and `list_append_direct` (178–187) with the C string `s`; the first makes a copy, the second
takes the string over. The `int` that holds the length has to be able to hold it. -/
def append (l : StringList) (s : Str) : Outcome StringList :=
  if ¬ InInt32 (s.length + 1) then .ub else
  (add32 l.size (-l.position)).bind fun room =>
  (if 1 > room then
      (add32 l.position 16).bind fun size =>
        (realloc (fun n => List.replicate n Slot.junk) l.slots size).map fun slots => { l with slots, size }
    else .ok l).bind fun l =>
  (blit l.slots l.position [.string s]).bind fun slots =>
  (add32 l.position 1).map fun position => { l with slots, position }

/-- Append several strings. -/
def appendAll : List Str → StringList → Outcome StringList
  | [], l => .ok l
  | s :: rest, l => (l.append s).bind (appendAll rest)

end StringList

end Trax
