import Verif.Model.Bytes

/-!
# Model of `src/base64.c`

Lengths are natural numbers: the `int` overflow of texts of 2 GiB and more is not modelled.
-/

namespace Trax.Base64

/-- The table `pr2six` (`src/base64.c` 66–84): 62 is `+`, 63 is `/`, 64 marks characters
outside the alphabet. -/
def pr2six (c : UInt8) : UInt8 :=
  if 65 ≤ c.toNat ∧ c.toNat ≤ 90 then c - 65
  else if 97 ≤ c.toNat ∧ c.toNat ≤ 122 then c - 71
  else if 48 ≤ c.toNat ∧ c.toNat ≤ 57 then c + 4
  else if c = ch%'+' then 62
  else if c = ch%'/' then 63
  else 64

/-- The table `basis_64` (`src/base64.c` 145–146), indexed by 0–63. -/
def basis64 (i : UInt8) : UInt8 :=
  (b!"ABCDEFGHIJKLMNOPQRSTUVWXYZabcdefghijklmnopqrstuvwxyz0123456789+/").getD i.toNat 0

/-- `base64encodelen` (`src/base64.c` 148–150). -/
def encodeLen (len : Nat) : Nat := (len + 2) / 3 * 4 + 1

/-- The characters that `base64encode` writes before the final NUL (`src/base64.c` 152–178).
The index loop over groups of three bytes is written as a recursion over the list. -/
def encode : List UInt8 → Str
  | a :: b :: c :: t =>
      basis64 ((a >>> 2) &&& 0x3F) ::
      basis64 (((a &&& 0x3) <<< 4) ||| ((b &&& 0xF0) >>> 4)) ::
      basis64 (((b &&& 0xF) <<< 2) ||| ((c &&& 0xC0) >>> 6)) ::
      basis64 (c &&& 0x3F) :: encode t
  | [a, b] =>
      [basis64 ((a >>> 2) &&& 0x3F), basis64 (((a &&& 0x3) <<< 4) ||| ((b &&& 0xF0) >>> 4)),
       basis64 ((b &&& 0xF) <<< 2), ch%'=']
  | [a] => [basis64 ((a >>> 2) &&& 0x3F), basis64 ((a &&& 0x3) <<< 4), ch%'=', ch%'=']
  | [] => []

/-- Everything `base64encode` writes, including the NUL (`src/base64.c` 179); its return value
is the length of this list (180). -/
def encodeWritten (s : List UInt8) : List UInt8 := encode s ++ [0]

/-- `base64decodelen` (`src/base64.c` 88–99). `before` is the byte in front of the text, if it
belongs to the same buffer: for texts shorter than two characters the function looks at
it. `none` as a result: it looks at a byte that does not exist. The subtraction is that of
`size_t`, the result is truncated to `int`. -/
def decodeLen (before : Option UInt8) (text : Str) : Option Int :=
  let at' : Int → Option UInt8 := fun i =>
    if i < -1 then none else if i = -1 then before else some (text.getD i.toNat 0)
  let len : Int := text.length
  let result : Int → Int := fun padding => (len * 3) / 4 - padding + 1
  match at' (len - 1) with
  | none => none
  | some last =>
    if last = ch%'=' then
      match at' (len - 2) with
      | none => none
      | some last2 => some (result (if last2 = ch%'=' then 2 else 1))
    else some (result 0)

/-- Three bytes of a group of four characters (`src/base64.c` 116–122, 128–139). -/
def group (a b c d : UInt8) : List UInt8 :=
  [(pr2six a <<< 2) ||| (pr2six b >>> 4), (pr2six b <<< 4) ||| (pr2six c >>> 2), (pr2six c <<< 6) ||| pr2six d]

/-- The data bytes that `base64decode` stores for the leading alphabet characters
(`src/base64.c` 115–139). -/
def decodeChars : Str → List UInt8
  | a :: b :: c :: d :: t => group a b c d ++ decodeChars t
  | [a, b, c] => (group a b c 0).take 2
  | [a, b] => (group a b 0 0).take 1
  | _ => []

/-- The leading characters that belong to the alphabet (`src/base64.c` 107–109). The NUL
at the end of the text does not. -/
def alphabetPrefix (text : Str) : Str := text.takeWhile fun c => pr2six c ≤ 63

/-- Everything that `base64decode` writes: the data and one NUL (`src/base64.c` 101–141). -/
def decodeWritten (text : Str) : List UInt8 := decodeChars (alphabetPrefix text) ++ [0]

/-- The return value of `base64decode` (`src/base64.c` 110, 141–142): `n` is the number of
alphabet characters, `r` what is left of it when the loop of groups ends. -/
def decodeReturn (text : Str) : Int :=
  let n := (alphabetPrefix text).length
  let r := if n = 0 then 0 else (n - 1) % 4 + 1
  ((n + 3) / 4 * 3 : Nat) - ((4 - r) % 4 : Nat)

end Trax.Base64
