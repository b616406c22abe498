import Verif.Lemmas.Base64

/-! # Property theorems C22, C23: Base64 -/

namespace Trax
open Base64

/-- **C22.** Decoding the encoding of any bytes stores exactly these bytes (followed by one NUL)
and returns their number; the encoded text consists of alphabet characters and up to two `=`
at its end, and its length is a multiple of four. -/
theorem C22_base64_round_trip (s : List UInt8) :
    decodeWritten (encode s) = s ++ [0] ∧ decodeReturn (encode s) = s.length ∧
    (∃ body pad, encode s = body ++ List.replicate pad ch%'=' ∧ pad ≤ 2 ∧
      ∀ c ∈ body, (isAlnum c = true ∨ c = ch%'+' ∨ c = ch%'/')) ∧
    4 ∣ (encode s).length := by
  obtain ⟨h1, h2, h3⟩ := encode_split s
  refine ⟨by rw [decodeWritten, h3], by rw [decodeReturn_eq, h3], ⟨_, _, h2, by omega, h1⟩, ?_⟩
  rw [encode_length]
  exact ⟨_, Nat.mul_comm _ _⟩

/-- The encoding agrees with RFC 4648 on a test vector. -/
example : encode b!"foobar" = b!"Zm9vYmFy" ∧ encode b!"fooba" = b!"Zm9vYmE=" ∧ encode b!"foob" = b!"Zm9vYg==" := by
  decide +kernel

/-- **C23.** The encoder writes exactly the declared number of characters. For the text it wrote
the decoder writes exactly the declared number, and for every text it writes at most one byte
more than declared. The length function looks at the byte in front of texts shorter than two
characters: the bound is stated for the case that this byte exists and is not `=` (in the
library it is always the NUL put there by `strntok`, see `decodeImage`). -/
theorem C23_base64_sizes :
    (∀ s : List UInt8, (encodeWritten s).length = encodeLen s.length) ∧
    (∀ (s : List UInt8) (before : Option UInt8), s ≠ [] →
      decodeLen before (encode s) = some (decodeWritten (encode s)).length) ∧
    (∀ (text : Str) (before : Option UInt8) (n : Int), before ≠ some ch%'=' →
      decodeLen before text = some n →
      (decodeWritten text).length ≤ n + 1) := by
  refine ⟨?_, ?_, fun text before n hb h => decodeWritten_le text before n hb h⟩
  · intro s
    simp [encodeWritten, encodeLen, encode_length]
  · intro s before hs
    rw [decodeLen_encode s before hs, (C22_base64_round_trip s).1]
    simp

/-- The bound of C23 is attained: the declared length is one byte short for this text. -/
theorem C23_overflow_attained :
    decodeLen (some 0) b!"AAAA=" = some 3 ∧ (decodeWritten b!"AAAA=").length = 4 := by decide +kernel

/-- Called on the shortest texts at the start of a buffer, the length function reads in front of
the buffer. -/
theorem C23_short_text_out_of_bounds : decodeLen none [] = none ∧ decodeLen none b!"=" = none := by decide

end Trax
