import Verif.Model.Formats

/-! # Property theorem C30: format and channel sets -/

namespace Trax

theorem forall_low16 {P : UInt32 → Prop} (h : ∀ n : Fin 16, P (UInt32.ofNat n.val)) (f : UInt32) : P (f &&& 15) := by
  have hlt : (f &&& 15).toNat < 16 := by
    have : (f &&& 15).toNat ≤ 15 := by
      rw [UInt32.toNat_and]
      exact Nat.and_le_right
    omega
  have := h ⟨(f &&& 15).toNat, hlt⟩
  simpa using this

theorem supports_low (f m : UInt32) (h : 15 &&& m = m) : supports (f &&& 15) m = supports f m := by
  unfold supports
  rw [UInt32.and_assoc, h]

/-- **C30.** For every bit set `f`: the text decodes to exactly the known bits of `f`, and with its
terminating NUL it fits the buffer of the library. -/
theorem C30_format_sets (f : UInt32) :
    (imageFormatsDecode (imageFormatsEncode f) = some (f &&& 15) ∧
      (imageFormatsEncode f).length + 1 ≤ formatBufferLength) ∧
    (regionFormatsDecode (regionFormatsEncode f) = some (f &&& 14) ∧
      (regionFormatsEncode f).length + 1 ≤ formatBufferLength) ∧
    (channelsDecode (channelsEncode f) = some (f &&& 7) ∧
      (channelsEncode f).length + 1 ≤ formatBufferLength) := by
  have e1 : imageFormatsEncode f = imageFormatsEncode (f &&& 15) := by
    simp only [imageFormatsEncode, supports_low f _ (show (15 : UInt32) &&& 1 = 1 by decide),
      supports_low f _ (show (15 : UInt32) &&& 2 = 2 by decide),
      supports_low f _ (show (15 : UInt32) &&& 4 = 4 by decide), supports_low f _ (show (15 : UInt32) &&& 8 = 8 by decide)]
  have e2 : regionFormatsEncode f = regionFormatsEncode (f &&& 15) := by
    simp only [regionFormatsEncode,
      supports_low f _ (show (15 : UInt32) &&& 2 = 2 by decide),
      supports_low f _ (show (15 : UInt32) &&& 4 = 4 by decide), supports_low f _ (show (15 : UInt32) &&& 8 = 8 by decide)]
  have e3 : channelsEncode f = channelsEncode (f &&& 15) := by
    simp only [channelsEncode, supports_low f _ (show (15 : UInt32) &&& 1 = 1 by decide),
      supports_low f _ (show (15 : UInt32) &&& 2 = 2 by decide),
      supports_low f _ (show (15 : UInt32) &&& 4 = 4 by decide)]
  have h14 : f &&& 14 = (f &&& 15) &&& 14 := by rw [UInt32.and_assoc]; rfl
  have h7 : f &&& 7 = (f &&& 15) &&& 7 := by rw [UInt32.and_assoc]; rfl
  rw [e1, e2, e3, h14, h7]
  exact forall_low16 (P := fun f =>
    (imageFormatsDecode (imageFormatsEncode f) = some f ∧
      (imageFormatsEncode f).length + 1 ≤ formatBufferLength) ∧
    (regionFormatsDecode (regionFormatsEncode f) = some (f &&& 14) ∧
      (regionFormatsEncode f).length + 1 ≤ formatBufferLength) ∧
    (channelsDecode (channelsEncode f) = some (f &&& 7) ∧
      (channelsEncode f).length + 1 ≤ formatBufferLength)) (by decide +kernel) f

example : imageFormatsEncode 13 = b!"path;memory;buffer;" ∧ imageFormatsDecode b!"path;memory;buffer;" = some 13 ∧
    imageFormatsDecode b!"path;jpeg;" = none := by decide +kernel

end Trax
