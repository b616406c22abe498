import Verif.Model.Lists
import Verif.Lemmas.RegionApi
import Verif.Lemmas.StrMap
import Mathlib.Tactic.Ring
import Mathlib.Data.Nat.Bitwise

/-!
# Lemmas about image lists: counting bits
-/

namespace Trax

/-- The number of set bits among the lowest `k`. -/
def bitCount (k n : Nat) : Nat := (List.range k).countP fun i => n.testBit i

theorem bitCount_succ (k n : Nat) : bitCount (k + 1) n = n % 2 + bitCount k (n / 2) := by
  unfold bitCount
  rw [List.range_succ_eq_map, List.countP_cons, List.countP_map]
  have h0 : (if n.testBit 0 = true then 1 else 0) = n % 2 := by
    rw [Nat.testBit_zero]
    rcases Nat.mod_two_eq_zero_or_one n with h | h <;> simp [h]
  rw [h0, Nat.add_comm]
  congr 1
  apply List.countP_congr
  intro i _
  simp [Nat.testBit_succ]

theorem bitCount_zero (k : Nat) : bitCount k 0 = 0 := by
  unfold bitCount; simp

theorem and_pred_even (m : Nat) (hm : 0 < m) : (2 * m) &&& (2 * m - 1) = 2 * (m &&& (m - 1)) := by
  apply Nat.eq_of_testBit_eq
  intro i
  cases i with
  | zero => simp [Nat.testBit_zero]
  | succ i =>
    rw [Nat.testBit_and, Nat.testBit_succ, Nat.testBit_succ, Nat.testBit_succ,
      show 2 * m / 2 = m by omega, show (2 * m - 1) / 2 = m - 1 by omega,
      show 2 * (m &&& (m - 1)) / 2 = m &&& (m - 1) by omega, Nat.testBit_and]

theorem and_pred_odd (m : Nat) : (2 * m + 1) &&& (2 * m + 1 - 1) = 2 * m := by
  apply Nat.eq_of_testBit_eq
  intro i
  cases i with
  | zero => simp [Nat.testBit_zero]
  | succ i =>
    rw [Nat.testBit_and, Nat.testBit_succ, Nat.testBit_succ,
      show (2 * m + 1) / 2 = m by omega, show (2 * m + 1 - 1) / 2 = m by omega]
    rw [Nat.testBit_succ, show 2 * m / 2 = m by omega, Bool.and_self]

/-- Clearing the lowest set bit lowers the number of set bits by one. -/
theorem bitCount_and_pred (k : Nat) : ∀ n, 0 < n → n < 2 ^ k → bitCount k (n &&& (n - 1)) + 1 = bitCount k n := by
  induction k with
  | zero => intro n h0 h1; omega
  | succ k ih =>
    intro n h0 h1
    rw [bitCount_succ, bitCount_succ]
    rcases Nat.even_or_odd' n with ⟨m, rfl | rfl⟩
    · rw [and_pred_even m (by omega), show 2 * (m &&& (m - 1)) % 2 = 0 by omega, show 2 * (m &&& (m - 1)) / 2 = m &&& (m - 1) by omega,
        show 2 * m % 2 = 0 by omega, show 2 * m / 2 = m by omega]
      have := ih m (by omega) (by rw [pow_succ] at h1; omega)
      omega
    · rw [and_pred_odd, show 2 * m % 2 = 0 by omega, show 2 * m / 2 = m by omega,
        show (2 * m + 1) % 2 = 1 by omega, show (2 * m + 1) / 2 = m by omega]
      omega

theorem bitCount_pos {k n : Nat} (h0 : 0 < n) (h1 : n < 2 ^ k) : 0 < bitCount k n := by
  have := bitCount_and_pred k n h0 h1; omega

theorem bitCount_le (k n : Nat) : bitCount k n ≤ k := by
  unfold bitCount
  simpa using List.countP_le_length (l := List.range k) (p := fun i => n.testBit i)

/-- The loop counts the bits, and is undefined if the sign bit is set. -/
theorem countLoop_eq (fuel : Nat) (c : BitVec 32) (hf : bitCount 32 c.toNat ≤ fuel) :
    ImageList.countLoop fuel c = if c.msb then .ub else .ok (bitCount 32 c.toNat) := by
  induction fuel generalizing c with
  | zero =>
    have : c = 0#32 := by
      by_contra hne
      have h0 : 0 < c.toNat := by
        rcases Nat.eq_zero_or_pos c.toNat with h | h
        · exact absurd (BitVec.eq_of_toNat_eq (by simpa using h)) hne
        · exact h
      have := bitCount_pos h0 c.isLt
      omega
    subst this
    simp [ImageList.countLoop, bitCount_zero]
  | succ fuel ih =>
    by_cases hc : c = 0#32
    · subst hc
      simp [ImageList.countLoop, bitCount_zero]
    · have h0 : 0 < c.toNat := by
        rcases Nat.eq_zero_or_pos c.toNat with h | h
        · exact absurd (BitVec.eq_of_toNat_eq (by simpa using h)) hc
        · exact h
      have hstep : ImageList.countLoop (fuel + 1) c =
          if c = BitVec.intMin 32 then .ub else (ImageList.countLoop fuel (c &&& (c - 1#32))).map (· + 1) := by
        rw [ImageList.countLoop]
        exact hc
      have hsub : (c - 1#32).toNat = c.toNat - 1 := by
        have := c.isLt
        rw [BitVec.toNat_sub]
        simp only [BitVec.toNat_ofNat]
        omega
      have hand : (c &&& (c - 1#32)).toNat = c.toNat &&& (c.toNat - 1) := by
        rw [BitVec.toNat_and, hsub]
      have hcount : bitCount 32 (c &&& (c - 1#32)).toNat + 1 = bitCount 32 c.toNat := by
        rw [hand]; exact bitCount_and_pred 32 _ h0 c.isLt
      rw [hstep]
      by_cases hm : c = BitVec.intMin 32
      · rw [if_pos hm, hm]; rfl
      · rw [if_neg hm, ih _ (by omega)]
        have hmsb : (c &&& (c - 1#32)).msb = c.msb := by
          rw [BitVec.msb_and]
          cases hc' : c.msb with
          | false => rfl
          | true =>
            rw [Bool.true_and, BitVec.msb_eq_decide, hsub]
            rw [BitVec.msb_eq_decide] at hc'
            have h1 : 2147483648 ≤ c.toNat := by simpa using hc'
            have h2 : c.toNat ≠ 2147483648 := by
              intro h
              apply hm
              apply BitVec.eq_of_toNat_eq
              rw [h]; rfl
            simp; omega
        rw [hmsb]
        cases c.msb with
        | true => rfl
        | false =>
          show Outcome.ok (_ + 1) = _
          rw [hcount]; rfl

theorem count_eq (channels : UInt32) :
    ImageList.count channels = if channels.toNat < 2 ^ 31 then .ok (bitCount 32 channels.toNat) else .ub := by
  unfold ImageList.count
  rw [countLoop_eq 32 _ (bitCount_le 32 _), BitVec.msb_eq_decide]
  simp only [UInt32.toNat_toBitVec]
  by_cases h : channels.toNat < 2 ^ 31
  · rw [if_pos h, if_neg]
    simp; simpa using h
  · rw [if_neg h, if_pos]
    simp; simpa using h

end Trax
