import Verif.Lemmas.FloatText
import Verif.Spec.Float
import Mathlib.Algebra.Order.Field.Basic
import Mathlib.Algebra.Order.Field.Rat
import Mathlib.Tactic.FieldSimp
import Mathlib.Tactic.Positivity
import Mathlib.Tactic.NormNum

/-! Helper lemmas: rounding in terms of rational values. -/

namespace Trax

theorem abs_scaled (a b S : Nat) (hS : 0 < S) :
    |(a : ℚ) / 2 ^ 149 - (b : ℚ) / S| = ((((a * S : Nat) : Int) - (b * 2 ^ 149 : Nat)).natAbs : ℚ) / (2 ^ 149 * S) := by
  have hS' : (0 : ℚ) < S := by exact_mod_cast hS
  have e : (a : ℚ) / 2 ^ 149 - (b : ℚ) / S = ((a : ℚ) * S - b * 2 ^ 149) / (2 ^ 149 * S) := by
    field_simp
  rw [e, abs_div, abs_of_pos (show (0 : ℚ) < 2 ^ 149 * S by positivity)]
  congr 1
  have h2 : ∀ n : Int, ((n.natAbs : Nat) : ℚ) = |(n : ℚ)| := by
    intro n; rw [← Int.cast_abs, Int.abs_eq_natAbs]; simp
  rw [h2]
  push_cast
  rfl

/-- The decimal of a float. -/
def decimalInt (S : Nat) (neg : Bool) (m : Nat) : Int := if neg then -(decimalOf S m : Int) else decimalOf S m

theorem writtenAndRead (S : Nat) (hS : 0 < S) (neg : Bool) (m : Nat) (hm : Rep32 m) (hy : Rep32 (readBack S m)) :
    Spec.WrittenAndRead S (.fin neg m) (.fin neg (readBack S m)) := by
  have hS' : (0 : ℚ) < S := by exact_mod_cast hS
  have hpos : (0 : ℚ) < 2 ^ 149 * S := by positivity
  have key : ∀ a : Nat, |(Flt.fin neg a).value - (decimalInt S neg m : ℚ) / S| =
      |(a : ℚ) / 2 ^ 149 - (decimalOf S m : ℚ) / S| := by
    intro a
    cases neg
    · simp [Flt.value, decimalInt]
    · simp only [Flt.value, decimalInt, if_true]
      rw [← abs_neg]
      congr 1
      push_cast
      ring
  refine ⟨decimalInt S neg m, ?_, hy, trivial, ?_⟩
  · rw [key, abs_scaled _ _ _ hS]
    have h := decimalOf_near S m
    have h' : 2 * (((m * S : Nat) : Int) - (decimalOf S m * 2 ^ 149 : Nat)).natAbs ≤ 2 ^ 149 := by omega
    have h2 : (2 : ℚ) * ((((m * S : Nat) : Int) - (decimalOf S m * 2 ^ 149 : Nat)).natAbs : ℚ) ≤ 2 ^ 149 := by
      exact_mod_cast h'
    rw [div_le_div_iff₀ hpos (by positivity)]
    nlinarith
  · intro z hz hzf
    match z, hzf with
    | .fin nz mz, _ =>
      have hz24 : Rep 24 mz := hz.1
      have h1 := readBack_near (m := m) hS mz hz24
      have h0 := readBack_near (m := m) hS 0 (by simp [Rep])
      by_cases hn : nz = neg
      · subst hn
        rw [key, key, abs_scaled _ _ _ hS, abs_scaled _ _ _ hS]
        exact div_le_div_of_nonneg_right (by exact_mod_cast h1) (le_of_lt hpos)
      · rw [key, abs_scaled _ _ _ hS]
        have hopp : |(Flt.fin nz mz).value - (decimalInt S neg m : ℚ) / S| = (mz : ℚ) / 2 ^ 149 + (decimalOf S m : ℚ) / S := by
          have hA : (0 : ℚ) ≤ (mz : ℚ) / 2 ^ 149 := by positivity
          have hB : (0 : ℚ) ≤ (decimalOf S m : ℚ) / S := by positivity
          cases nz <;> cases neg
          · contradiction
          · simp only [Flt.value, decimalInt, if_true]
            rw [if_neg (by decide)]
            push_cast
            rw [abs_of_nonneg] <;> rw [neg_div, sub_neg_eq_add]
            linarith
          · simp only [Flt.value, decimalInt, if_true]
            rw [if_neg (by decide)]
            push_cast
            rw [abs_of_nonpos] <;> rw [neg_div] <;> linarith
          · contradiction
        rw [hopp]
        have e : (mz : ℚ) / 2 ^ 149 + (decimalOf S m : ℚ) / S =
            ((mz * S + decimalOf S m * 2 ^ 149 : Nat) : ℚ) / (2 ^ 149 * S) := by
          push_cast; field_simp; norm_num; ring
        rw [e]
        apply div_le_div_of_nonneg_right _ (le_of_lt hpos)
        have : (((readBack S m * S : Nat) : Int) - (decimalOf S m * 2 ^ 149 : Nat)).natAbs ≤
            mz * S + decimalOf S m * 2 ^ 149 := by omega
        exact_mod_cast this

theorem Spec.WrittenAndRead.near {S : Nat} {x y : Flt} (hS : 0 < S) (hx : x.IsFloat) (hf : x.IsFinite)
    (h : WrittenAndRead S x y) : |y.value - x.value| ≤ 1 / S := by
  obtain ⟨d, h1, -, -, h4⟩ := h
  have hS' : (0 : ℚ) < S := by exact_mod_cast hS
  have h5 := h4 x hx hf
  have e : y.value - x.value = (y.value - d / S) - (x.value - d / S) := by ring
  calc |y.value - x.value| ≤ |y.value - d / S| + |x.value - d / S| := by rw [e]; exact abs_sub _ _
    _ ≤ 1 / (2 * S) + 1 / (2 * S) := by linarith
    _ = 1 / S := by field_simp; norm_num

/-- Numbers that are multiples of the step come back unchanged. -/
theorem Spec.WrittenAndRead.exact {S : Nat} {x y : Flt} (hS : 0 < S) (hx : x.IsFloat) (hf : x.IsFinite)
    (h : WrittenAndRead S x y) (c : ℤ) (hc : x.value = c / S) : y.value = x.value := by
  obtain ⟨d, h1, -, -, h4⟩ := h
  have hS' : (0 : ℚ) < S := by exact_mod_cast hS
  have h5 := h4 x hx hf
  have hcd : c = d := by
    rw [hc, ← sub_div, abs_div, abs_of_pos hS', div_le_div_iff₀ hS' (by positivity)] at h1
    have h6 : |(c : ℚ) - d| * 2 ≤ 1 := by
      have : |(c : ℚ) - d| * (2 * S) = (|(c : ℚ) - d| * 2) * S := by ring
      rw [this] at h1
      exact le_of_mul_le_mul_right h1 hS'
    have h7 : |c - d| * 2 ≤ 1 := by exact_mod_cast h6
    have h8 : |c - d| = 0 := by have := abs_nonneg (c - d); omega
    rw [abs_eq_zero] at h8
    omega
  rw [hc, hcd, sub_self, abs_zero] at h5
  have h9 := abs_eq_zero.mp (le_antisymm h5 (abs_nonneg _))
  rw [hc, hcd]; linarith

end Trax
