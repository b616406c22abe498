import Verif.Spec.OpenCv
import Verif.Lemmas.Raster
import Verif.Lemmas.RectRaster
import Verif.Spec.Image
import Mathlib.Tactic.Ring
import Mathlib.Tactic.Linarith

/-!
# Lemmas about the OpenCV helpers
-/

namespace Trax.Ocv
open Spec

theorem build_ok {α : Type} {f : Nat → Outcome α} {g : Nat → α} {n : Nat} (h : ∀ i, i < n → f i = .ok (g i)) :
    build f n = .ok ((List.range n).map g) := by
  induction n with
  | zero => rfl
  | succ n ih =>
    rw [build, ih fun i hi => h i (by omega), h n (by omega), List.range_succ, List.map_append]
    rfl

theorem readAt_nat {l : List UInt8} {p : Nat} (h : p < l.length) : readAt l (p : Int) = .ok (l[p]?.getD 0) := by
  unfold readAt
  rw [if_pos (by omega), Int.toNat_natCast, List.getElem?_eq_getElem h]
  rfl

/-- Where `cvtColor` takes byte `k` from. -/
def from' (step cols k : Nat) : Nat := k / (3 * cols) * step + k % (3 * cols) / 3 * 3 + (2 - k % 3)

theorem index_parts {cols i j c : Nat} (hj : j < cols) (hc : c < 3) :
    (3 * (cols * i + j) + c) / (3 * cols) = i ∧ (3 * (cols * i + j) + c) % (3 * cols) / 3 = j ∧
      (3 * (cols * i + j) + c) % 3 = c := by
  have e : 3 * (cols * i + j) + c = 3 * cols * i + (3 * j + c) := by ring
  have hlt : 3 * j + c < 3 * cols := by omega
  refine ⟨?_, ?_, by omega⟩
  · rw [e, Nat.mul_add_div (by omega), Nat.div_eq_of_lt hlt, Nat.add_zero]
  · rw [e, Nat.mul_add_mod, Nat.mod_eq_of_lt hlt]; omega

theorem from_at {step cols i j c : Nat} (hj : j < cols) (hc : c < 3) :
    from' step cols (3 * (cols * i + j) + c) = step * i + 3 * j + (2 - c) := by
  obtain ⟨h1, h2, h3⟩ := index_parts (i := i) hj hc
  unfold from'
  rw [h1, h2, h3, Nat.mul_comm i, Nat.mul_comm j]

/-- Every index below the size has a row, a column and a channel. -/
theorem index_exists {rows cols k : Nat} (h : k < rows * (3 * cols)) :
    ∃ i j c, i < rows ∧ j < cols ∧ c < 3 ∧ k = 3 * (cols * i + j) + c := by
  have h0 : 0 < 3 * cols := by
    rcases Nat.eq_zero_or_pos (3 * cols) with h0 | h0
    · rw [h0] at h; omega
    · exact h0
  refine ⟨k / (3 * cols), k % (3 * cols) / 3, k % (3 * cols) % 3, ?_, ?_, Nat.mod_lt _ (by omega), ?_⟩
  · rwa [Nat.div_lt_iff_lt_mul h0]
  · have := Nat.mod_lt k h0; omega
  · have h1 := Nat.div_add_mod k (3 * cols)
    have h2 := Nat.div_add_mod (k % (3 * cols)) 3
    generalize k / (3 * cols) = q at *
    generalize k % (3 * cols) = r at *
    have : 3 * (cols * q + r / 3) + r % 3 = 3 * cols * q + (3 * (r / 3) + r % 3) := by ring
    omega

theorem index_lt {rows cols i j c : Nat} (hi : i < rows) (hj : j < cols) (hc : c < 3) :
    3 * (cols * i + j) + c < rows * (3 * cols) := by
  have : cols * (i + 1) ≤ cols * rows := Nat.mul_le_mul_left _ hi
  have e1 : cols * (i + 1) = cols * i + cols := by ring
  have e2 : rows * (3 * cols) = 3 * (cols * rows) := by ring
  omega

theorem element_lt {m : Mat} {n : Nat} (h : MatOk n m) {i j c : Nat} (hi : i < m.rows) (hj : j < m.cols) (hc : c < n) :
    m.step * i + n * j + c < m.bytes.length := by
  have h1 := h.memory
  have h2 : m.step * i ≤ m.step * (m.rows - 1) := Nat.mul_le_mul_left _ (by omega)
  have h3 : n * (j + 1) ≤ n * m.cols := Nat.mul_le_mul_left _ hj
  have e1 : n * (j + 1) = n * j + n := by ring
  omega

/-- The bytes `cvtColor` delivers. -/
theorem cvtColor_ok {m : Mat} (ht : m.type = .u8c3) (h : MatOk 3 m) :
    cvtColor m = .ok (some ((List.range (m.rows * (3 * m.cols))).map fun k => m.bytes[from' m.step m.cols k]?.getD 0)) := by
  unfold cvtColor
  rw [if_pos ⟨ht, h.rows, h.cols⟩, build_ok (g := fun k => m.bytes[from' m.step m.cols k]?.getD 0)]
  · rfl
  · intro k hk
    obtain ⟨i, j, c, hi, hj, hc, rfl⟩ := index_exists hk
    have := element_lt h hi hj (c := 2 - c) (by omega)
    rw [← from_at hj hc] at this
    exact readAt_nat this

theorem cvt_get {m : Mat} {i j c : Nat} (hi : i < m.rows) (hj : j < m.cols) (hc : c < 3) :
    ((List.range (m.rows * (3 * m.cols))).map fun k => m.bytes[from' m.step m.cols k]?.getD 0)[3 * (m.cols * i + j) + c]? =
      some (m.bytes[m.step * i + 3 * j + (2 - c)]?.getD 0) := by
  rw [List.getElem?_map, List.getElem?_range (index_lt hi hj hc), Option.map_some, from_at hj hc]

theorem getD_some {l : List UInt8} {p : Nat} (h : p < l.length) : some (l[p]?.getD 0) = l[p]? := by
  rw [List.getElem?_eq_getElem h]; rfl

theorem readMaskPixel_ok {x y : Int} {w h : Nat} {data : List UInt8} (hl : data.length = w * h) (hf : w * h < 2 ^ 31)
    {i j : Nat} (hi : i < h) (hj : j < w) :
    Region.readMaskPixel (.mask x y w h data) i j = .ok (data[w * i + j]?.getD 0) := by
  have h2 : (2 : Nat) ^ 31 = 2147483648 := by norm_num
  have hlt : w * i + w ≤ w * h := by
    have := Nat.mul_le_mul_left w hi
    rw [Nat.mul_succ] at this; exact this
  have m1 : mul32 (w : Int) (i : Int) = .ok ((w * i : Nat) : Int) := by
    unfold mul32
    rw [show (w : Int) * i = ((w * i : Nat) : Int) by push_cast; ring, if_pos (by unfold InInt32; omega)]
  unfold Region.readMaskPixel Region.maskRow
  dsimp only
  rw [if_pos (by omega), m1, Outcome.bind_ok, show ((w * i : Nat) : Int) + (j : Int) = ((w * i + j : Nat) : Int) by push_cast; ring]
  exact readAt_nat (by omega)

/-! ## Rounding -/

/-- Units of which `2 * U` make one. -/
theorem round_div {m U : Nat} (hU : 0 < U) :
    2 * U * ((m + U) / (2 * U)) ≤ m + U ∧ m + U < 2 * U * ((m + U) / (2 * U)) + 2 * U := by
  have h1 := Nat.div_add_mod (m + U) (2 * U)
  have h2 := Nat.mod_lt (m + U) (show 0 < 2 * U by omega)
  omega

theorem value_div (s : Bool) (m : Nat) : (Flt.fin s m).value = (if s then -1 else 1) * ((m : ℚ) / 2 ^ 149) := by
  unfold Flt.value
  cases s
  · simp
  · simp only [if_true]; ring

theorem roundInt_ok {x : Flt} (hx : x.IsFinite) (hb : |x.value| < 2 ^ 31 - 1) : ∃ r, roundInt x = .ok r ∧ RoundsTo x.value r := by
  obtain ⟨s, m, rfl⟩ := Flt.finite_iff.mp hx
  have hU := Flt.U_pos
  have h148 : (2 : Nat) ^ 149 = 2 * 2 ^ 148 := by rw [← pow_succ']
  obtain ⟨q1, q2⟩ := round_div (m := m) (Nat.two_pow_pos 148)
  rw [← h148] at q1 q2
  have hdef : roundInt (.fin s m) = if InInt32 (if s = true then -(((m + 2 ^ 148) / 2 ^ 149 : Nat) : Int) else (((m + 2 ^ 148) / 2 ^ 149 : Nat) : Int))
      then .ok (if s = true then -(((m + 2 ^ 148) / 2 ^ 149 : Nat) : Int) else (((m + 2 ^ 148) / 2 ^ 149 : Nat) : Int)) else .ub := by
    unfold roundInt Flt.roundF Flt.toInt
    simp only
    rw [Nat.mul_div_cancel _ (Nat.two_pow_pos 149)]
  rw [hdef]
  clear hdef
  rw [value_div] at hb ⊢
  generalize hc : (m + 2 ^ 148) / 2 ^ 149 = c at *
  have hcast : ((2 ^ 149 : Nat) : ℚ) = 2 ^ 149 := by rw [Nat.cast_pow]; rfl
  have hcast' : ((2 ^ 148 : Nat) : ℚ) = 2 ^ 149 / 2 := by rw [Nat.cast_pow, pow_succ (2 : ℚ) 148, Nat.cast_ofNat, mul_div_assoc, div_self (by norm_num), mul_one]
  have r1 : (2 ^ 149 : ℚ) * c ≤ m + 2 ^ 149 / 2 := by
    rw [← hcast', ← hcast, ← Nat.cast_mul, ← Nat.cast_add]; exact Nat.cast_le.mpr q1
  have r2 : (m : ℚ) + 2 ^ 149 / 2 < 2 ^ 149 * c + 2 ^ 149 := by
    rw [← hcast', ← hcast, ← Nat.cast_mul, ← Nat.cast_add, ← Nat.cast_add]; exact Nat.cast_lt.mpr q2
  clear q1 q2 hc hcast hcast' h148 hx
  generalize hV : (2 ^ 149 : ℚ) = V at *
  clear hV
  have hm0 : (0 : ℚ) ≤ m := Nat.cast_nonneg m
  obtain ⟨v, hv⟩ : ∃ v : ℚ, v = (m : ℚ) / V := ⟨_, rfl⟩
  have hmv : (m : ℚ) = v * V := by rw [hv, div_mul_cancel₀ _ (ne_of_gt hU)]
  have hv0 : 0 ≤ v := by rw [hv]; exact div_nonneg hm0 hU.le
  rw [← hv] at hb ⊢
  rw [hmv] at r1 r2
  have a1 : (c : ℚ) ≤ v + 1 / 2 := by
    by_contra hcon
    have := mul_lt_mul_of_pos_right (not_le.mp hcon) hU
    linarith
  have a2 : v < c + 1 / 2 := by
    by_contra hcon
    have := mul_le_mul_of_nonneg_right (not_lt.mp hcon) hU.le
    linarith
  clear r1 r2 hmv hv hm0 hU
  have hc0 : (0 : ℚ) ≤ c := Nat.cast_nonneg c
  have hvb : v < 2 ^ 31 - 1 := by
    cases s
    · simp only [Bool.false_eq_true, if_false, one_mul, abs_of_nonneg hv0] at hb; exact hb
    · simp only [if_true, neg_mul, one_mul, abs_neg, abs_of_nonneg hv0] at hb; exact hb
  have hcb : c < 2147483648 := by
    have : (c : ℚ) < 2147483648 := by linarith [show ((2 : ℚ) ^ 31) = 2147483648 by norm_num]
    exact_mod_cast this
  refine ⟨_, if_pos ?_, ?_⟩
  · unfold InInt32
    cases s
    · simp only [Bool.false_eq_true, if_false]; omega
    · simp only [if_true]; omega
  · unfold RoundsTo
    have ha : |v - c| ≤ 1 / 2 := abs_le.mpr ⟨by linarith, by linarith⟩
    have hhalf : |v - c| = 1 / 2 → v ≤ c := by
      intro h
      by_contra hcon
      rw [abs_of_pos (by linarith [not_le.mp hcon])] at h
      linarith
    cases s
    · simp only [Bool.false_eq_true, if_false, one_mul, Int.cast_natCast]
      refine ⟨ha, fun h => ?_⟩
      rw [abs_of_nonneg hv0, abs_of_nonneg hc0]
      exact hhalf h
    · simp only [if_true, neg_mul, one_mul, Int.cast_neg, Int.cast_natCast]
      rw [show -v - -(c : ℚ) = -(v - c) by ring, abs_neg, abs_neg, abs_neg]
      refine ⟨ha, fun h => ?_⟩
      rw [abs_of_nonneg hv0, abs_of_nonneg hc0]
      exact hhalf h

theorem roundsTo_int {n r : Int} (h : RoundsTo n r) : r = n := by
  have h1 := h.1
  have h2 : |((n - r : Int) : ℚ)| < 1 := by
    rw [Int.cast_sub]; linarith [show (1 : ℚ) / 2 < 1 by norm_num]
  have h3 : |n - r| < 1 := by exact_mod_cast h2
  have := abs_lt.mp h3
  omega

end Trax.Ocv
