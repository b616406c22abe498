import Verif.Lemmas.FloatOps

/-!
# Floats that are multiples of a power of two
-/

namespace Trax.Flt

/-- A number of `n` units of size `2 ^ -k`. -/
def OnGrid (k : Nat) (x : Flt) (n : Int) : Prop := x.IsFinite ∧ x.value = n / 2 ^ k

theorem grid_float {k : Nat} (hk : k ≤ 149) {n : Int} (hn : |n| ≤ 2 ^ 24) : ∃ z : Flt, z.IsFloat ∧ z.IsFinite ∧ z.value = n / 2 ^ k := by
  refine ⟨.fin (decide (n < 0)) (n.natAbs * 2 ^ (149 - k)), ?_, trivial, ?_⟩
  · show Rep32 _
    obtain ⟨h1, -⟩ := rep24_small hn
    refine ⟨Rep.scale (p := 24) h1 (Nat.le_refl _) _, ?_⟩
    have h2 : n.natAbs ≤ 2 ^ 24 := by
      rw [Int.abs_eq_natAbs] at hn
      exact_mod_cast hn
    calc n.natAbs * 2 ^ (149 - k) ≤ 2 ^ 24 * 2 ^ 149 := Nat.mul_le_mul h2 (Nat.pow_le_pow_right (by omega) (by omega))
      _ = 2 ^ 173 := by rw [← pow_add]
      _ < 2 ^ 277 := Nat.pow_lt_pow_right (by omega) (by omega)
  · rw [value_fin]
    have hs : signed (decide (n < 0)) (n.natAbs * 2 ^ (149 - k)) = n * 2 ^ (149 - k) := by
      unfold signed
      by_cases h : n < 0
      · rw [if_pos (by simpa using h)]
        have : (n.natAbs : Int) = -n := by omega
        rw [Int.natCast_mul, this, Int.natCast_pow]
        show -(-n * (2 : Int) ^ (149 - k)) = _
        ring
      · rw [if_neg (by simpa using h)]
        have : (n.natAbs : Int) = n := by omega
        rw [Int.natCast_mul, this, Int.natCast_pow]
        rfl
    rw [hs, Int.cast_mul, Int.cast_pow]
    have h2 : (2 : ℚ) ^ 149 = 2 ^ (149 - k) * 2 ^ k := by rw [← pow_add]; congr 1; omega
    have h3 : ((2 : Int) : ℚ) = 2 := rfl
    rw [h2, h3]
    generalize hA : (2 : ℚ) ^ (149 - k) = A
    have hA0 : A ≠ 0 := by rw [← hA]; exact pow_ne_zero _ (by decide)
    rw [mul_comm, mul_div_mul_left _ _ hA0]

theorem OnGrid.add {k : Nat} (hk : k ≤ 149) {x y : Flt} {m n : Int} (hx : OnGrid k x m) (hy : OnGrid k y n) (h : |m + n| ≤ 2 ^ 24) :
    OnGrid k (x.addF y) (m + n) := by
  obtain ⟨z, z1, z2, z3⟩ := grid_float hk h
  have hv : z.value = x.value + y.value := by rw [z3, hx.2, hy.2, Int.cast_add, add_div]
  have hn := addF_nearest hx.1 hy.1 (by rw [← hv]; exact abs_le_fltMax z1)
  exact ⟨hn.2.1, by rw [Nearest.exact hn z1 z2 hv, ← hv, z3]⟩

theorem OnGrid.sub {k : Nat} (hk : k ≤ 149) {x y : Flt} {m n : Int} (hx : OnGrid k x m) (hy : OnGrid k y n) (h : |m - n| ≤ 2 ^ 24) :
    OnGrid k (x.subF y) (m - n) := by
  have hy' : OnGrid k y.neg (-n) := ⟨neg_finite hy.1, by rw [neg_value, hy.2, Int.cast_neg, neg_div]⟩
  have := hx.add hk hy' (by rwa [← sub_eq_add_neg])
  rwa [← sub_eq_add_neg] at this

theorem Is.onGrid (k : Nat) {x : Flt} {n : Int} (h : x.Is n) : OnGrid k x (n * 2 ^ k) := by
  refine ⟨h.finite, ?_⟩
  rw [h.value, Int.cast_mul, Int.cast_pow]
  show (n : ℚ) = (n : ℚ) * 2 ^ k / 2 ^ k
  rw [mul_div_assoc, div_self (pow_ne_zero _ (by decide)), mul_one]

/-- `round`: to the nearest whole number, halves away from zero. -/
theorem roundF_spec {x : Flt} (hf : x.IsFinite) :
    ∃ R : Int, x.roundF.Is R ∧ (0 ≤ x.value → (R : ℚ) ≤ x.value + 1 / 2 ∧ x.value + 1 / 2 < R + 1) ∧
      (x.value < 0 → (R : ℚ) - 1 < x.value - 1 / 2 ∧ x.value - 1 / 2 ≤ R) := by
  obtain ⟨s, m, rfl⟩ := finite_iff.mp hf
  rw [value_fin]
  have hU := U_pos
  have key : ∃ q : Nat, (m + 2 ^ 148) / 2 ^ 149 = q ∧ (q : ℚ) ≤ (m : ℚ) / 2 ^ 149 + 1 / 2 ∧ (m : ℚ) / 2 ^ 149 + 1 / 2 < q + 1 := by
    refine ⟨_, rfl, ?_⟩
    have hcast : ((2 ^ 149 : Nat) : ℚ) = 2 ^ 149 := by rw [Nat.cast_pow]; rfl
    have hcast' : ((2 ^ 148 : Nat) : ℚ) = 2 ^ 149 / 2 := by
      rw [Nat.cast_pow, show (149 : Nat) = 148 + 1 from rfl, pow_succ (2 : ℚ) 148, mul_div_assoc, div_self (by decide), mul_one]; rfl
    have h1 := Nat.div_mul_le_self (m + 2 ^ 148) (2 ^ 149)
    have h2 := Nat.lt_div_mul_add (a := m + 2 ^ 148) (Nat.two_pow_pos 149)
    generalize (m + 2 ^ 148) / 2 ^ 149 = q at *
    have g1 : (q : ℚ) * 2 ^ 149 ≤ m + 2 ^ 149 / 2 := by
      rw [← hcast', ← hcast, ← Nat.cast_mul, ← Nat.cast_add]
      exact Nat.cast_le.mpr h1
    have g2 : (m : ℚ) + 2 ^ 149 / 2 < q * 2 ^ 149 + 2 ^ 149 := by
      rw [← hcast', ← hcast, ← Nat.cast_mul, ← Nat.cast_add, ← Nat.cast_add]
      exact Nat.cast_lt.mpr h2
    generalize (2 : ℚ) ^ 149 = V at *
    have e : (m : ℚ) / V + 1 / 2 = (m + V / 2) / V := by field_simp
    rw [e, le_div_iff₀ hU, div_lt_iff₀ hU]
    exact ⟨g1, by linarith⟩
  obtain ⟨q, hq, h1, h2⟩ := key
  have hm0 : (0 : ℚ) ≤ (m : ℚ) / 2 ^ 149 := div_nonneg (Nat.cast_nonneg _) hU.le
  have hr : Flt.roundF (.fin s m) = .fin s (q * 2 ^ 149) := by rw [← hq]; rfl
  have hval : (Flt.fin s (q * 2 ^ 149)).value = (signed s q : ℚ) := by
    rw [value_fin]
    have : signed s (q * 2 ^ 149) = signed s q * 2 ^ 149 := by
      unfold signed
      split
      · rw [Int.natCast_mul, Int.natCast_pow, neg_mul]; rfl
      · rw [Int.natCast_mul, Int.natCast_pow]; rfl
    rw [this, Int.cast_mul, Int.cast_pow]
    show (signed s q : ℚ) * 2 ^ 149 / 2 ^ 149 = _
    rw [mul_div_assoc, div_self hU.ne', mul_one]
  rw [hr]
  refine ⟨signed s q, is_of_value trivial hval, ?_⟩
  clear hq hr hval
  generalize (2 : ℚ) ^ 149 = V at *
  cases s with
  | false =>
    simp only [signed, Bool.false_eq_true, if_false, Int.cast_natCast]
    exact ⟨fun _ => ⟨h1, h2⟩, fun h => absurd hm0 (not_le.mpr h)⟩
  | true =>
    simp only [signed, if_true, Int.cast_neg, Int.cast_natCast, neg_div]
    refine ⟨fun h => ?_, fun _ => ⟨by linarith, by linarith⟩⟩
    have : (m : ℚ) / V = 0 := le_antisymm (by linarith) hm0
    rw [this] at h1 h2 ⊢
    have hq0 : q = 0 := by
      have : (q : ℚ) < 1 := by linarith
      exact Nat.lt_one_iff.mp (by exact_mod_cast this)
    subst hq0
    norm_num

/-- Truncation: towards zero. -/
theorem toInt_trunc {x : Flt} (hf : x.IsFinite) (hb : |x.value| < 2 ^ 31) :
    ∃ n : Int, x.toInt = .ok n ∧ InInt32 n ∧ (0 ≤ x.value → (n : ℚ) ≤ x.value ∧ x.value < n + 1) ∧ (x.value < 0 → (n : ℚ) - 1 < x.value ∧ x.value ≤ n) := by
  rw [abs_lt] at hb
  have ran : ∀ (y : Flt) (n : Int), y.toInt = .ok n → InInt32 n := by
    intro y n h
    unfold Flt.toInt at h
    cases y with
    | fin s m =>
      dsimp only at h
      generalize (if s = true then -((m / 2 ^ 149 : Nat) : Int) else ((m / 2 ^ 149 : Nat) : Int)) = v at h
      by_cases hc : InInt32 v
      · rw [if_pos hc] at h
        cases h
        exact hc
      · rw [if_neg hc] at h
        exact absurd h (by simp)
    | nan => exact absurd h (by simp)
    | inf s => exact absurd h (by simp)
  rcases lt_or_ge x.value 0 with h0 | h0
  · obtain ⟨n, h1, h2, h3⟩ := toInt_floor (neg_finite hf) (by rw [neg_value]; linarith) (by rw [neg_value]; linarith [hb.1])
    rw [neg_value] at h2 h3
    have hr := ran _ _ h1
    refine ⟨-(n : Int), ?_, ?_, fun h => absurd h0 (not_lt.mpr h), fun _ => ?_⟩
    · obtain ⟨s, m, rfl⟩ := finite_iff.mp hf
      have hn : (Flt.fin s m).neg = .fin (!s) m := rfl
      rw [hn] at h1
      unfold Flt.toInt at h1 ⊢
      dsimp only at h1 ⊢
      have e : (if s = true then -((m / 2 ^ 149 : Nat) : Int) else ((m / 2 ^ 149 : Nat) : Int)) =
          -(if (!s) = true then -((m / 2 ^ 149 : Nat) : Int) else ((m / 2 ^ 149 : Nat) : Int)) := by
        cases s
        · simp only [Bool.false_eq_true, if_false, Bool.not_false, if_true, neg_neg]
        · simp only [if_true, Bool.not_true, Bool.false_eq_true, if_false]
      rw [e]
      generalize (if (!s) = true then -((m / 2 ^ 149 : Nat) : Int) else ((m / 2 ^ 149 : Nat) : Int)) = v at h1
      by_cases hc : InInt32 v
      · rw [if_pos hc] at h1
        cases h1
        rw [if_pos (by unfold InInt32 at hr ⊢; omega)]
      · rw [if_neg hc] at h1
        exact absurd h1 (by simp)
    · unfold InInt32 at hr ⊢
      omega
    · rw [Int.cast_neg, Int.cast_natCast]
      constructor <;> linarith
  · obtain ⟨n, h1, h2, h3⟩ := toInt_floor hf h0 hb.2
    exact ⟨n, h1, ran _ _ h1, fun _ => ⟨by rw [Int.cast_natCast]; exact h2, by rw [Int.cast_natCast]; exact h3⟩, fun h => absurd h (not_lt.mpr h0)⟩

end Trax.Flt
