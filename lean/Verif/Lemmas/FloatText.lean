import Verif.Lemmas.NumText

/-! Helper lemmas: decimal text to `double` to `float`. -/

namespace Trax

theorem log2_eq {n k : Nat} (h1 : 2 ^ k ≤ n) (h2 : n < 2 ^ (k + 1)) : n.log2 = k := by
  have h0 : n ≠ 0 := by have := Nat.two_pow_pos k; omega
  have a := (Nat.log2_lt h0).mpr h2
  have b : k ≤ n.log2 := (Nat.le_log2 h0).mpr h1
  omega

theorem fround_zero (p d : Nat) (hd : 0 < d) : fround p 0 d = 0 := by
  have : Rep p 0 := by simp [Rep]
  simpa using fround_exact hd this

theorem rep_two_pow (p k : Nat) (hp : 0 < p) : Rep p (2 ^ k) := by
  unfold Rep
  have : (2 ^ k).log2 = k := log2_eq (Nat.le_refl _) (by rw [pow_succ]; have := Nat.two_pow_pos k; omega)
  rw [this]
  exact Nat.pow_dvd_pow 2 (by omega)

/-- Reading `N / S` as a `double` and converting to `float` is rounding it once. -/
theorem double_round (N S : Nat) (hN : 0 < N) (hS : 0 < S) (hS2 : S ≤ 2 ^ 28) (hlt : N < S * 2 ^ 24) :
    fround 24 (fround 53 (N * 2 ^ 1074) S) (2 ^ 925) = fround 24 (N * 2 ^ 149) S := by
  generalize hL : (N * 2 ^ 1074 / S).log2 = L
  generalize hq : N * 2 ^ 1074 / S = q at hL
  have hqlo : 2 ^ 1046 ≤ q := by
    rw [← hq, Nat.le_div_iff_mul_le hS]
    calc 2 ^ 1046 * S ≤ 2 ^ 1046 * 2 ^ 28 := Nat.mul_le_mul_left _ hS2
      _ = 1 * 2 ^ 1074 := by rw [← pow_add, Nat.one_mul]
      _ ≤ N * 2 ^ 1074 := Nat.mul_le_mul_right _ hN
  have hqhi : q < 2 ^ 1098 := by
    rw [← hq, Nat.div_lt_iff_lt_mul hS]
    calc N * 2 ^ 1074 < (S * 2 ^ 24) * 2 ^ 1074 := Nat.mul_lt_mul_of_pos_right hlt (Nat.two_pow_pos _)
      _ = 2 ^ 1098 * S := by rw [Nat.mul_assoc, ← pow_add, Nat.mul_comm]
  have hq0 : q ≠ 0 := by have := Nat.two_pow_pos 1046; omega
  have hL1 : 1046 ≤ L := by rw [← hL]; exact (Nat.le_log2 hq0).mpr hqlo
  have hL2 : L ≤ 1097 := by rw [← hL]; have := (Nat.log2_lt hq0).mpr hqhi; omega
  have hq1 : 2 ^ L ≤ q := by rw [← hL]; exact Nat.log2_self_le hq0
  have hq2 : q < 2 ^ (L + 1) := by rw [← hL]; exact Nat.lt_log2_self
  -- the float exponent
  obtain ⟨j, rfl⟩ : ∃ j, L = j + 948 := ⟨L - 948, by omega⟩
  have hj : j ≤ 149 := by omega
  obtain ⟨i, hi⟩ : ∃ i, 149 = i + j := ⟨149 - j, by omega⟩
  have hq' : N * 2 ^ 149 / S = q / 2 ^ 925 := by
    rw [← hq, Nat.div_div_eq_div_mul, Nat.mul_comm S, ← Nat.div_div_eq_div_mul]
    congr 1
    have : N * 2 ^ 1074 = (N * 2 ^ 149) * 2 ^ 925 := by rw [Nat.mul_assoc, ← pow_add]
    rw [this, Nat.mul_div_cancel _ (Nat.two_pow_pos _)]
  have hlog' : (N * 2 ^ 149 / S).log2 = j + 23 := by
    rw [hq']
    apply log2_eq
    · rw [Nat.le_div_iff_mul_le (Nat.two_pow_pos _), ← pow_add]; exact hq1
    · rw [Nat.div_lt_iff_lt_mul (Nat.two_pow_pos _), ← pow_add]; exact hq2
  have hM : N * 2 ^ 149 = N * 2 ^ i * 2 ^ j := by rw [hi, pow_add]; ring
  have hR : fround 24 (N * 2 ^ 149) S = rhe (N * 2 ^ i) S * 2 ^ j := by
    unfold fround
    simp only [hlog']
    rw [show j + 23 + 1 - 24 = j by omega, hM, rhe_scale _ _ _ hS (Nat.two_pow_pos _)]
  have hM2 : N * 2 ^ 1074 = N * 2 ^ i * 536870912 * 2 ^ (j + 896) := by
    rw [show (1074 : Nat) = i + 29 + (j + 896) by omega, pow_add _ (i + 29), pow_add _ i]
    have : (2 : Nat) ^ 29 = 536870912 := by norm_num
    rw [this]; ring
  have hD : fround 53 (N * 2 ^ 1074) S = rhe (N * 2 ^ i * 536870912) S * 2 ^ (j + 896) := by
    unfold fround
    simp only [hq, hL]
    rw [show j + 948 + 1 - 53 = j + 896 by omega, hM2, rhe_scale _ _ _ hS (Nat.two_pow_pos _)]
  have hSm : 2 * S ≤ 536870912 := by
    have : (2 : Nat) ^ 28 = 268435456 := by norm_num
    omega
  have hdr := double_rhe (N * 2 ^ i) S 536870912 rfl hS hSm
  rw [hD, hR, ← hdr]
  -- bounds of the double mantissa
  obtain ⟨a1, a2, -, -⟩ := rhe_spec (N * 2 ^ i * 536870912) S hS
  have hq3 : q = (N * 2 ^ i * 536870912) * 2 ^ (j + 896) / S := by rw [← hM2, hq]
  clear hD hR hM hdr
  obtain ⟨A, hA⟩ : ∃ A, A = N * 2 ^ i * 536870912 := ⟨_, rfl⟩
  rw [← hA] at a1 a2 hq3 ⊢
  clear hA hM2
  obtain ⟨I, hI'⟩ : ∃ I, I = rhe A S := ⟨_, rfl⟩
  rw [← hI'] at a1 a2 ⊢
  clear hI'
  have hIlo : 2 ^ 52 ≤ I := by
    by_contra hlt'
    have h1 : 2 ^ (j + 948) * S ≤ A * 2 ^ (j + 896) := by
      rw [← Nat.le_div_iff_mul_le hS, ← hq3]; exact hq1
    have h2 : 2 ^ 52 * S ≤ A := by
      have e : 2 ^ (j + 948) * S = 2 ^ 52 * S * 2 ^ (j + 896) := by
        rw [show j + 948 = 52 + (j + 896) by omega, pow_add]; ring
      rw [e] at h1
      exact Nat.le_of_mul_le_mul_right h1 (Nat.two_pow_pos _)
    have h3 : (I + 1) * S ≤ 2 ^ 52 * S := Nat.mul_le_mul_right S (by omega)
    have e3 : (I + 1) * S = I * S + S := by ring
    omega
  have hIhi : I ≤ 2 ^ 53 := by
    by_contra hlt'
    have h1 : A * 2 ^ (j + 896) < 2 ^ (j + 949) * S := by
      rw [← Nat.div_lt_iff_lt_mul hS, ← hq3]; exact hq2
    have h2 : A < 2 ^ 53 * S := by
      have e : 2 ^ (j + 949) * S = 2 ^ 53 * S * 2 ^ (j + 896) := by
        rw [show j + 949 = 53 + (j + 896) by omega, pow_add]; ring
      rw [e] at h1
      exact Nat.lt_of_mul_lt_mul_right h1
    have h3 : (2 ^ 53 + 1) * S ≤ I * S := Nat.mul_le_mul_right S (by omega)
    have e3 : (2 ^ 53 + 1) * S = 2 ^ 53 * S + S := by ring
    omega
  have hj98 : 98 ≤ j := by omega
  obtain ⟨b, rfl⟩ : ∃ b, j = b + 29 := ⟨j - 29, by omega⟩
  have e : I * 2 ^ (b + 29 + 896) = I * 2 ^ b * 2 ^ 925 := by
    rw [show b + 29 + 896 = b + 925 by omega, pow_add]; ring
  rw [e]
  by_cases hI : I = 2 ^ 53
  · subst hI
    rw [← pow_add]
    rw [fround_exact (Nat.two_pow_pos _) (rep_two_pow 24 _ (by omega))]
    have : rhe (2 ^ 53) 536870912 = 2 ^ 24 := by decide +kernel
    rw [this, ← pow_add, show 53 + b = 24 + (b + 29) by omega]
  · have hIlt : I < 2 ^ 53 := by omega
    unfold fround
    have hdiv : I * 2 ^ b * 2 ^ 925 / 2 ^ 925 = I * 2 ^ b := Nat.mul_div_cancel _ (Nat.two_pow_pos _)
    have hlg : (I * 2 ^ b).log2 = b + 52 := by
      apply log2_eq
      · rw [pow_add, Nat.mul_comm]; exact Nat.mul_le_mul_right _ hIlo
      · rw [show b + 52 + 1 = 53 + b by omega, pow_add]
        exact Nat.mul_lt_mul_of_pos_right hIlt (Nat.two_pow_pos _)
    simp only [hdiv, hlg]
    rw [show b + 52 + 1 - 24 = b + 29 by omega]
    have e1 : (2 : Nat) ^ 925 * 2 ^ (b + 29) = 536870912 * (2 ^ b * 2 ^ 925) := by
      rw [pow_add 2 b 29]
      have : (2 : Nat) ^ 29 = 536870912 := by norm_num
      rw [this]; ring
    have e2 : I * 2 ^ b * 2 ^ 925 = I * (2 ^ b * 2 ^ 925) := by ring
    rw [e1, e2, rhe_scale _ _ _ (by norm_num) (Nat.mul_pos (Nat.two_pow_pos _) (Nat.two_pow_pos _))]

/-- Rounding gives a representable number. -/
theorem fround_rep (p n d : Nat) (hp : 0 < p) (hd : 0 < d) : Rep p (fround p n d) := by
  have hL : n / d < 2 ^ ((n / d).log2 + 1) := Nat.lt_log2_self
  have hk : (n / d).log2 + 1 ≤ p + ((n / d).log2 + 1 - p) := by omega
  unfold fround
  simp only
  generalize (n / d).log2 + 1 - p = k at *
  have h1 : n / d < 2 ^ (p + k) := Nat.lt_of_lt_of_le hL (Nat.pow_le_pow_right (by omega) hk)
  have h2 : n < 2 ^ (p + k) * d := (Nat.div_lt_iff_lt_mul hd).mp h1
  have hdk : 0 < d * 2 ^ k := Nat.mul_pos hd (Nat.two_pow_pos k)
  obtain ⟨a1, -, -, -⟩ := rhe_spec n (d * 2 ^ k) hdk
  generalize rhe n (d * 2 ^ k) = c at *
  have hc : c ≤ 2 ^ p := by
    by_contra hlt
    have h3 : (2 ^ p + 1) * (d * 2 ^ k) ≤ c * (d * 2 ^ k) := Nat.mul_le_mul_right _ (by omega)
    have e : (2 ^ p + 1) * (d * 2 ^ k) = 2 ^ (p + k) * d + d * 2 ^ k := by rw [pow_add]; ring
    omega
  by_cases hcp : c = 2 ^ p
  · subst hcp; rw [← pow_add]; exact rep_two_pow p _ hp
  · unfold Rep
    by_cases h0 : c * 2 ^ k = 0
    · rw [h0]; simp
    · have : (c * 2 ^ k).log2 < p + k := by
        apply (Nat.log2_lt h0).mpr
        rw [pow_add]
        exact Nat.mul_lt_mul_of_pos_right (by omega) (Nat.two_pow_pos k)
      exact Nat.dvd_trans (Nat.pow_dvd_pow 2 (by omega : (c * 2 ^ k).log2 + 1 - p ≤ k)) (Nat.dvd_mul_left _ _)

/-- Rounding at most doubles. -/
theorem fround_le (p n d : Nat) (hp : 0 < p) (hd : 0 < d) : fround p n d * d ≤ 2 * n := by
  have := fround_nearest n d 0 hp hd (by simp [Rep] : Rep p 0)
  omega

theorem log2_mul_pow (m k : Nat) (h : m ≠ 0) : (m * 2 ^ k).log2 = m.log2 + k := by
  apply log2_eq
  · rw [pow_add]; exact Nat.mul_le_mul_right _ (Nat.log2_self_le h)
  · rw [show m.log2 + k + 1 = m.log2 + 1 + k by omega, pow_add]
    exact Nat.mul_lt_mul_of_pos_right Nat.lt_log2_self (Nat.two_pow_pos k)

theorem Rep.scale {p p' m : Nat} (h : Rep p m) (hp : p ≤ p') (k : Nat) : Rep p' (m * 2 ^ k) := by
  by_cases h0 : m = 0
  · subst h0; simp [Rep]
  · unfold Rep at *
    rw [log2_mul_pow m k h0]
    have h1 : 2 ^ (m.log2 + k + 1 - p') ∣ 2 ^ (m.log2 + 1 - p + k) := Nat.pow_dvd_pow 2 (by omega)
    rw [pow_add] at h1
    exact Nat.dvd_trans h1 (Nat.mul_dvd_mul_right h _)

theorem Rep.unscale {p m k : Nat} (h : Rep p (m * 2 ^ k)) : Rep p m := by
  by_cases h0 : m = 0
  · subst h0; simp [Rep]
  · unfold Rep at *
    rw [log2_mul_pow m k h0] at h
    by_cases hle : m.log2 + 1 ≤ p
    · rw [show m.log2 + 1 - p = 0 by omega]; simp
    · rw [show m.log2 + k + 1 - p = m.log2 + 1 - p + k by omega, pow_add] at h
      exact Nat.dvd_of_mul_dvd_mul_right (Nat.two_pow_pos k) h

/-- The decimal number printed for the magnitude `m` (a number of `10^-(w+1)` steps). -/
def decimalOf (S m : Nat) : Nat := rhe (m * S) (2 ^ 149)

/-- The magnitude that is read back. -/
def readBack (S m : Nat) : Nat := fround 24 (decimalOf S m * 2 ^ 149) S

theorem float_exact_large {m : Nat} (hm : Rep 24 m) (h : 2 ^ 172 ≤ m) : ∃ c, m = c * 2 ^ 149 := by
  have h0 : m ≠ 0 := by have := Nat.two_pow_pos 172; omega
  have hl : 172 ≤ m.log2 := (Nat.le_log2 h0).mpr h
  obtain ⟨c, hc⟩ := Nat.dvd_trans (Nat.pow_dvd_pow 2 (by omega : 149 ≤ m.log2 + 1 - 24)) hm
  exact ⟨c, by rw [hc]; ring⟩

/-- Reading the text of a float (`%.<w+1>f` with at most eight decimals). -/
theorem read_decimal (neg : Bool) (m S : Nat) (hS : 0 < S) (hS2 : S ≤ 2 ^ 28) (hm : Rep32 m) :
    ((Num.fin (decimalOf S m) S).toDouble neg).toFloat = .fin neg (readBack S m) ∧ Rep32 (readBack S m) := by
  have h149 := Nat.two_pow_pos 149
  by_cases hbig : 2 ^ 172 ≤ m
  · obtain ⟨c, hc⟩ := float_exact_large hm.1 hbig
    have hN : decimalOf S m = c * S := by
      unfold decimalOf
      rw [hc, show c * 2 ^ 149 * S = c * S * 2 ^ 149 by ring, rhe_mul _ _ h149]
    have hrb : readBack S m = m := by
      unfold readBack
      rw [hN, show c * S * 2 ^ 149 = m * S by rw [hc]; ring, fround_exact hS hm.1]
    rw [hrb]
    refine ⟨?_, hm⟩
    have hD : fround 53 (decimalOf S m * 2 ^ 1074) S = m * 2 ^ 925 := by
      rw [hN, show c * S * 2 ^ 1074 = (m * 2 ^ 925) * S by
        rw [hc, show (1074 : Nat) = 149 + 925 by norm_num, pow_add]; ring]
      exact fround_exact hS (Rep.scale (p := 24) hm.1 (by omega) 925)
    have hDlt : m * 2 ^ 925 < 2 ^ 2098 := by
      calc m * 2 ^ 925 < 2 ^ 277 * 2 ^ 925 := Nat.mul_lt_mul_of_pos_right hm.2 (Nat.two_pow_pos _)
        _ = 2 ^ 1202 := by rw [← pow_add]
        _ ≤ 2 ^ 2098 := Nat.pow_le_pow_right (by omega) (by omega)
    unfold Num.toDouble mkDouble
    simp only [hD]
    rw [if_neg (by omega)]
    unfold Flt.toFloat mkFloat
    simp only
    rw [fround_exact (Nat.two_pow_pos _) hm.1, if_neg (by have := hm.2; omega)]
  · -- small numbers
    have hNlt : decimalOf S m < S * 2 ^ 24 := by
      obtain ⟨a1, -, -, -⟩ := rhe_spec (m * S) (2 ^ 149) h149
      unfold decimalOf
      generalize rhe (m * S) (2 ^ 149) = N at *
      by_contra hge
      have h1 : (S * 2 ^ 24) * 2 ^ 149 ≤ N * 2 ^ 149 := Nat.mul_le_mul_right _ (by omega)
      have h2 : m * S ≤ 2 ^ 172 * S := Nat.mul_le_mul_right _ (by omega)
      have e : (S * 2 ^ 24) * 2 ^ 149 = 2 * (2 ^ 172 * S) := by ring
      have h3 : 2 ^ 149 * 1 ≤ 2 ^ 172 * S :=
        Nat.mul_le_mul (Nat.pow_le_pow_right (by omega) (by omega)) hS
      omega
    have hy : readBack S m < 2 ^ 277 := by
      have := fround_le 24 (decimalOf S m * 2 ^ 149) S (by omega) hS
      unfold readBack
      generalize fround 24 (decimalOf S m * 2 ^ 149) S = y at *
      have h1 : decimalOf S m * 2 ^ 149 ≤ S * 2 ^ 24 * 2 ^ 149 := Nat.mul_le_mul_right _ (by omega)
      have e : 2 * (S * 2 ^ 24 * 2 ^ 149) = 2 ^ 174 * S := by ring
      have h2 : y * S ≤ 2 ^ 174 * S := by omega
      have h3 := Nat.le_of_mul_le_mul_right h2 hS
      exact Nat.lt_of_le_of_lt h3 (Nat.pow_lt_pow_right (by omega) (by omega))
    refine ⟨?_, fround_rep 24 _ _ (by omega) hS, hy⟩
    have hDlt : fround 53 (decimalOf S m * 2 ^ 1074) S < 2 ^ 2098 := by
      have := fround_le 53 (decimalOf S m * 2 ^ 1074) S (by omega) hS
      generalize fround 53 (decimalOf S m * 2 ^ 1074) S = y at *
      have h1 : decimalOf S m * 2 ^ 1074 ≤ S * 2 ^ 24 * 2 ^ 1074 := Nat.mul_le_mul_right _ (by omega)
      have e : 2 * (S * 2 ^ 24 * 2 ^ 1074) = 2 ^ 1099 * S := by
        rw [show (1099 : Nat) = 1 + 24 + 1074 by norm_num, pow_add _ (1 + 24), pow_add]; ring
      have h2 : y * S ≤ 2 ^ 1099 * S := by omega
      have h3 := Nat.le_of_mul_le_mul_right h2 hS
      exact Nat.lt_of_le_of_lt h3 (Nat.pow_lt_pow_right (by omega) (by omega))
    have hround : fround 24 (fround 53 (decimalOf S m * 2 ^ 1074) S) (2 ^ 925) = readBack S m := by
      unfold readBack
      by_cases h0 : decimalOf S m = 0
      · rw [h0, Nat.zero_mul, Nat.zero_mul, fround_zero _ _ hS, fround_zero _ _ hS, fround_zero _ _ (Nat.two_pow_pos _)]
      · exact double_round _ _ (by omega) hS hS2 hNlt
    unfold Num.toDouble mkDouble
    simp only
    rw [if_neg (by omega)]
    unfold Flt.toFloat mkFloat
    simp only
    rw [hround, if_neg (by omega)]

/-- The decimal is within half a step of the number. -/
theorem decimalOf_near (S m : Nat) :
    2 * (((decimalOf S m * 2 ^ 149 : Nat) : Int) - (m * S : Nat)).natAbs ≤ 2 ^ 149 := by
  obtain ⟨a1, a2, -, -⟩ := rhe_spec (m * S) (2 ^ 149) (Nat.two_pow_pos _)
  unfold decimalOf
  omega

/-- What is read is a float nearest to the decimal, so not further from it than the original. -/
theorem readBack_near {S m : Nat} (hS : 0 < S) (z : Nat) (hz : Rep 24 z) :
    (((readBack S m * S : Nat) : Int) - (decimalOf S m * 2 ^ 149 : Nat)).natAbs ≤
      (((z * S : Nat) : Int) - (decimalOf S m * 2 ^ 149 : Nat)).natAbs :=
  fround_nearest _ _ z (by omega) hS hz

/-- Printing what was read gives the same decimal. -/
theorem decimalOf_readBack {S m : Nat} (hS : 0 < S) (hm : Rep 24 m) : decimalOf S (readBack S m) = decimalOf S m := by
  have h1 := readBack_near (m := m) hS m hm
  obtain ⟨a1, a2, a3, a4⟩ := rhe_spec (m * S) (2 ^ 149) (Nat.two_pow_pos _)
  generalize readBack S m = y at *
  have e : decimalOf S m = rhe (m * S) (2 ^ 149) := rfl
  rw [e] at h1 ⊢
  generalize rhe (m * S) (2 ^ 149) = N at *
  unfold decimalOf
  apply rhe_eq (Nat.two_pow_pos _)
  refine ⟨by omega, by omega, ?_, ?_⟩
  · intro h; rcases (by omega : 2 * (N * 2 ^ 149) = 2 * (m * S) + 2 ^ 149 ∨ 2 * (m * S) = 2 * (N * 2 ^ 149) + 2 ^ 149) with g | g
    · exact a3 g
    · exact a4 g
  · intro h; rcases (by omega : 2 * (N * 2 ^ 149) = 2 * (m * S) + 2 ^ 149 ∨ 2 * (m * S) = 2 * (N * 2 ^ 149) + 2 ^ 149) with g | g
    · exact a3 g
    · exact a4 g

/-- Numbers with few decimals are read back exactly. -/
theorem readBack_exact {S m N : Nat} (hS : 0 < S) (hm : Rep 24 m) (h : m * S = N * 2 ^ 149) : readBack S m = m := by
  unfold readBack decimalOf
  rw [h, rhe_mul _ _ (Nat.two_pow_pos _), ← h, fround_exact hS hm]

/-- Reading an integer as a `double` is exact up to 2^53. -/
theorem read_int_double (neg : Bool) (n : Nat) (hn : Rep 53 n) (hlt : n < 2 ^ 53) :
    (Num.fin n 1).toDouble neg = .fin neg (n * 2 ^ 1074) := by
  unfold Num.toDouble mkDouble
  have : fround 53 (n * 2 ^ 1074) 1 = n * 2 ^ 1074 := by
    have := fround_exact (d := 1) (by omega) (hn.scale (Nat.le_refl _) 1074)
    rwa [Nat.mul_one] at this
  simp only [this]
  rw [if_neg]
  have : n * 2 ^ 1074 < 2 ^ 53 * 2 ^ 1074 := Nat.mul_lt_mul_of_pos_right hlt (Nat.two_pow_pos _)
  have h2 : (2 : Nat) ^ 53 * 2 ^ 1074 ≤ 2 ^ 2098 := by rw [← pow_add]; exact Nat.pow_le_pow_right (by omega) (by omega)
  omega

/-- … and as a `float` it is rounded to 24 bits. -/
theorem read_int_float (neg : Bool) (n : Nat) (hlt : n < 2 ^ 53) :
    ((Num.fin n 1).toDouble neg).toFloat = .fin neg (fround 24 (n * 2 ^ 149) 1) := by
  rw [read_int_double neg n (rep_of_lt hlt) hlt]
  unfold Flt.toFloat mkFloat
  simp only
  have e : fround 24 (n * 2 ^ 1074) (2 ^ 925) = fround 24 (n * 2 ^ 149) 1 := by
    unfold fround
    have e1 : n * 2 ^ 1074 = n * 2 ^ 149 * 2 ^ 925 := by
      rw [Nat.mul_assoc, ← pow_add 2 149 925]
    simp only [e1, Nat.mul_div_cancel _ (Nat.two_pow_pos 925), Nat.div_one, Nat.one_mul]
    rw [Nat.mul_comm (2 ^ 925), rhe_scale _ _ _ (Nat.two_pow_pos _) (Nat.two_pow_pos _)]
  rw [e, if_neg]
  have := fround_le 24 (n * 2 ^ 149) 1 (by omega) (by omega)
  have h1 : n * 2 ^ 149 ≤ 2 ^ 53 * 2 ^ 149 := Nat.mul_le_mul_right _ (by omega)
  have h2 : 2 * (2 ^ 53 * 2 ^ 149) < (2 : Nat) ^ 277 := by
    rw [← pow_add, ← pow_succ']; exact Nat.pow_lt_pow_right (by omega) (by omega)
  omega

end Trax
