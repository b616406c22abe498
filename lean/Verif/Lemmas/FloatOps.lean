import Verif.Model.FloatOps
import Verif.Spec.Float
import Verif.Lemmas.FloatText
import Mathlib.Tactic.Ring
import Mathlib.Tactic.Linarith
import Mathlib.Tactic.Positivity
import Mathlib.Tactic.NormNum
import Mathlib.Tactic.FieldSimp
import Mathlib.Algebra.Order.Field.Basic
import Mathlib.Algebra.Order.Field.Rat

/-!
# Lemmas about floating point arithmetic
-/

namespace Trax

/-! ## Rounding is monotone -/

theorem fround_le_rep {p : Nat} (n d z : Nat) (hp : 0 < p) (hd : 0 < d) (hz : Rep p z) (h : n ≤ z * d) :
    fround p n d ≤ z := by
  have := fround_nearest n d z hp hd hz
  by_contra hc
  have h1 : (z + 1) * d ≤ fround p n d * d := Nat.mul_le_mul_right _ (by omega)
  rw [Nat.add_mul] at h1
  omega

theorem rep_le_fround {p : Nat} (n d z : Nat) (hp : 0 < p) (hd : 0 < d) (hz : Rep p z) (h : z * d ≤ n) :
    z ≤ fround p n d := by
  have := fround_nearest n d z hp hd hz
  by_contra hc
  have h1 : (fround p n d + 1) * d ≤ z * d := Nat.mul_le_mul_right _ (by omega)
  rw [Nat.add_mul] at h1
  omega

theorem fround_scale {p : Nat} (n d c : Nat) (hd : 0 < d) (hc : 0 < c) : fround p (n * c) (d * c) = fround p n d := by
  unfold fround
  simp only [Nat.mul_div_mul_right n d hc]
  rw [show d * c * 2 ^ ((n / d).log2 + 1 - p) = d * 2 ^ ((n / d).log2 + 1 - p) * c by ring]
  rw [rhe_scale _ _ _ (by positivity) hc]

theorem fround_mono {p : Nat} (n d n' d' : Nat) (hp : 0 < p) (hd : 0 < d) (hd' : 0 < d') (h : n * d' ≤ n' * d) :
    fround p n d ≤ fround p n' d' := by
  have e1 := fround_scale (p := p) n d d' hd hd'
  have e2 := fround_scale (p := p) n' d' d hd' hd
  rw [Nat.mul_comm d' d] at e2
  rw [← e1, ← e2]
  have hD : 0 < d * d' := Nat.mul_pos hd hd'
  generalize d * d' = D at *
  generalize n * d' = a at *
  generalize n' * d = b at *
  rcases Nat.lt_or_ge a b with hlt | hge
  · by_contra hc
    have r1 := fround_rep p a D hp hD
    have r2 := fround_rep p b D hp hD
    have n1 := fround_nearest a D _ hp hD r2
    have n2 := fround_nearest b D _ hp hD r1
    have h1 : (fround p b D + 1) * D ≤ fround p a D * D := Nat.mul_le_mul_right _ (by omega)
    rw [Nat.add_mul] at h1
    omega
  · have : a = b := by omega
    rw [this]

/-! ## Order -/

namespace Flt

theorem value_fin (s : Bool) (m : Nat) : (Flt.fin s m).value = (signed s m : ℚ) / 2 ^ 149 := by
  unfold value signed
  cases s <;> simp

theorem finite_iff {x : Flt} : x.IsFinite ↔ ∃ s m, x = .fin s m := by
  cases x <;> simp [IsFinite]

theorem U_pos : (0 : ℚ) < 2 ^ 149 := by positivity

theorem lt_iff {a b : Flt} (ha : a.IsFinite) (hb : b.IsFinite) : a.lt b = true ↔ a.value < b.value := by
  obtain ⟨s, m, rfl⟩ := finite_iff.mp ha
  obtain ⟨t, n, rfl⟩ := finite_iff.mp hb
  rw [value_fin, value_fin, div_lt_div_iff_of_pos_right U_pos, lt, decide_eq_true_eq]
  exact Int.cast_lt.symm

theorem feq_iff {a b : Flt} (ha : a.IsFinite) (hb : b.IsFinite) : a.feq b = true ↔ a.value = b.value := by
  obtain ⟨s, m, rfl⟩ := finite_iff.mp ha
  obtain ⟨t, n, rfl⟩ := finite_iff.mp hb
  rw [value_fin, value_fin, div_left_inj' (ne_of_gt U_pos), feq, decide_eq_true_eq]
  exact Int.cast_inj.symm

theorem le_iff {a b : Flt} (ha : a.IsFinite) (hb : b.IsFinite) : a.le b = true ↔ a.value ≤ b.value := by
  unfold le
  rw [Bool.or_eq_true, lt_iff ha hb, feq_iff ha hb, le_iff_lt_or_eq]

theorem minF_cases (a b : Flt) : a.minF b = a ∨ a.minF b = b := by
  unfold minF; split <;> simp

theorem maxF_cases (a b : Flt) : a.maxF b = a ∨ a.maxF b = b := by
  unfold maxF; split <;> simp

theorem minF_finite {a b : Flt} (ha : a.IsFinite) (hb : b.IsFinite) : (a.minF b).IsFinite := by
  rcases minF_cases a b with h | h <;> rw [h] <;> assumption

theorem maxF_finite {a b : Flt} (ha : a.IsFinite) (hb : b.IsFinite) : (a.maxF b).IsFinite := by
  rcases maxF_cases a b with h | h <;> rw [h] <;> assumption

theorem minF_value {a b : Flt} (ha : a.IsFinite) (hb : b.IsFinite) : (a.minF b).value = min a.value b.value := by
  unfold minF
  by_cases h : a.lt b = true
  · rw [if_pos h, min_eq_left (le_of_lt ((lt_iff ha hb).mp h))]
  · rw [if_neg h, min_eq_right]
    exact not_lt.mp fun hlt => h ((lt_iff ha hb).mpr hlt)

theorem maxF_value {a b : Flt} (ha : a.IsFinite) (hb : b.IsFinite) : (a.maxF b).value = max a.value b.value := by
  unfold maxF
  by_cases h : b.lt a = true
  · rw [if_pos h, max_eq_left (le_of_lt ((lt_iff hb ha).mp h))]
  · rw [if_neg h, max_eq_right]
    exact not_lt.mp fun hlt => h ((lt_iff hb ha).mpr hlt)

theorem neg_value (a : Flt) : a.neg.value = - a.value := by
  cases a with
  | nan => simp [neg, value]
  | inf s => simp [neg, value]
  | fin s m =>
    rw [neg, value_fin, value_fin]
    cases s <;> simp [signed, neg_div]

theorem neg_finite {a : Flt} (ha : a.IsFinite) : a.neg.IsFinite := by
  cases a <;> simp_all [IsFinite, neg]

theorem neg_isFloat {a : Flt} (ha : a.IsFloat) : a.neg.IsFloat := by
  cases a <;> simp_all [IsFloat, neg]

/-- The magnitude of `FLT_MAX` bounds every `float`. -/
theorem rep32_le {m : Nat} (h : Rep32 m) : m ≤ (2 ^ 24 - 1) * 2 ^ 253 := by
  by_cases h0 : m = 0
  · omega
  obtain ⟨h1, h2⟩ := h
  by_cases hl : m.log2 < 276
  · have : m < 2 ^ 276 := (Nat.log2_lt h0).mp hl
    have e : (2 : Nat) ^ 276 = 2 ^ 23 * 2 ^ 253 := by rw [← pow_add]
    have : 2 ^ 23 * 2 ^ 253 ≤ (2 ^ 24 - 1) * 2 ^ 253 := Nat.mul_le_mul_right _ (by norm_num)
    omega
  · have hl2 : m.log2 < 277 := (Nat.log2_lt h0).mpr h2
    have : m.log2 + 1 - 24 = 253 := by omega
    rw [this] at h1
    obtain ⟨c, rfl⟩ := h1
    have e : (2 : Nat) ^ 277 = 2 ^ 253 * 2 ^ 24 := by rw [← pow_add]
    rw [e] at h2
    have := Nat.lt_of_mul_lt_mul_left h2
    rw [Nat.mul_comm]
    exact Nat.mul_le_mul_right _ (by omega)

theorem fltMax_finite : fltMax.IsFinite := trivial

theorem abs_le_fltMax {x : Flt} (hx : x.IsFloat) : |x.value| ≤ fltMax.value := by
  cases x with
  | nan => show |(0 : ℚ)| ≤ _; rw [abs_zero, fltMax, value_fin]; exact div_nonneg (by simp [signed]) (le_of_lt U_pos)
  | inf s => show |(0 : ℚ)| ≤ _; rw [abs_zero, fltMax, value_fin]; exact div_nonneg (by simp [signed]) (le_of_lt U_pos)
  | fin s m =>
    have := rep32_le hx
    unfold fltMax
    rw [value_fin, value_fin, abs_div, abs_of_pos U_pos]
    apply div_le_div_of_nonneg_right _ (le_of_lt U_pos)
    generalize (2 ^ 24 - 1) * 2 ^ 253 = M at this ⊢
    have h1 : |((signed s m : Int) : ℚ)| = (m : ℚ) := by cases s <;> simp [signed]
    rw [h1]
    simpa [signed] using this

theorem le_fltMax {x : Flt} (hx : x.IsFloat) : x.value ≤ fltMax.value := (abs_le.mp (abs_le_fltMax hx)).2
theorem neg_fltMax_le {x : Flt} (hx : x.IsFloat) : fltMax.neg.value ≤ x.value := by
  rw [neg_value]; exact (abs_le.mp (abs_le_fltMax hx)).1

/-! ## Whole numbers -/

/-- `x` is the integer `n` (a zero may have either sign). -/
def Is (x : Flt) (n : Int) : Prop :=
  ∃ s, x = .fin s (n.natAbs * 2 ^ 149) ∧ (n < 0 → s = true) ∧ (0 < n → s = false)

theorem Is.finite {x : Flt} {n : Int} (h : x.Is n) : x.IsFinite := by
  obtain ⟨s, rfl, _⟩ := h; trivial

theorem Is.signed {n : Int} {s : Bool} (h1 : n < 0 → s = true) (h2 : 0 < n → s = false) :
    Flt.signed s (n.natAbs * 2 ^ 149) = n * 2 ^ 149 := by
  unfold Flt.signed
  rw [show (2 ^ 149 : Int) = ((2 ^ 149 : Nat) : Int) from (Nat.cast_pow 2 149).symm]
  generalize (2 ^ 149 : Nat) = U
  rcases Int.lt_trichotomy n 0 with h | h | h
  · rw [h1 h, if_pos rfl]; push_cast; rw [abs_of_neg h]; simp
  · subst h; simp
  · rw [h2 h]; push_cast; rw [abs_of_pos h]

theorem Is.value {x : Flt} {n : Int} (h : x.Is n) : x.value = n := by
  obtain ⟨s, rfl, h1, h2⟩ := h
  rw [value_fin, Is.signed h1 h2]
  rw [Int.cast_mul, show ((2 ^ 149 : Int) : ℚ) = 2 ^ 149 from Int.cast_pow 2 149, mul_div_assoc, div_self (ne_of_gt U_pos), mul_one]

theorem is_of_value {x : Flt} {n : Int} (hf : x.IsFinite) (h : x.value = n) : x.Is n := by
  obtain ⟨s, m, rfl⟩ := finite_iff.mp hf
  rw [value_fin, div_eq_iff (ne_of_gt U_pos)] at h
  have h' : signed s m = n * ((2 ^ 149 : Nat) : Int) := by
    have e : ((n * ((2 ^ 149 : Nat) : Int) : Int) : ℚ) = n * 2 ^ 149 := by
      rw [Int.cast_mul, Int.cast_natCast, Nat.cast_pow]; rfl
    rw [← e] at h
    exact_mod_cast h
  have hU : 0 < (2 ^ 149 : Nat) := Nat.two_pow_pos _
  unfold Is
  generalize (2 ^ 149 : Nat) = U at *
  have hm : m = n.natAbs * U := by
    have : (signed s m).natAbs = (n * (U : Int)).natAbs := by rw [h']
    rw [Int.natAbs_mul, Int.natAbs_natCast] at this
    rw [← this]
    unfold signed; split <;> omega
  have hUi : (0 : Int) < U := by exact_mod_cast hU
  refine ⟨s, by rw [hm], ?_, ?_⟩
  · intro hn
    by_contra hs
    have : signed s m = m := by unfold signed; rw [if_neg hs]
    have h2 := mul_neg_of_neg_of_pos hn hUi
    omega
  · intro hn
    by_contra hs
    have : signed s m = -m := by unfold signed; rw [if_pos (by simpa using hs)]
    have h2 := mul_pos hn hUi
    omega

theorem Is.isFloat {x : Flt} {n : Int} (h : x.Is n) (hr : Rep 24 n.natAbs) (hb : n.natAbs < 2 ^ 128) : x.IsFloat := by
  obtain ⟨s, rfl, _⟩ := h
  refine ⟨Rep.scale (p := 24) hr (Nat.le_refl _) 149, ?_⟩
  rw [show (2 : Nat) ^ 277 = 2 ^ 128 * 2 ^ 149 by rw [← pow_add]]
  exact Nat.mul_lt_mul_of_pos_right hb (Nat.two_pow_pos _)

theorem Is.toInt {x : Flt} {n : Int} (h : x.Is n) (hn : InInt32 n) : x.toInt = .ok n := by
  obtain ⟨s, rfl, h1, h2⟩ := h
  unfold Flt.toInt
  simp only [Nat.mul_div_cancel _ (Nat.two_pow_pos 149)]
  have : (if s = true then -(n.natAbs : Int) else (n.natAbs : Int)) = n := by
    rcases Int.lt_trichotomy n 0 with h | h | h
    · rw [h1 h, if_pos rfl]; omega
    · subst h; simp
    · rw [h2 h]; simp; omega
  rw [this, if_pos hn]

theorem mkFloat_exact {neg : Bool} {m d : Nat} (hd : 0 < d) (h : Rep32 m) : mkFloat neg (m * d) d = .fin neg m := by
  unfold mkFloat
  simp only [fround_exact hd (show Rep 24 m from h.1)]
  rw [if_neg]
  have := h.2; omega

theorem Rep32.int {n : Nat} (hr : Rep 24 n) (hb : n < 2 ^ 128) : Rep32 (n * 2 ^ 149) := by
  refine ⟨Rep.scale (p := 24) hr (Nat.le_refl _) 149, ?_⟩
  rw [show (2 : Nat) ^ 277 = 2 ^ 128 * 2 ^ 149 by rw [← pow_add]]
  exact Nat.mul_lt_mul_of_pos_right hb (Nat.two_pow_pos _)

theorem ofInt_is {n : Int} (hr : Rep 24 n.natAbs) (hb : n.natAbs < 2 ^ 128) : (Flt.ofInt n).Is n := by
  have := mkFloat_exact (neg := decide (n < 0)) (d := 1) (by omega) (Rep32.int hr hb)
  rw [Nat.mul_one] at this
  refine ⟨decide (n < 0), this, by simp, by intro h; simp; omega⟩

theorem Is.neg {x : Flt} {n : Int} (h : x.Is n) : x.neg.Is (-n) := by
  obtain ⟨s, rfl, h1, h2⟩ := h
  refine ⟨!s, by rw [Flt.neg, Int.natAbs_neg], ?_, ?_⟩
  · intro h; rw [h2 (by omega)]; rfl
  · intro h; rw [h1 (by omega)]; rfl

theorem Is.addF {x y : Flt} {m n : Int} (hx : x.Is m) (hy : y.Is n) (hr : Rep 24 (m + n).natAbs)
    (hb : (m + n).natAbs < 2 ^ 128) : (x.addF y).Is (m + n) := by
  obtain ⟨s, rfl, h1, h2⟩ := hx
  obtain ⟨t, rfl, h3, h4⟩ := hy
  unfold Flt.addF addWith
  simp only [Is.signed h1 h2, Is.signed h3 h4]
  rw [← add_mul]
  have key := fun neg => mkFloat_exact (neg := neg) (d := 1) (by omega) (Rep32.int hr hb)
  have hU : (0 : Int) < 2 ^ 149 := by positivity
  by_cases h0 : m + n = 0
  · rw [h0]
    simp only [zero_mul, if_true]
    exact ⟨s && t, by simp, by simp, by simp⟩
  · have hne : (m + n) * 2 ^ 149 ≠ 0 := mul_ne_zero h0 (ne_of_gt hU)
    rw [if_neg hne]
    have ha : ((m + n) * 2 ^ 149).natAbs = (m + n).natAbs * 2 ^ 149 := by
      rw [Int.natAbs_mul]; congr 1
    rw [ha]
    have k := key (decide ((m + n) * 2 ^ 149 < 0))
    rw [Nat.mul_one] at k
    rw [k]
    refine ⟨_, rfl, ?_, ?_⟩
    · intro h; exact decide_eq_true (mul_neg_of_neg_of_pos h hU)
    · intro h; exact decide_eq_false (not_lt.mpr (le_of_lt (mul_pos h hU)))

theorem Is.subF {x y : Flt} {m n : Int} (hx : x.Is m) (hy : y.Is n) (hr : Rep 24 (m - n).natAbs)
    (hb : (m - n).natAbs < 2 ^ 128) : (x.subF y).Is (m - n) := by
  unfold Flt.subF
  rw [sub_eq_add_neg] at *
  exact hx.addF hy.neg hr hb

/-! ## Rounding to the nearest -/

theorem abs_units (s : Bool) (a : Nat) (n d : Nat) (hd : 0 < d) :
    |((signed s a : ℚ)) / 2 ^ 149 - (if s then -1 else 1) * ((n : ℚ) / (d * 2 ^ 149))| =
      ((((a * d : Nat) : Int) - n).natAbs : ℚ) / (d * 2 ^ 149) := by
  have hdq : (0 : ℚ) < d := by exact_mod_cast hd
  have hU := U_pos
  generalize (2 : ℚ) ^ 149 = U at *
  have e : ((signed s a : ℚ)) / U - (if s then -1 else 1) * ((n : ℚ) / (d * U)) =
      (if s then -1 else 1) * (((a : ℚ) * d - n) / (d * U)) := by
    have : (signed s a : ℚ) = (if s then -1 else 1) * (a : ℚ) := by cases s <;> simp [signed]
    rw [this]
    field_simp
  rw [e, abs_mul, abs_div, abs_of_pos (mul_pos hdq hU)]
  have : |(if s = true then (-1 : ℚ) else 1)| = 1 := by cases s <;> simp
  rw [this, one_mul]
  congr 1
  rw [Nat.cast_natAbs]
  push_cast
  rfl

/-- The rounding of `±n/d` units is as near as possible. -/
theorem mkFloat_nearest {neg : Bool} {n d : Nat} (hd : 0 < d) (hb : n ≤ (2 ^ 24 - 1) * 2 ^ 253 * d) :
    Spec.Nearest ((if neg then -1 else 1) * ((n : ℚ) / (d * 2 ^ 149))) (mkFloat neg n d) := by
  have hmaxrep : Rep 24 ((2 ^ 24 - 1) * 2 ^ 253) := (rep_of_lt (by norm_num)).scale (Nat.le_refl _) 253
  have hle := fround_le_rep n d _ (by omega : 0 < 24) hd hmaxrep hb
  have hlt : fround 24 n d < 2 ^ 277 := by
    have : (2 ^ 24 - 1) * 2 ^ 253 < 2 ^ 277 := by
      rw [show (2 : Nat) ^ 277 = 2 ^ 24 * 2 ^ 253 by rw [← pow_add]]
      exact Nat.mul_lt_mul_of_pos_right (by norm_num) (Nat.two_pow_pos _)
    omega
  have hrep := fround_rep 24 n d (by omega) hd
  have heq : mkFloat neg n d = .fin neg (fround 24 n d) := by
    unfold mkFloat; simp only; rw [if_neg (by omega)]
  rw [heq]
  refine ⟨⟨hrep, hlt⟩, trivial, ?_⟩
  intro z hz hzf
  obtain ⟨s, k, rfl⟩ := finite_iff.mp hzf
  have hzrep : Rep 24 k := hz.1
  rw [value_fin, value_fin, abs_units neg _ n d hd]
  have hdq : (0 : ℚ) < d * 2 ^ 149 := mul_pos (by exact_mod_cast hd) U_pos
  by_cases hs : s = neg
  · subst hs
    rw [abs_units s _ n d hd]
    apply div_le_div_of_nonneg_right _ (le_of_lt hdq)
    exact_mod_cast fround_nearest n d k (by omega) hd hzrep
  · have h0 := fround_nearest n d 0 (by omega : 0 < 24) hd (by simp [Rep])
    rw [Nat.zero_mul] at h0
    have h1 : ((((fround 24 n d * d : Nat) : Int) - n).natAbs : ℚ) ≤ n := by
      have : (((fround 24 n d * d : Nat) : Int) - n).natAbs ≤ n := by omega
      exact_mod_cast this
    refine le_trans (div_le_div_of_nonneg_right h1 (le_of_lt hdq)) ?_
    have hk : (0 : ℚ) ≤ (k : ℚ) / 2 ^ 149 := div_nonneg (by positivity) (le_of_lt U_pos)
    have hn : (0 : ℚ) ≤ (n : ℚ) / (d * 2 ^ 149) := div_nonneg (by positivity) (le_of_lt hdq)
    generalize (n : ℚ) / (d * 2 ^ 149) = q at *
    cases s <;> cases neg <;> simp [signed] at hs ⊢
    · rw [abs_of_nonneg (by linarith)]; linarith
    · rw [neg_div, abs_of_nonpos (by linarith)]; linarith

theorem addF_nearest {a b : Flt} (ha : a.IsFinite) (hb : b.IsFinite) (h : |a.value + b.value| ≤ fltMax.value) :
    Spec.Nearest (a.value + b.value) (a.addF b) := by
  obtain ⟨s, m, rfl⟩ := finite_iff.mp ha
  obtain ⟨t, n, rfl⟩ := finite_iff.mp hb
  rw [value_fin, value_fin, ← add_div] at *
  unfold Flt.addF addWith
  simp only
  rw [← Int.cast_add] at *
  generalize signed s m + signed t n = v at *
  by_cases h0 : v = 0
  · subst h0
    rw [if_pos rfl]
    refine ⟨⟨by simp, by positivity⟩, trivial, fun z _ _ => ?_⟩
    rw [value_fin]
    have : (signed (s && t) 0 : Int) = 0 := by cases s <;> cases t <;> rfl
    rw [this]
    simp
  · rw [if_neg h0]
    have key := mkFloat_nearest (neg := decide (v < 0)) (n := v.natAbs) (d := 1) (by omega) (by
      rw [abs_div, abs_of_pos U_pos] at h
      unfold fltMax at h
      rw [value_fin, div_le_div_iff_of_pos_right U_pos] at h
      rw [Nat.mul_one]
      generalize (2 ^ 24 - 1) * 2 ^ 253 = M at h ⊢
      have h' : |v| ≤ (M : Int) := by
        have : (signed false M : Int) = M := rfl
        rw [this] at h
        exact_mod_cast h
      rw [Int.abs_eq_natAbs] at h'
      omega)
    have e : (if decide (v < 0) = true then (-1 : ℚ) else 1) * ((v.natAbs : ℚ) / ((1 : Nat) * 2 ^ 149)) = (v : ℚ) / 2 ^ 149 := by
      rw [Nat.cast_one, one_mul, ← mul_div_assoc]
      congr 1
      rw [Nat.cast_natAbs]
      by_cases hv : v < 0
      · simp only [hv, decide_true, if_true]; rw [abs_of_neg hv]; push_cast; ring
      · simp only [hv, decide_false, Bool.false_eq_true, if_false]
        rw [abs_of_nonneg (by omega), one_mul]
    rw [e] at key
    exact key

theorem subF_nearest {a b : Flt} (ha : a.IsFinite) (hb : b.IsFinite) (h : |a.value - b.value| ≤ fltMax.value) :
    Spec.Nearest (a.value - b.value) (a.subF b) := by
  have := addF_nearest ha (neg_finite hb) (by rw [neg_value, ← sub_eq_add_neg]; exact h)
  rw [neg_value, ← sub_eq_add_neg] at this
  exact this

theorem Nearest.exact {q : ℚ} {y z : Flt} (h : Spec.Nearest q y) (hz : z.IsFloat) (hf : z.IsFinite) (hq : z.value = q) :
    y.value = q := by
  have := h.2.2 z hz hf
  rw [hq, sub_self, abs_zero, abs_nonpos_iff] at this
  linarith

theorem Nearest.le {q : ℚ} {y z : Flt} (h : Spec.Nearest q y) (hz : z.IsFloat) (hf : z.IsFinite) (hq : q ≤ z.value) :
    y.value ≤ z.value := by
  have := h.2.2 z hz hf
  rw [abs_of_nonneg (show 0 ≤ z.value - q by linarith)] at this
  have := le_abs_self (y.value - q)
  linarith

theorem Nearest.ge {q : ℚ} {y z : Flt} (h : Spec.Nearest q y) (hz : z.IsFloat) (hf : z.IsFinite) (hq : z.value ≤ q) :
    z.value ≤ y.value := by
  have := h.2.2 z hz hf
  rw [abs_of_nonpos (show z.value - q ≤ 0 by linarith)] at this
  have := neg_abs_le (y.value - q)
  linarith

theorem one_is : one.Is 1 := ⟨false, by simp [one], by omega, by simp⟩
theorem zero_is : zero.Is 0 := ⟨false, by simp [zero], by omega, by simp⟩

theorem rep24_small {n : Int} (h : |n| ≤ 2 ^ 24) : Rep 24 n.natAbs ∧ n.natAbs < 2 ^ 128 := by
  have h24 : (2 : Nat) ^ 24 = 16777216 := by norm_num
  have h24' : (2 : Int) ^ 24 = 16777216 := by norm_num
  have h128 : (2 : Nat) ^ 24 < 2 ^ 128 := Nat.pow_lt_pow_right (by omega) (by omega)
  have h1 := abs_le.mp h
  have hn : n.natAbs ≤ 2 ^ 24 := by omega
  refine ⟨?_, by omega⟩
  by_cases he : n.natAbs = 2 ^ 24
  · rw [he]; exact rep_two_pow 24 24 (by omega)
  · exact rep_of_lt (by omega)

theorem ofInt_small {n : Int} (h : |n| ≤ 2 ^ 24) : (Flt.ofInt n).Is n :=
  ofInt_is (rep24_small h).1 (rep24_small h).2

theorem Is.add {x y : Flt} {m n : Int} (hx : x.Is m) (hy : y.Is n) (h : |m + n| ≤ 2 ^ 24) : (x.addF y).Is (m + n) :=
  hx.addF hy (rep24_small h).1 (rep24_small h).2

theorem Is.sub {x y : Flt} {m n : Int} (hx : x.Is m) (hy : y.Is n) (h : |m - n| ≤ 2 ^ 24) : (x.subF y).Is (m - n) :=
  hx.subF hy (rep24_small h).1 (rep24_small h).2

/-- Truncation of a number that is not negative. -/
theorem toInt_floor {x : Flt} (hf : x.IsFinite) (h0 : 0 ≤ x.value) (hb : x.value < 2 ^ 31) :
    ∃ n : Nat, x.toInt = .ok (n : Int) ∧ (n : ℚ) ≤ x.value ∧ x.value < n + 1 := by
  obtain ⟨s, m, rfl⟩ := finite_iff.mp hf
  rw [value_fin] at *
  have hU := U_pos
  have hs : signed s m = m := by
    have h1 : 0 ≤ (signed s m : ℚ) := by
      by_contra hc
      exact absurd h0 (not_le.mpr (div_neg_of_neg_of_pos (not_le.mp hc) hU))
    have h2 : 0 ≤ signed s m := by exact_mod_cast h1
    unfold signed at *
    split at h2 <;> simp_all <;> omega
  have hv : (if s = true then -((m / 2 ^ 149 : Nat) : Int) else ((m / 2 ^ 149 : Nat) : Int)) = ((m / 2 ^ 149 : Nat) : Int) := by
    cases s with
    | false => rfl
    | true =>
      have : (m : Int) = 0 := by simp only [signed, if_true] at hs; omega
      have : m = 0 := by omega
      simp [this]
  have hm : ((signed s m : Int) : ℚ) = (m : ℚ) := by rw [hs]; exact Int.cast_natCast m
  rw [hm] at h0 hb ⊢
  unfold Flt.toInt
  simp only [hv]
  have hcast : ((2 ^ 149 : Nat) : ℚ) = 2 ^ 149 := by rw [Nat.cast_pow]; rfl
  have hlo : ((m / 2 ^ 149 : Nat) : ℚ) ≤ (m : ℚ) / 2 ^ 149 := by
    rw [le_div_iff₀ hU, ← hcast]
    exact_mod_cast Nat.div_mul_le_self m (2 ^ 149)
  have hhi : (m : ℚ) / 2 ^ 149 < ((m / 2 ^ 149 : Nat) : ℚ) + 1 := by
    rw [div_lt_iff₀ hU, ← hcast]
    have := Nat.lt_div_mul_add (a := m) (Nat.two_pow_pos 149)
    have h2 : m < (m / 2 ^ 149 + 1) * 2 ^ 149 := by rw [Nat.add_mul, Nat.one_mul]; exact this
    exact_mod_cast h2
  generalize m / 2 ^ 149 = c at *
  have hc : c < 2 ^ 31 := by
    have : (c : ℚ) < 2 ^ 31 := lt_of_le_of_lt hlo hb
    exact_mod_cast this
  refine ⟨c, ?_, hlo, hhi⟩
  rw [if_pos]
  unfold InInt32
  omega

end Flt

end Trax
