import Verif.Lemmas.RectRaster
import Verif.Lemmas.PointPolygon
import Mathlib.Data.Rat.Floor

/-!
# Lemmas about rasterisation: where the sides of a polygon with whole corners meet a row

The position is computed in double precision. The error is far below the distance of a position that is not
a whole number from the next whole number.
-/

namespace Trax
open Region Spec

/-- The error of rounding to `p` bits. -/
theorem fround_err (p n d : Nat) (hp : 0 < p) (hd : 0 < d) :
    |((fround p n d : Nat) : ℚ) - (n : ℚ) / d| ≤ ((n : ℚ) / d) / 2 ^ p + 1 / 2 := by
  unfold fround
  simp only
  have hdq : (0 : ℚ) < d := by exact_mod_cast hd
  generalize hk : (n / d).log2 + 1 - p = k
  have hK : (0 : ℚ) < 2 ^ k := by positivity
  have hpos : 0 < d * 2 ^ k := Nat.mul_pos hd (Nat.two_pow_pos k)
  obtain ⟨h1, h2, _, _⟩ := rhe_spec n (d * 2 ^ k) hpos
  generalize rhe n (d * 2 ^ k) = q at *
  have a1 : (2 : ℚ) * (q * (d * 2 ^ k)) ≤ 2 * n + d * 2 ^ k := by exact_mod_cast h1
  have a2 : (2 : ℚ) * n ≤ 2 * (q * (d * 2 ^ k)) + d * 2 ^ k := by exact_mod_cast h2
  have hnd : (n : ℚ) = (n : ℚ) / d * d := by field_simp
  have hx0 : (0 : ℚ) ≤ (n : ℚ) / d := by positivity
  generalize hx : (n : ℚ) / d = x at *
  have herr : |((q * 2 ^ k : Nat) : ℚ) - x| ≤ 2 ^ k / 2 := by
    push_cast
    rw [hnd] at a1 a2
    have b1 : d * (2 * (q * 2 ^ k)) ≤ d * (2 * x + 2 ^ k) := by linarith
    have b2 : d * (2 * x) ≤ d * (2 * (q * 2 ^ k) + 2 ^ k) := by linarith
    have c1 := le_of_mul_le_mul_left b1 hdq
    have c2 := le_of_mul_le_mul_left b2 hdq
    rw [abs_le]
    constructor <;> linarith
  refine le_trans herr ?_
  rcases Nat.eq_zero_or_pos k with h0 | h0
  · subst h0
    have : (0 : ℚ) ≤ x / 2 ^ p := by positivity
    rw [pow_zero]
    linarith
  · have hlog : (n / d).log2 + 1 = k + p := by omega
    have hne : n / d ≠ 0 := by
      intro h
      rw [h] at hlog
      have : Nat.log2 0 = 0 := by simp [Nat.log2]
      omega
    have hle : 2 ^ (n / d).log2 ≤ n / d := Nat.log2_self_le hne
    have hle2 : 2 ^ (n / d).log2 * d ≤ n := le_trans (Nat.mul_le_mul_right _ hle) (Nat.div_mul_le_self n d)
    have hle3 : ((2 : ℚ) ^ (n / d).log2) * d ≤ x * d := by rw [← hnd]; exact_mod_cast hle2
    have hle4 := le_of_mul_le_mul_right hle3 hdq
    have e : (2 : ℚ) ^ k * 2 ^ p = 2 * 2 ^ (n / d).log2 := by
      rw [← pow_add, ← hlog, pow_succ]; ring
    have hP : (0 : ℚ) < 2 ^ p := by positivity
    have : (2 : ℚ) ^ k / 2 ≤ x / 2 ^ p := by
      rw [le_div_iff₀ hP]
      linarith
    linarith

/-- Towards zero. -/
def towardZero (q : ℚ) : Int := if 0 ≤ q then ⌊q⌋ else ⌈q⌉

theorem towardZero_int (n : Int) : towardZero (n : ℚ) = n := by
  unfold towardZero
  split
  · exact Int.floor_intCast n
  · exact Int.ceil_intCast n

/-- The sign of a number. -/
def sgn (s : Bool) : ℚ := if s then -1 else 1

theorem signed_q (s : Bool) (m : Nat) : ((Flt.signed s m : Int) : ℚ) = sgn s * m := by
  cases s <;> simp [Flt.signed, sgn]

theorem sgn_abs (s : Bool) (x : ℚ) : |sgn s * x| = |x| := by
  cases s <;> simp [sgn]

theorem sgn_bne (s t : Bool) : sgn (s != t) = sgn s * sgn t := by
  cases s <;> cases t <;> simp [sgn]

theorem sgn_of {n : Int} {s : Bool} (h1 : n < 0 → s = true) (h2 : 0 < n → s = false) : (n : ℚ) = sgn s * n.natAbs := by
  rcases Int.lt_trichotomy n 0 with h | h | h
  · rw [h1 h]
    have e : n = -(n.natAbs : Int) := by omega
    have e' : (n : ℚ) = -(n.natAbs : ℚ) := by exact_mod_cast e
    rw [e']
    simp [sgn]
  · subst h; simp
  · rw [h2 h]
    have e : n = (n.natAbs : Int) := by omega
    have e' : (n : ℚ) = (n.natAbs : ℚ) := by
      have := congrArg (Int.cast : Int → ℚ) e
      rwa [Int.cast_natCast] at this
    rw [e']
    simp [sgn]

/-- The errors of the three operations together. -/
theorem expr_err (V : ℚ) (hV : 2 ^ 60 ≤ V) (a k D r m1 m2 m3 S : ℚ) (σ τ : ℚ) (hσ : |σ| = 1)
    (hD : 0 ≤ D) (hDr : D ≤ r) (hr : 0 < r) (hk : 0 ≤ k) (hk2 : k ≤ 2 ^ 24) (ha2 : |a| ≤ 2 ^ 24)
    (hm1 : 0 ≤ m1) (hm1V : m1 ≤ V)
    (e1 : |m1 - D * V / r| ≤ (D * V / r) / 2 ^ 53 + 1 / 2)
    (e2 : |m2 - m1 * k| ≤ (m1 * k) / 2 ^ 53 + 1 / 2)
    (hS : τ * S = a * V + σ * m2) (hτ : |τ| = 1) (hS0 : 0 ≤ S)
    (e3 : |m3 - S| ≤ S / 2 ^ 53 + 1 / 2) :
    |τ * m3 / V - (a + σ * (D * k / r))| ≤ 1 / 2 ^ 25 := by
  have hV0 : 0 < V := lt_of_lt_of_le (by norm_num) hV
  have hq1 : D * V / r ≤ V := by
    rw [div_le_iff₀ hr, mul_comm]
    exact mul_le_mul_of_nonneg_left hDr hV0.le
  have hq0 : 0 ≤ D * V / r := by positivity
  have f1 : |m1 - D * V / r| ≤ V / 2 ^ 53 + 1 / 2 := le_trans e1 (by gcongr)
  have f1' : |m1 * k - D * V / r * k| ≤ k * (V / 2 ^ 53 + 1 / 2) := by
    rw [← sub_mul, abs_mul, abs_of_nonneg hk, mul_comm]
    exact mul_le_mul_of_nonneg_left f1 hk
  have f2 : |m2 - m1 * k| ≤ V * k / 2 ^ 53 + 1 / 2 := le_trans e2 (by gcongr)
  have f12 : |m2 - D * V / r * k| ≤ k * (V / 2 ^ 53 + 1 / 2) + (V * k / 2 ^ 53 + 1 / 2) := by
    have : m2 - D * V / r * k = (m2 - m1 * k) + (m1 * k - D * V / r * k) := by ring
    rw [this]
    refine le_trans (abs_add_le _ _) ?_
    linarith
  have hbig : k * (V / 2 ^ 53 + 1 / 2) + (V * k / 2 ^ 53 + 1 / 2) ≤ V / 2 ^ 27 := by
    have h1 : k * (V / 2 ^ 53) ≤ 2 ^ 24 * (V / 2 ^ 53) := by gcongr
    have h2 : V * k / 2 ^ 53 ≤ V * 2 ^ 24 / 2 ^ 53 := by gcongr
    have h3 : k * (1 / 2) + 1 / 2 ≤ V / 2 ^ 36 := by
      rw [le_div_iff₀ (by norm_num)]
      nlinarith
    have h4 : (2 : ℚ) ^ 24 * (V / 2 ^ 53) + V * 2 ^ 24 / 2 ^ 53 + V / 2 ^ 36 ≤ V / 2 ^ 27 := by
      have : (2 : ℚ) ^ 24 * (V / 2 ^ 53) + V * 2 ^ 24 / 2 ^ 53 + V / 2 ^ 36 = V * (2 ^ 24 / 2 ^ 53 + 2 ^ 24 / 2 ^ 53 + 1 / 2 ^ 36) := by ring
      rw [this, div_eq_mul_one_div V]
      exact mul_le_mul_of_nonneg_left (by norm_num) hV0.le
    linarith
  -- the sum
  have hm2 : m2 ≤ 2 ^ 25 * V := by
    have h1 : m1 * k ≤ V * 2 ^ 24 := by gcongr
    have h2 := (abs_le.mp f2).2
    have h3 : V * k / 2 ^ 53 ≤ V * 2 ^ 24 / 2 ^ 53 := by gcongr
    have h4 : V * 2 ^ 24 / 2 ^ 53 ≤ V := by
      rw [div_le_iff₀ (by norm_num)]
      exact mul_le_mul_of_nonneg_left (by norm_num) hV0.le
    have h5 : (1 : ℚ) / 2 ≤ V := le_trans (by norm_num) hV
    nlinarith
  have hm2' : -V ≤ m2 := by
    have h2 := (abs_le.mp f2).1
    have h0 : 0 ≤ m1 * k := by positivity
    have h3 : V * k / 2 ^ 53 ≤ V * 2 ^ 24 / 2 ^ 53 := by gcongr
    have h4 : V * 2 ^ 24 / 2 ^ 53 ≤ V / 2 := by
      rw [div_le_iff₀ (by norm_num)]
      have : V / 2 * 2 ^ 53 = V * 2 ^ 52 := by ring
      rw [this]
      exact mul_le_mul_of_nonneg_left (by norm_num) hV0.le
    have h5 : (1 : ℚ) / 2 ≤ V / 2 := by linarith [le_trans (by norm_num : (1 : ℚ) ≤ 2 ^ 60) hV]
    linarith
  have hSb : S ≤ 2 ^ 26 * V := by
    have : S = |τ * S| := by rw [abs_mul, hτ, one_mul, abs_of_nonneg hS0]
    rw [this, hS]
    refine le_trans (abs_add_le _ _) ?_
    rw [abs_mul, abs_mul, hσ, one_mul, abs_of_pos hV0]
    have h1 : |a| * V ≤ 2 ^ 24 * V := by gcongr
    have h2 : |m2| ≤ 2 ^ 25 * V := abs_le.mpr ⟨by linarith [le_trans (by norm_num : (1 : ℚ) ≤ 2 ^ 60) hV], hm2⟩
    linarith
  have f3 : |m3 - S| ≤ V / 2 ^ 26 := by
    refine le_trans e3 ?_
    have h1 : S / 2 ^ 53 ≤ 2 ^ 26 * V / 2 ^ 53 := by gcongr
    have h2 : (1 : ℚ) / 2 ≤ V / 2 ^ 36 := by
      rw [le_div_iff₀ (by norm_num)]
      exact le_trans (by norm_num) hV
    have h4 : 2 ^ 26 * V / 2 ^ 53 + V / 2 ^ 36 ≤ V / 2 ^ 26 := by
      have : 2 ^ 26 * V / 2 ^ 53 + V / 2 ^ 36 = V * (2 ^ 26 / 2 ^ 53 + 1 / 2 ^ 36) := by ring
      rw [this, div_eq_mul_one_div V (2 ^ 26)]
      exact mul_le_mul_of_nonneg_left (by norm_num) hV0.le
    linarith
  have key : τ * m3 / V - (a + σ * (D * k / r)) = (τ * (m3 - S) + σ * (m2 - D * V / r * k)) / V := by
    have : τ * m3 = τ * (m3 - S) + (a * V + σ * m2) := by rw [← hS]; ring
    rw [this]
    field_simp
    ring
  rw [key, abs_div, abs_of_pos hV0, div_le_iff₀ hV0]
  refine le_trans (abs_add_le _ _) ?_
  rw [abs_mul, abs_mul, hτ, hσ, one_mul, one_mul]
  have h5 := le_trans f12 hbig
  have h6 : V / 2 ^ 26 + V / 2 ^ 27 ≤ 1 / 2 ^ 25 * V := by
    have : V / 2 ^ 26 + V / 2 ^ 27 = (1 / 2 ^ 26 + 1 / 2 ^ 27) * V := by ring
    rw [this]
    exact mul_le_mul_of_nonneg_right (by norm_num) hV0.le
  linarith

theorem Flt.Is.widen {x : Flt} {n : Int} (h : x.Is n) :
    ∃ s, x.widen = .fin s (n.natAbs * 2 ^ 1074) ∧ (n : ℚ) = sgn s * n.natAbs := by
  obtain ⟨s, rfl, h1, h2⟩ := h
  refine ⟨s, ?_, sgn_of h1 h2⟩
  unfold Flt.widen
  simp only
  rw [Nat.mul_assoc, ← pow_add]

theorem rep53_int (n : Nat) (h : n < 2 ^ 53) : Rep 53 (n * 2 ^ 1074) := (rep_of_lt h).scale (Nat.le_refl _) 1074

theorem int_lt_max (n : Nat) (h : n < 2 ^ 53) : n * 2 ^ 1074 < 2 ^ 2098 := by
  rw [show (2 : Nat) ^ 2098 = 2 ^ 1024 * 2 ^ 1074 by rw [← pow_add]]
  exact Nat.mul_lt_mul_of_pos_right (lt_trans h (Nat.pow_lt_pow_right (by omega) (by omega))) (Nat.two_pow_pos _)

/-- A sum in double precision. -/
theorem addD_fin {s t : Bool} {m n z : Nat} (hz : Rep 53 z) (hz2 : z < 2 ^ 2098) (h : (Flt.signed s m + Flt.signed t n).natAbs ≤ z) :
    ∃ u k, (Flt.fin s m).addD (.fin t n) = .fin u k ∧ k = fround 53 (Flt.signed s m + Flt.signed t n).natAbs 1 ∧
      ((Flt.signed s m + Flt.signed t n : Int) : ℚ) = sgn u * (Flt.signed s m + Flt.signed t n).natAbs := by
  unfold Flt.addD Flt.addWith
  simp only
  by_cases h0 : Flt.signed s m + Flt.signed t n = 0
  · rw [if_pos h0, h0]
    exact ⟨_, 0, rfl, by simp [Flt.fround_zero], by simp⟩
  · rw [if_neg h0]
    obtain ⟨h1, h2⟩ := Flt.mkDouble_le (neg := decide (Flt.signed s m + Flt.signed t n < 0)) (n := (Flt.signed s m + Flt.signed t n).natAbs)
      (d := 1) (by omega) hz hz2 (by rw [Nat.mul_one]; exact h)
    refine ⟨_, _, h1, rfl, ?_⟩
    generalize Flt.signed s m + Flt.signed t n = v at *
    exact sgn_of (fun h => decide_eq_true h) (fun h => decide_eq_false (by omega))

/-- The position of a side in a row, before it is made an integer. -/
theorem double_position {X Dd R K : Flt} {a D r k : Int} (hX : X.Is a) (hD : Dd.Is D) (hR : R.Is r) (hK : K.Is k) (hr : r ≠ 0)
    (hDr : D.natAbs ≤ r.natAbs) (ha2 : a.natAbs ≤ 2 ^ 24) (hk2 : k.natAbs ≤ 2 ^ 24) :
    ∃ s m, X.widen.addD ((Dd.widen.divD R.widen).mulD K.widen) = .fin s m ∧
      |sgn s * m / ((2 ^ 1074 : Nat) : ℚ) - (a + (D : ℚ) * k / r)| ≤ 1 / 2 ^ 25 := by
  obtain ⟨sa, ea, qa⟩ := hX.widen
  obtain ⟨sd, ed, qd⟩ := hD.widen
  obtain ⟨sr, er, qr⟩ := hR.widen
  obtain ⟨sk, ek, qk⟩ := hK.widen
  rw [ea, ed, er, ek]
  have hV : (0 : Nat) < 2 ^ 1074 := Nat.two_pow_pos _
  have hVbig : ((2 : ℚ) ^ 60) ≤ ((2 ^ 1074 : Nat) : ℚ) := by
    have : (2 : Nat) ^ 60 ≤ 2 ^ 1074 := Nat.pow_le_pow_right (by omega) (by omega)
    exact_mod_cast this
  have hr0 : 0 < r.natAbs := Int.natAbs_pos.mpr hr
  have rV : Rep 53 (2 ^ 1074) := by have := rep53_int 1 (by norm_num); rwa [Nat.one_mul] at this
  have bV : (2 : Nat) ^ 1074 < 2 ^ 2098 := by have := int_lt_max 1 (by norm_num); rwa [Nat.one_mul] at this
  have rK := rep53_int k.natAbs (by omega)
  have bK := int_lt_max k.natAbs (by omega)
  have rz := rep53_int (2 ^ 25) (by norm_num)
  have bz := int_lt_max (2 ^ 25) (by norm_num)
  have hdiv : (Flt.fin sd (D.natAbs * 2 ^ 1074)).divD (.fin sr (r.natAbs * 2 ^ 1074)) =
      mkDouble (sd != sr) (D.natAbs * 2 ^ 1074 * 2 ^ 1074) (r.natAbs * 2 ^ 1074) := by
    unfold Flt.divD Flt.divWith
    simp only
    rw [if_neg (Nat.mul_pos hr0 hV).ne']
  have hmul : ∀ q, (Flt.fin (sd != sr) q).mulD (.fin sk (k.natAbs * 2 ^ 1074)) = mkDouble ((sd != sr) != sk) (q * (k.natAbs * 2 ^ 1074)) (2 ^ 1074) :=
    fun q => rfl
  rw [hdiv]
  generalize hVV : (2 : Nat) ^ 1074 = V at *
  obtain ⟨h4, h5⟩ := Flt.mkDouble_le (neg := (sd != sr)) (n := D.natAbs * V * V) (d := r.natAbs * V) (Nat.mul_pos hr0 hV) rV bV (by
    have : D.natAbs * V ≤ r.natAbs * V := Nat.mul_le_mul_right _ hDr
    calc D.natAbs * V * V ≤ r.natAbs * V * V := Nat.mul_le_mul_right _ this
      _ = V * (r.natAbs * V) := Nat.mul_comm _ _)
  rw [h4, hmul]
  have g1 := fround_err 53 (D.natAbs * V * V) (r.natAbs * V) (by omega) (Nat.mul_pos hr0 hV)
  generalize fround 53 (D.natAbs * V * V) (r.natAbs * V) = m1 at *
  obtain ⟨h6, h7⟩ := Flt.mkDouble_le (neg := ((sd != sr) != sk)) (n := m1 * (k.natAbs * V)) (d := V) hV rK bK (by
    rw [Nat.mul_comm]; exact Nat.mul_le_mul_left _ h5)
  rw [h6]
  have g2 := fround_err 53 (m1 * (k.natAbs * V)) V (by omega) hV
  generalize fround 53 (m1 * (k.natAbs * V)) V = m2 at *
  obtain ⟨u, m3, h8, h9, h10⟩ := addD_fin (s := sa) (t := ((sd != sr) != sk)) (m := a.natAbs * V) (n := m2) rz bz
    (le_trans (Flt.signed_add_le _ _ _ _) (by
      have h1 : a.natAbs * V ≤ 2 ^ 24 * V := Nat.mul_le_mul_right _ ha2
      have h2 : k.natAbs * V ≤ 2 ^ 24 * V := Nat.mul_le_mul_right _ hk2
      have h3 : 2 ^ 25 * V = 2 ^ 24 * V + 2 ^ 24 * V := by ring
      omega))
  refine ⟨u, m3, h8, ?_⟩
  have g3 := fround_err 53 (Flt.signed sa (a.natAbs * V) + Flt.signed ((sd != sr) != sk) m2).natAbs 1 (by omega) (by omega)
  rw [← h9, Nat.cast_one, div_one] at g3
  rw [Int.cast_add, signed_q, signed_q, sgn_bne, sgn_bne] at h10
  have hVq : (0 : ℚ) < V := by exact_mod_cast hV
  have hrq : (0 : ℚ) < r.natAbs := by exact_mod_cast hr0
  have e1 : ((D.natAbs * V * V : Nat) : ℚ) / ((r.natAbs * V : Nat) : ℚ) = (D.natAbs : ℚ) * V / r.natAbs := by
    push_cast; field_simp
  have e2 : ((m1 * (k.natAbs * V) : Nat) : ℚ) / V = (m1 : ℚ) * k.natAbs := by
    push_cast; field_simp
  rw [e1] at g1
  rw [e2] at g2
  have habs : ∀ s, |sgn s| = 1 := by intro s; cases s <;> simp [sgn]
  have hfin := expr_err (V := V) hVbig (a := a) (k := k.natAbs) (D := D.natAbs) (r := r.natAbs) (m1 := m1) (m2 := m2) (m3 := m3)
    (S := ((Flt.signed sa (a.natAbs * V) + Flt.signed ((sd != sr) != sk) m2).natAbs : ℚ)) (sgn sd * sgn sr * sgn sk) (sgn u)
    (by rw [abs_mul, abs_mul, habs, habs, habs, mul_one, mul_one]) (Nat.cast_nonneg _) (Nat.cast_le.mpr hDr) hrq (Nat.cast_nonneg _)
    (le_trans (Nat.cast_le.mpr hk2) (by rw [Nat.cast_pow]; exact le_refl _))
    (by
      have : |(a : ℚ)| = (a.natAbs : ℚ) := by rw [Nat.cast_natAbs, Int.cast_abs]
      rw [this]; exact le_trans (Nat.cast_le.mpr ha2) (by rw [Nat.cast_pow]; exact le_refl _))
    (Nat.cast_nonneg _) (Nat.cast_le.mpr h5) g1 g2
    (by rw [← h10, Nat.cast_mul, ← mul_assoc, ← qa]) (habs u) (Nat.cast_nonneg _) g3
  have hfrac : (D : ℚ) * k / r = sgn sd * sgn sr * sgn sk * ((D.natAbs : ℚ) * k.natAbs / r.natAbs) := by
    have hinv : (sgn sr)⁻¹ = sgn sr := by cases sr <;> norm_num [sgn]
    rw [qd, qk, qr, mul_div_assoc, mul_div_mul_comm]
    rw [show sgn sk / sgn sr = sgn sk * sgn sr by rw [div_eq_mul_inv, hinv]]
    ring
  rw [hfrac]
  exact hfin

theorem doubleToInt_between {s : Bool} {m : Nat} {z : Int} (hz : z.natAbs ≤ 2 ^ 30) (h1 : (z : ℚ) < sgn s * m / ((2 ^ 1074 : Nat) : ℚ))
    (h2 : sgn s * m / ((2 ^ 1074 : Nat) : ℚ) < z + 1) : (Flt.fin s m).doubleToInt = .ok (if 0 ≤ z then z else z + 1) := by
  unfold Flt.doubleToInt
  simp only
  have hV : (0 : Nat) < 2 ^ 1074 := Nat.two_pow_pos _
  generalize (2 : Nat) ^ 1074 = V at *
  have hVq : (0 : ℚ) < V := by exact_mod_cast hV
  rw [lt_div_iff₀ hVq] at h1
  rw [div_lt_iff₀ hVq] at h2
  have h30 : (2 : Nat) ^ 30 = 1073741824 := by norm_num
  cases s with
  | false =>
    simp only [sgn, Bool.false_eq_true, if_false, one_mul] at h1 h2 ⊢
    have i1 : z * V < (m : Int) := by exact_mod_cast h1
    have i2 : (m : Int) < (z + 1) * V := by exact_mod_cast h2
    have hz0 : 0 ≤ z := by
      by_contra hc
      have : (z + 1) * (V : Int) ≤ 0 := Int.mul_nonpos_of_nonpos_of_nonneg (by omega) (by omega)
      omega
    have hd : m / V = z.toNat := by
      apply Nat.div_eq_of_lt_le
      · have : ((z.toNat * V : Nat) : Int) = z * V := by rw [Nat.cast_mul, Int.toNat_of_nonneg hz0]
        omega
      · have : (((z.toNat + 1) * V : Nat) : Int) = (z + 1) * V := by
          rw [Nat.cast_mul, Nat.cast_add, Int.toNat_of_nonneg hz0]; rfl
        omega
    rw [hd, Int.toNat_of_nonneg hz0, if_pos hz0, if_pos]
    unfold InInt32; omega
  | true =>
    simp only [sgn, if_true, neg_mul, one_mul] at h1 h2 ⊢
    have i1 : z * V < -(m : Int) := by exact_mod_cast h1
    have i2 : -(m : Int) < (z + 1) * V := by exact_mod_cast h2
    have hz0 : z < 0 := by
      by_contra hc
      have : 0 ≤ z * (V : Int) := Int.mul_nonneg (by omega) (by omega)
      omega
    have hd : m / V = (-z - 1).toNat := by
      have e1 : (((-z - 1).toNat : Nat) : Int) = -z - 1 := Int.toNat_of_nonneg (by omega)
      apply Nat.div_eq_of_lt_le
      · have : (((-z - 1).toNat * V : Nat) : Int) = -((z + 1) * V) := by rw [Nat.cast_mul, e1]; ring
        omega
      · have : ((((-z - 1).toNat + 1) * V : Nat) : Int) = -(z * V) := by
          rw [Nat.cast_mul, Nat.cast_add, e1]; push_cast; ring
        omega
    rw [hd, Int.toNat_of_nonneg (by omega), if_neg (show ¬ 0 ≤ z by omega), if_pos (by unfold InInt32; omega)]
    congr 1; ring

theorem towardZero_between {q : ℚ} {z : Int} (h1 : (z : ℚ) < q) (h2 : q < z + 1) : towardZero q = if 0 ≤ z then z else z + 1 := by
  unfold towardZero
  by_cases hz : 0 ≤ z
  · have : (0 : ℚ) ≤ z := by exact_mod_cast hz
    rw [if_pos (by linarith), if_pos hz, Int.floor_eq_iff]
    exact ⟨h1.le, h2⟩
  · have : (z : ℚ) + 1 ≤ 0 := by exact_mod_cast (show z + 1 ≤ 0 by omega)
    rw [if_neg (by linarith), if_neg hz, Int.ceil_eq_iff]
    push_cast
    exact ⟨by linarith, h2.le⟩

/-- The position of a side as an integer, if it is not a whole number. -/
theorem position_fraction {X Dd R K : Flt} {a D r k : Int} (hX : X.Is a) (hD : Dd.Is D) (hR : R.Is r) (hK : K.Is k) (hr : r ≠ 0)
    (hDr : D.natAbs ≤ r.natAbs) (ha2 : a.natAbs ≤ 2 ^ 23) (hk2 : k.natAbs ≤ 2 ^ 24) (hr2 : r.natAbs ≤ 2 ^ 24)
    (hfrac : ∀ n : Int, (a : ℚ) + (D : ℚ) * k / r ≠ n) :
    Flt.doubleToInt (X.widen.addD ((Dd.widen.divD R.widen).mulD K.widen)) = .ok (towardZero (a + (D : ℚ) * k / r)) := by
  obtain ⟨s, m, h1, h2⟩ := double_position hX hD hR hK hr hDr (by omega) hk2
  rw [h1]
  have hrq : (r : ℚ) ≠ 0 := by exact_mod_cast hr
  have hq : ((a : ℚ) + (D : ℚ) * k / r) * r = ((a * r + D * k : Int) : ℚ) := by push_cast; field_simp
  generalize hqd : (a : ℚ) + (D : ℚ) * k / r = q at *
  have hz1 := Int.floor_le q
  have hz2 := Int.lt_floor_add_one q
  generalize hz : ⌊q⌋ = z at *
  have gap : ∀ n : Int, (1 : ℚ) / 2 ^ 24 ≤ |q - n| := by
    intro n
    have h3 : (q - n) * r = ((a * r + D * k - n * r : Int) : ℚ) := by rw [sub_mul, hq]; push_cast; ring
    have h4 : a * r + D * k - n * r ≠ 0 := by
      intro h0
      rw [h0, Int.cast_zero] at h3
      rcases mul_eq_zero.mp h3 with h | h
      · exact hfrac n (by linarith)
      · exact hrq h
    have h5 : (1 : ℚ) ≤ |(q - n) * r| := by
      rw [h3, ← Int.cast_abs]
      have : 1 ≤ |a * r + D * k - n * r| := Int.one_le_abs h4
      exact_mod_cast this
    rw [abs_mul] at h5
    have h6 : |(r : ℚ)| ≤ 2 ^ 24 := by
      have : |(r : ℚ)| = (r.natAbs : ℚ) := by rw [Nat.cast_natAbs, Int.cast_abs]
      rw [this]; exact_mod_cast hr2
    rw [div_le_iff₀ (by norm_num)]
    have h7 : |q - n| * |(r : ℚ)| ≤ |q - n| * 2 ^ 24 := mul_le_mul_of_nonneg_left h6 (abs_nonneg _)
    linarith
  have g1 := gap z
  have g2 := gap (z + 1)
  rw [abs_of_nonneg (by linarith)] at g1
  rw [abs_of_nonpos (by push_cast; linarith)] at g2
  push_cast at g2
  have n1 : (1 : ℚ) / 2 ^ 25 < 1 / 2 ^ 24 := by norm_num
  obtain ⟨b1, b2⟩ := abs_le.mp h2
  -- the size of the result
  have hqb : |q| ≤ 2 ^ 25 := by
    rw [← hqd]
    refine le_trans (abs_add_le _ _) ?_
    have e1 : |(a : ℚ)| = (a.natAbs : ℚ) := by rw [Nat.cast_natAbs, Int.cast_abs]
    have e2 : |(D : ℚ) * k / r| = (D.natAbs : ℚ) * k.natAbs / r.natAbs := by
      rw [abs_div, abs_mul, Nat.cast_natAbs, Nat.cast_natAbs, Nat.cast_natAbs, Int.cast_abs, Int.cast_abs, Int.cast_abs]
    have e3 : (D.natAbs : ℚ) * k.natAbs / r.natAbs ≤ k.natAbs := by
      have : (0 : ℚ) < r.natAbs := by exact_mod_cast Int.natAbs_pos.mpr hr
      rw [div_le_iff₀ this, mul_comm]
      exact mul_le_mul_of_nonneg_left (Nat.cast_le.mpr hDr) (Nat.cast_nonneg _)
    have e4 : (k.natAbs : ℚ) ≤ 2 ^ 24 := by exact_mod_cast hk2
    have e5 : (a.natAbs : ℚ) ≤ 2 ^ 23 := by exact_mod_cast ha2
    rw [e1, e2]
    have : (2 : ℚ) ^ 23 + 2 ^ 24 ≤ 2 ^ 25 := by norm_num
    linarith
  obtain ⟨c1, c2⟩ := abs_le.mp hqb
  have hzb : z.natAbs ≤ 2 ^ 30 := by
    have d1 : (z : ℚ) ≤ 2 ^ 25 := by linarith
    have d2 : (-(2 ^ 25) - 1 : ℚ) ≤ z := by linarith
    have d3 : z ≤ 2 ^ 25 := by exact_mod_cast d1
    have d4 : -(2 ^ 25) - 1 ≤ z := by exact_mod_cast d2
    have : (2 : Int) ^ 25 = 33554432 := by norm_num
    have : (2 : Nat) ^ 30 = 1073741824 := by norm_num
    omega
  rw [doubleToInt_between hzb (by linarith) (by linarith), towardZero_between (by
    have := hfrac z
    exact lt_of_le_of_ne hz1 (Ne.symm this)) hz2]

/-- The position of a side where it starts. -/
theorem position_start {X Dd R K : Flt} {a r k : Int} (hX : X.Is a) (hD : Dd.Is 0) (hR : R.Is r) (hK : K.Is k) (hr : r ≠ 0)
    (ha2 : |a| ≤ 2 ^ 24) :
    Flt.doubleToInt (X.widen.addD ((Dd.widen.divD R.widen).mulD K.widen)) = .ok a := by
  obtain ⟨sd, ed, qd⟩ := hD.widen
  obtain ⟨sr, er, qr⟩ := hR.widen
  obtain ⟨sk, ek, qk⟩ := hK.widen
  have hV : (0 : Nat) < 2 ^ 1074 := Nat.two_pow_pos _
  have hr0 : 0 < r.natAbs := Int.natAbs_pos.mpr hr
  rw [ed, er, ek, Int.natAbs_zero, Nat.zero_mul]
  have hdiv : (Flt.fin sd 0).divD (.fin sr (r.natAbs * 2 ^ 1074)) = mkDouble (sd != sr) (0 * 2 ^ 1074) (r.natAbs * 2 ^ 1074) := by
    unfold Flt.divD Flt.divWith
    simp only
    rw [if_neg (Nat.mul_pos hr0 hV).ne']
  have hmul : (Flt.fin (sd != sr) 0).mulD (.fin sk (k.natAbs * 2 ^ 1074)) = mkDouble ((sd != sr) != sk) (0 * (k.natAbs * 2 ^ 1074)) (2 ^ 1074) := rfl
  obtain ⟨h4, h5⟩ := Flt.mkDouble_le (neg := (sd != sr)) (n := 0 * 2 ^ 1074) (d := r.natAbs * 2 ^ 1074) (z := 0) (Nat.mul_pos hr0 hV)
    (rep_of_lt (Nat.two_pow_pos _)) (Nat.two_pow_pos _) (by rw [Nat.zero_mul]; exact Nat.zero_le _)
  rw [hdiv, h4, Nat.le_zero.mp h5, hmul]
  obtain ⟨h6, h7⟩ := Flt.mkDouble_le (neg := ((sd != sr) != sk)) (n := 0 * (k.natAbs * 2 ^ 1074)) (d := 2 ^ 1074) (z := 0) hV
    (rep_of_lt (Nat.two_pow_pos _)) (Nat.two_pow_pos _) (by rw [Nat.zero_mul]; exact Nat.zero_le _)
  rw [h6, Nat.le_zero.mp h7]
  exact Flt.addD_zero hX ha2 _

theorem signed_sgn {n : Int} {s : Bool} (h : (n : ℚ) = sgn s * n.natAbs) (V : Nat) : Flt.signed s (n.natAbs * V) = n * V := by
  have : ((Flt.signed s (n.natAbs * V) : Int) : ℚ) = ((n * V : Int) : ℚ) := by
    rw [signed_q, Nat.cast_mul, ← mul_assoc, ← h]; push_cast; rfl
  exact_mod_cast this

/-- The position of a side where it ends. -/
theorem position_end {X Dd R K : Flt} {a r k : Int} (hX : X.Is a) (hD : Dd.Is r) (hR : R.Is r) (hK : K.Is k) (hr : r ≠ 0)
    (ha2 : a.natAbs ≤ 2 ^ 24) (hk2 : k.natAbs ≤ 2 ^ 24) :
    Flt.doubleToInt (X.widen.addD ((Dd.widen.divD R.widen).mulD K.widen)) = .ok (a + k) := by
  obtain ⟨sa, ea, qa⟩ := hX.widen
  obtain ⟨sd, ed, qd⟩ := hD.widen
  obtain ⟨sr, er, qr⟩ := hR.widen
  obtain ⟨sk, ek, qk⟩ := hK.widen
  have hV : (0 : Nat) < 2 ^ 1074 := Nat.two_pow_pos _
  have hr0 : 0 < r.natAbs := Int.natAbs_pos.mpr hr
  have hs : sd = sr := by
    have : sgn sd = sgn sr := by
      have h1 : (r.natAbs : ℚ) ≠ 0 := by exact_mod_cast hr0.ne'
      exact mul_right_cancel₀ h1 (qd.symm.trans qr)
    cases sd <;> cases sr <;> first | rfl | (norm_num [sgn] at this)
  subst hs
  rw [ea, ed, er, ek]
  have rV : Rep 53 (2 ^ 1074) := by have := rep53_int 1 (by norm_num); rwa [Nat.one_mul] at this
  have bV : (2 : Nat) ^ 1074 < 2 ^ 2098 := by have := int_lt_max 1 (by norm_num); rwa [Nat.one_mul] at this
  have rK := rep53_int k.natAbs (by omega)
  have bK := int_lt_max k.natAbs (by omega)
  have rA := rep53_int (a + k).natAbs (by omega)
  have bA := int_lt_max (a + k).natAbs (by omega)
  have hdiv : (Flt.fin sd (r.natAbs * 2 ^ 1074)).divD (.fin sd (r.natAbs * 2 ^ 1074)) =
      mkDouble (sd != sd) (r.natAbs * 2 ^ 1074 * 2 ^ 1074) (r.natAbs * 2 ^ 1074) := by
    unfold Flt.divD Flt.divWith
    simp only
    rw [if_neg (Nat.mul_pos hr0 hV).ne']
  have hmul : ∀ q, (Flt.fin (sd != sd) q).mulD (.fin sk (k.natAbs * 2 ^ 1074)) = mkDouble ((sd != sd) != sk) (q * (k.natAbs * 2 ^ 1074)) (2 ^ 1074) :=
    fun q => rfl
  have hint : ∀ n : Int, n.natAbs ≤ 2 ^ 25 → ∀ u, (n : ℚ) = sgn u * n.natAbs → (Flt.fin u (n.natAbs * 2 ^ 1074)).doubleToInt = .ok n := by
    intro n hn u hu
    have h23 : (2 : Nat) ^ 23 = 8388608 := by norm_num
    unfold Flt.doubleToInt
    simp only
    rw [Nat.mul_div_cancel _ hV]
    have : (if u = true then -((n.natAbs : Nat) : Int) else ((n.natAbs : Nat) : Int)) = n := by
      have h := signed_sgn hu 1
      rw [Nat.mul_one] at h
      unfold Flt.signed at h
      rw [h]; simp
    rw [this, if_pos]
    unfold InInt32; omega
  have hdoubled := hint (a + k) (by omega)
  rw [hdiv]
  generalize hVV : (2 : Nat) ^ 1074 = V at *
  obtain ⟨h4, _⟩ := Flt.mkDouble_le (neg := (sd != sd)) (n := r.natAbs * V * V) (d := r.natAbs * V) (Nat.mul_pos hr0 hV) rV bV (by
    rw [Nat.mul_comm])
  have h5 : fround 53 (r.natAbs * V * V) (r.natAbs * V) = V := by
    rw [Nat.mul_comm (r.natAbs * V) V]
    exact fround_exact (Nat.mul_pos hr0 hV) rV
  rw [h4, h5, hmul]
  obtain ⟨h6, _⟩ := Flt.mkDouble_le (neg := ((sd != sd) != sk)) (n := V * (k.natAbs * V)) (d := V) hV rK bK (by
    rw [Nat.mul_comm])
  have h7 : fround 53 (V * (k.natAbs * V)) V = k.natAbs * V := by
    rw [Nat.mul_comm V]
    exact fround_exact hV rK
  have hsk : ((sd != sd) != sk) = sk := by cases sd <;> cases sk <;> rfl
  rw [h6, h7, hsk]
  have hsum : Flt.signed sa (a.natAbs * V) + Flt.signed sk (k.natAbs * V) = (a + k) * V := by
    rw [signed_sgn qa, signed_sgn qk]; ring
  have habs : ((a + k) * (V : Int)).natAbs = (a + k).natAbs * V := by rw [Int.natAbs_mul, Int.natAbs_natCast]
  obtain ⟨u, m3, h8, h9, h10⟩ := addD_fin (s := sa) (t := sk) (m := a.natAbs * V) (n := k.natAbs * V) rA bA (by rw [hsum, habs])
  rw [h8]
  rw [hsum, habs] at h9 h10
  have h11 : m3 = (a + k).natAbs * V := by
    rw [h9]
    have := fround_exact (p := 53) (m := (a + k).natAbs * V) (d := 1) (by omega) rA
    rwa [Nat.mul_one] at this
  rw [h11]
  have hVq : (V : ℚ) ≠ 0 := by exact_mod_cast hV.ne'
  refine hdoubled u ?_
  have : ((a + k : Int) : ℚ) * V = sgn u * (a + k).natAbs * V := by
    have h12 := h10
    rw [Int.cast_mul, Int.cast_natCast, Nat.cast_mul, ← mul_assoc] at h12
    exact h12
  exact mul_right_cancel₀ hVq this

/-- A side with whole ends and a row: the intersection is found, and it is where the side meets the row, cut to an
integer, unless the side is slanted and meets the row in a whole number between its ends. -/
theorem node_whole (row : Nat) (hrow : row ≤ 2 ^ 31) (xi yi xj yj : Flt) (a b c d : Int) (h1 : xi.Is a) (h2 : yi.Is b) (h3 : xj.Is c)
    (h4 : yj.Is d) (l1 : |a| ≤ 2 ^ 23) (l2 : |b| ≤ 2 ^ 23) (l3 : |c| ≤ 2 ^ 23) (l4 : |d| ≤ 2 ^ 23)
    (hclean : a ≠ c → (b < row ∧ (row : Int) < d) ∨ (d < row ∧ (row : Int) < b) → ∀ n : Int, meets ((c, d), (a, b)) row ≠ n)
    (nodes : List Int) :
    node row ((xi, yi), (xj, yj)) nodes =
      .ok (if Hit row b d then nodes ++ [if b = d then a else towardZero (meets ((c, d), (a, b)) row)] else nodes) := by
  have h21 : (2 : Int) ^ 23 = 8388608 := by norm_num
  have w : ∀ n : Int, n.natAbs ≤ 16777216 → |n| ≤ 2 ^ 24 := by
    intro n hn
    have h24 : (2 : Int) ^ 24 = 16777216 := by norm_num
    rw [Int.abs_eq_natAbs, h24]; omega
  have l1' := l1
  have l2' := l2
  have l3' := l3
  have l4' := l4
  rw [h21, Int.abs_eq_natAbs] at l1' l2' l3' l4'
  by_cases haxis : a = c ∨ b = d
  · rw [node_axis row hrow xi yi xj yj a b c d h1 h2 h3 h4 (w _ (by omega)) (w _ (by omega)) (w _ (by omega)) haxis]
    congr 1
    by_cases hbd : b = d
    · rw [if_pos hbd]
    · rw [if_neg hbd]
      have hac : a = c := haxis.resolve_right hbd
      subst hac
      have : meets ((a, d), (a, b)) row = (a : ℚ) := by unfold meets; simp
      rw [this, towardZero_int]
  · have hac : a ≠ c := fun h => haxis (.inl h)
    have hbd : b ≠ d := fun h => haxis (.inr h)
    have hb : InInt32 b := by unfold InInt32; omega
    have hd : InInt32 d := by unfold InInt32; omega
    unfold node
    simp only [h2.toInt hb, h4.toInt hd, Outcome.bind_ok]
    by_cases hc : Hit row b d
    · have hc' := hc
      unfold Hit at hc'
      rw [if_pos hc, if_pos hc', if_neg hbd]
      have hcase : (b ≤ row ∧ (row : Int) ≤ d) ∨ (d ≤ row ∧ (row : Int) ≤ b) := by omega
      have hR := h4.sub h2 (w (d - b) (by omega))
      have hK := h3.sub h1 (w (c - a) (by omega))
      have hP : (Flt.ofInt (row : Int)).Is row := Flt.ofInt_small (w _ (by omega))
      have hD := hP.sub h2 (w ((row : Int) - b) (by omega))
      have hz : ((yj.subF yi).widen.feq .zero) = false := by
        obtain ⟨s, hs, hq⟩ := hR.widen
        rw [hs]
        unfold Flt.feq Flt.zero
        simp only [decide_eq_false_iff_not]
        rw [signed_sgn hq, show Flt.signed false 0 = 0 from rfl]
        refine mul_ne_zero (by omega) ?_
        have : (0 : Nat) < 2 ^ 1074 := Nat.two_pow_pos _
        exact Int.natCast_ne_zero.mpr this.ne'
      rw [hz]
      simp only [Bool.false_eq_true, if_false]
      have hm : meets ((c, d), (a, b)) row = a + (((row : Int) - b : Int) : ℚ) * ((c - a : Int) : ℚ) / ((d - b : Int) : ℚ) := by
        rw [meets_swap (a, b) (c, d) row hbd]
        unfold meets
        push_cast
        ring
      have hne : d - b ≠ 0 := by omega
      by_cases e1 : (row : Int) = b
      · have hD0 : ((Flt.ofInt (row : Int)).subF yi).Is 0 := by have h0 := hD; rw [show (row : Int) - b = 0 by omega] at h0; exact h0
        rw [position_start h1 hD0 hR hK hne (w _ (by omega)), hm, e1, sub_self]
        have : (a : ℚ) + ((0 : Int) : ℚ) * ((c - a : Int) : ℚ) / ((d - b : Int) : ℚ) = a := by simp
        rw [this, towardZero_int]
        rfl
      · by_cases e2 : (row : Int) = d
        · have hDr : ((Flt.ofInt (row : Int)).subF yi).Is (d - b) := by have := hD; rw [← e2]; exact this
          rw [position_end h1 hDr hR hK hne (by omega) (by omega), hm, e2]
          have hq : ((d - b : Int) : ℚ) ≠ 0 := by exact_mod_cast hne
          have : (a : ℚ) + ((d - b : Int) : ℚ) * ((c - a : Int) : ℚ) / ((d - b : Int) : ℚ) = (c : Int) := by
            rw [mul_div_assoc, mul_div_cancel₀ _ hq]; push_cast; ring
          rw [this, towardZero_int, show a + (c - a) = c by ring]
          rfl
        · have hfr := hclean hac (by omega)
          rw [position_fraction h1 hD hR hK hne (by omega) (by omega) (by omega) (by omega) (by
            intro n; rw [← hm]; exact hfr n), ← hm]
          rfl
    · have hc' := hc
      unfold Hit at hc'
      rw [if_neg hc, if_neg hc']

end Trax
