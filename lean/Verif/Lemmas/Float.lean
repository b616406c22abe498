import Verif.Model.Float
import Verif.Lemmas.Decimal
import Mathlib.Tactic.Linarith
import Mathlib.Tactic.Ring

/-! Helper lemmas about rounding. -/

namespace Trax

/-- What rounding to the nearest integer means. -/
def IsRhe (n d q : Nat) : Prop :=
  2 * (q * d) ≤ 2 * n + d ∧ 2 * n ≤ 2 * (q * d) + d ∧
  (2 * (q * d) = 2 * n + d → q % 2 = 0) ∧ (2 * n = 2 * (q * d) + d → q % 2 = 0)

theorem rhe_spec (n d : Nat) (hd : 0 < d) : IsRhe n d (rhe n d) := by
  have h1 := Nat.div_add_mod n d
  have h2 := Nat.mod_lt n hd
  unfold rhe IsRhe
  simp only
  generalize n / d = q at *
  generalize n % d = r at *
  have e : (q + 1) * d = d * q + d := by ring
  have e' : q * d = d * q := by ring
  split
  · rw [e']; refine ⟨by omega, by omega, by omega, by omega⟩
  · split
    · rw [e]; refine ⟨by omega, by omega, by omega, by omega⟩
    · split
      · rw [e']; refine ⟨by omega, by omega, by omega, by omega⟩
      · rw [e]; refine ⟨by omega, by omega, by omega, by omega⟩

theorem IsRhe.unique {n d q q' : Nat} (hd : 0 < d) (h : IsRhe n d q) (h' : IsRhe n d q') : q = q' := by
  have key : ∀ q q', IsRhe n d q → IsRhe n d q' → q < q' → False := by
    intro q q' h h' hlt
    obtain ⟨h1, h2, h3, h4⟩ := h
    obtain ⟨g1, g2, g3, g4⟩ := h'
    have hm : (q + 1) * d ≤ q' * d := Nat.mul_le_mul_right d hlt
    have e : (q + 1) * d = q * d + d := by ring
    have he : q' * d = q * d + d := by omega
    have hq : q' = q + 1 := by
      rw [← e] at he
      exact Nat.eq_of_mul_eq_mul_right hd he
    have := h4 (by omega)
    have := g3 (by omega)
    omega
  rcases Nat.lt_trichotomy q q' with h1 | h1 | h1
  · exact (key _ _ h h' h1).elim
  · exact h1
  · exact (key _ _ h' h h1).elim

theorem rhe_eq {n d q : Nat} (hd : 0 < d) (h : IsRhe n d q) : rhe n d = q :=
  (rhe_spec n d hd).unique hd h

theorem rhe_mul (m d : Nat) (hd : 0 < d) : rhe (m * d) d = m :=
  rhe_eq hd ⟨by omega, by omega, by omega, by omega⟩

/-- The rounded multiple is at least as near as any other multiple. -/
theorem rhe_nearest (n d c : Nat) (hd : 0 < d) :
    ((rhe n d * d : Nat) - (n : Int)).natAbs ≤ ((c * d : Nat) - (n : Int)).natAbs := by
  obtain ⟨h1, h2, _, _⟩ := rhe_spec n d hd
  generalize rhe n d = q at *
  rcases Nat.lt_trichotomy c q with h | h | h
  · have hm : (c + 1) * d ≤ q * d := Nat.mul_le_mul_right d h
    have e : (c + 1) * d = c * d + d := by ring
    omega
  · subst h; omega
  · have hm : (q + 1) * d ≤ c * d := Nat.mul_le_mul_right d h
    have e : (q + 1) * d = q * d + d := by ring
    omega

theorem rhe_scale (n d c : Nat) (hd : 0 < d) (hc : 0 < c) : rhe (n * c) (d * c) = rhe n d := by
  apply rhe_eq (Nat.mul_pos hd hc)
  obtain ⟨h1, h2, h3, h4⟩ := rhe_spec n d hd
  generalize rhe n d = q at *
  have e1 : 2 * (q * (d * c)) = (2 * (q * d)) * c := by ring
  have e2 : 2 * (n * c) + d * c = (2 * n + d) * c := by ring
  have e3 : 2 * (n * c) = (2 * n) * c := by ring
  have e4 : 2 * (q * (d * c)) + d * c = (2 * (q * d) + d) * c := by ring
  refine ⟨?_, ?_, ?_, ?_⟩
  · rw [e1, e2]; exact Nat.mul_le_mul_right c h1
  · rw [e3, e4]; exact Nat.mul_le_mul_right c h2
  · rw [e1, e2]; intro h; exact h3 (Nat.eq_of_mul_eq_mul_right hc h)
  · rw [e3, e4]; intro h; exact h4 (Nat.eq_of_mul_eq_mul_right hc h)

/-- A number with at most `p` significant bits. -/
def Rep (p m : Nat) : Prop := 2 ^ (m.log2 + 1 - p) ∣ m

theorem rep_of_lt {p m : Nat} (h : m < 2 ^ p) : Rep p m := by
  unfold Rep
  by_cases h0 : m = 0
  · subst h0; simp
  · have := (Nat.log2_lt h0).mpr h
    have : m.log2 + 1 - p = 0 := by omega
    simp [this]

theorem div_mul_cancel_den (m d : Nat) (hd : 0 < d) : m * d / d = m := Nat.mul_div_cancel m hd

/-- Representable numbers are not changed. -/
theorem fround_exact {p m d : Nat} (hd : 0 < d) (h : Rep p m) : fround p (m * d) d = m := by
  unfold fround
  simp only [Nat.mul_div_cancel m hd]
  obtain ⟨c, hc⟩ := h
  generalize m.log2 + 1 - p = k at *
  have : m * d = c * (d * 2 ^ k) := by rw [hc]; ring
  rw [this, rhe_mul _ _ (Nat.mul_pos hd (Nat.two_pow_pos k)), hc]
  ring

/-- The rounded number is at least as near as any representable number. -/
theorem fround_nearest {p : Nat} (n d z : Nat) (hp : 0 < p) (hd : 0 < d) (hz : Rep p z) :
    ((fround p n d * d : Nat) - (n : Int)).natAbs ≤ ((z * d : Nat) - (n : Int)).natAbs := by
  have hdk : 0 < d * 2 ^ ((n / d).log2 + 1 - p) := Nat.mul_pos hd (Nat.two_pow_pos _)
  have hcomm : fround p n d * d = rhe n (d * 2 ^ ((n / d).log2 + 1 - p)) * (d * 2 ^ ((n / d).log2 + 1 - p)) := by
    unfold fround; ring
  rw [hcomm]
  by_cases hdiv : 2 ^ ((n / d).log2 + 1 - p) ∣ z
  · obtain ⟨c, hc⟩ := hdiv
    have : z * d = c * (d * 2 ^ ((n / d).log2 + 1 - p)) := by rw [hc]; ring
    rw [this]
    exact rhe_nearest n _ c hdk
  · -- z is smaller than the binade of n / d
    have hq : n / d ≠ 0 := by
      intro h0
      rw [h0] at hdiv
      apply hdiv
      have : Nat.log2 0 + 1 - p = 0 := by simp [Nat.log2]; omega
      rw [this]; simp
    have hlog : z.log2 < (n / d).log2 := by
      apply Classical.byContradiction
      intro hge
      apply hdiv
      exact Nat.dvd_trans (Nat.pow_dvd_pow 2 (by omega)) hz
    have hz2 : z < 2 ^ (n / d).log2 := by
      by_cases h0 : z = 0
      · subst h0; exact Nat.two_pow_pos _
      · exact (Nat.log2_lt h0).mp hlog
    have hle : 2 ^ (n / d).log2 ≤ n / d := Nat.log2_self_le hq
    have hk : (n / d).log2 + 1 - p ≤ (n / d).log2 := by omega
    obtain ⟨c, hc⟩ := Nat.pow_dvd_pow 2 hk
    have h1 := rhe_nearest n (d * 2 ^ ((n / d).log2 + 1 - p)) c hdk
    have h2 : c * (d * 2 ^ ((n / d).log2 + 1 - p)) = 2 ^ (n / d).log2 * d := by rw [hc]; ring
    rw [h2] at h1
    have h3 : 2 ^ (n / d).log2 * d ≤ n := Nat.le_trans (Nat.mul_le_mul_right d hle) (Nat.div_mul_le_self n d)
    have h4 : z * d ≤ 2 ^ (n / d).log2 * d := Nat.mul_le_mul_right d (Nat.le_of_lt hz2)
    omega

/-- Rounding to 29 more bits first does not change the rounding of a fraction with a small denominator. -/
theorem double_rhe (M S T : Nat) (hT : T = 536870912) (hS : 0 < S) (hS2 : 2 * S ≤ T) :
    rhe (rhe (M * T) S) T = rhe M S := by
  have hm := Nat.div_add_mod M S
  have hr := Nat.mod_lt M hS
  have hin := rhe_spec (M * T) S hS
  obtain ⟨a1, a2, -, -⟩ := hin
  generalize rhe (M * T) S = I at *
  apply rhe_eq (by omega)
  have hunf : rhe M S = (if 2 * (M % S) < S then M / S else if S < 2 * (M % S) then M / S + 1
      else if (M / S) % 2 = 0 then M / S else M / S + 1) := rfl
  rw [hunf]
  generalize M / S = Q at *
  generalize M % S = R at *
  have hM : M * T = (Q * T) * S + R * T := by rw [← hm]; ring
  rw [hM] at a1 a2
  -- the difference of I and Q * T
  have hIge : Q * T ≤ I := by
    by_contra hlt
    have h1 : (I + 1) * S ≤ (Q * T) * S := Nat.mul_le_mul_right S (by omega)
    have e1 : (I + 1) * S = I * S + S := by ring
    omega
  obtain ⟨J, rfl⟩ := Nat.exists_eq_add_of_le hIge
  have e1 : (Q * T + J) * S = (Q * T) * S + J * S := by ring
  rw [e1] at a1 a2
  generalize (Q * T) * S = W at *
  have b1 : 2 * (J * S) ≤ 2 * (R * T) + S := by omega
  have b2 : 2 * (R * T) ≤ 2 * (J * S) + S := by omega
  clear a1 a2 e1 hM hunf hm
  have e2 : (Q + 1) * T = Q * T + T := by ring
  unfold IsRhe
  split
  · rename_i hlt
    have hJ : 2 * J < T := by
      by_contra hge
      have h1 : T * S ≤ (2 * J) * S := Nat.mul_le_mul_right S (by omega)
      have h2 : (2 * R + 1) * T ≤ S * T := Nat.mul_le_mul_right T (by omega)
      have h3 : (2 * R + 1) * T = 2 * (R * T) + T := by ring
      have h4 : (2 * J) * S = 2 * (J * S) := by ring
      have h5 : S * T = T * S := by ring
      omega
    refine ⟨by omega, by omega, by omega, by omega⟩
  · split
    · rename_i hgt
      have hJ : T < 2 * J := by
        by_contra hge
        have h1 : (2 * J) * S ≤ T * S := Nat.mul_le_mul_right S (by omega)
        have h2 : (S + 1) * T ≤ (2 * R) * T := Nat.mul_le_mul_right T (by omega)
        have h3 : (2 * R) * T = 2 * (R * T) := by ring
        have h4 : (2 * J) * S = 2 * (J * S) := by ring
        have h5 : (S + 1) * T = T * S + T := by ring
        omega
      have hJ2 : J ≤ T := by
        by_contra hge
        have h1 : (T + 1) * S ≤ J * S := Nat.mul_le_mul_right S (by omega)
        have h2 : (R + 1) * T ≤ S * T := Nat.mul_le_mul_right T (by omega)
        have h3 : (R + 1) * T = R * T + T := by ring
        have h4 : (T + 1) * S = S * T + S := by ring
        omega
      rw [e2]
      refine ⟨by omega, by omega, by omega, by omega⟩
    · have hR : 2 * R = S := by omega
      have hJ : 2 * J = T := by
        have h3 : (2 * R) * T = 2 * (R * T) := by ring
        have h4 : (2 * J) * S = 2 * (J * S) := by ring
        have h5 : S * T = T * S := by ring
        rw [hR] at h3
        rcases Nat.lt_trichotomy (2 * J) T with h | h | h
        · have h1 : (2 * J + 2) * S ≤ T * S := Nat.mul_le_mul_right S (by omega)
          have e2 : (2 * J + 2) * S = 2 * (J * S) + 2 * S := by ring
          omega
        · exact h
        · have h1 : (T + 2) * S ≤ (2 * J) * S := Nat.mul_le_mul_right S (by omega)
          have e2 : (T + 2) * S = T * S + 2 * S := by ring
          omega
      split
      · refine ⟨by omega, by omega, by omega, by omega⟩
      · rw [e2]
        refine ⟨by omega, by omega, by omega, by omega⟩

end Trax
