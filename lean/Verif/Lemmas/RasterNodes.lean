import Verif.Lemmas.Raster

/-!
# Lemmas about rasterisation: the intersections of a scan line
-/

namespace Trax
open Region

namespace Flt

theorem mkFloat_le {neg : Bool} {n d z : Nat} (hd : 0 < d) (hz : Rep32 z) (h : n ≤ z * d) :
    mkFloat neg n d = .fin neg (fround 24 n d) ∧ fround 24 n d ≤ z ∧ Rep32 (fround 24 n d) := by
  have h1 : fround 24 n d ≤ z := fround_le_rep n d z (by omega) hd hz.1 h
  have h2 : fround 24 n d < 2 ^ 277 := lt_of_le_of_lt h1 hz.2
  refine ⟨?_, h1, fround_rep 24 n d (by omega) hd, h2⟩
  unfold mkFloat
  simp only
  rw [if_neg (not_le.mpr h2)]

theorem mkDouble_le {neg : Bool} {n d z : Nat} (hd : 0 < d) (hz : Rep 53 z) (hz2 : z < 2 ^ 2098) (h : n ≤ z * d) :
    mkDouble neg n d = .fin neg (fround 53 n d) ∧ fround 53 n d ≤ z := by
  have h1 : fround 53 n d ≤ z := fround_le_rep n d z (by omega) hd hz h
  have h2 : fround 53 n d < 2 ^ 2098 := lt_of_le_of_lt h1 hz2
  refine ⟨?_, h1⟩
  unfold mkDouble
  simp only
  rw [if_neg (not_le.mpr h2)]

theorem fround_zero (p : Nat) : fround p 0 1 = 0 := by
  have := fround_exact (p := p) (m := 0) (d := 1) (by omega) (rep_of_lt (Nat.two_pow_pos p))
  simpa using this

theorem addF_le {s t : Bool} {m n z : Nat} (hz : Rep32 z) (h : (signed s m + signed t n).natAbs ≤ z) :
    ∃ u k, (Flt.fin s m).addF (.fin t n) = .fin u k ∧ k = fround 24 (signed s m + signed t n).natAbs 1 ∧ k ≤ z ∧ Rep32 k := by
  unfold addF addWith
  simp only
  by_cases h0 : signed s m + signed t n = 0
  · rw [if_pos h0, h0]
    exact ⟨_, 0, rfl, (fround_zero 24).symm, Nat.zero_le _, by decide⟩
  · rw [if_neg h0]
    obtain ⟨h1, h2, h3⟩ := mkFloat_le (neg := decide (signed s m + signed t n < 0)) (n := (signed s m + signed t n).natAbs)
      (d := 1) (by omega) hz (by rw [Nat.mul_one]; exact h)
    exact ⟨_, _, h1, rfl, h2, h3⟩

theorem signed_not (t : Bool) (n : Nat) : signed (!t) n = - signed t n := by
  cases t <;> simp [signed]

theorem subF_le {s t : Bool} {m n z : Nat} (hz : Rep32 z) (h : (signed s m - signed t n).natAbs ≤ z) :
    ∃ u k, (Flt.fin s m).subF (.fin t n) = .fin u k ∧ k = fround 24 (signed s m - signed t n).natAbs 1 ∧ k ≤ z ∧ Rep32 k := by
  have := addF_le (s := s) (t := !t) (m := m) (n := n) hz (by rw [signed_not, ← sub_eq_add_neg]; exact h)
  rw [signed_not, ← sub_eq_add_neg] at this
  exact this

theorem addD_le {s t : Bool} {m n z : Nat} (hz : Rep 53 z) (hz2 : z < 2 ^ 2098) (h : (signed s m + signed t n).natAbs ≤ z) :
    ∃ u k, (Flt.fin s m).addD (.fin t n) = .fin u k ∧ k ≤ z := by
  unfold addD addWith
  simp only
  by_cases h0 : signed s m + signed t n = 0
  · rw [if_pos h0]
    exact ⟨_, 0, rfl, Nat.zero_le _⟩
  · rw [if_neg h0]
    obtain ⟨h1, h2⟩ := mkDouble_le (neg := decide (signed s m + signed t n < 0)) (n := (signed s m + signed t n).natAbs)
      (d := 1) (by omega) hz hz2 (by rw [Nat.mul_one]; exact h)
    exact ⟨_, _, h1, h2⟩

theorem signed_natAbs (s : Bool) (m : Nat) : (signed s m).natAbs = m := by
  cases s <;> simp [signed]

theorem signed_add_le (s t : Bool) (m n : Nat) : (signed s m + signed t n).natAbs ≤ m + n := by
  have h1 := signed_natAbs s m
  have h2 := signed_natAbs t n
  omega

theorem signed_sub_le (s t : Bool) (m n : Nat) : (signed s m - signed t n).natAbs ≤ m + n := by
  have h1 := signed_natAbs s m
  have h2 := signed_natAbs t n
  omega

/-- Rounding a number between two representable ones leaves it between them. -/
theorem fround_between {a b : Nat} {sa sb : Bool} {n : Nat} (ha : Rep 24 a) (hb : Rep 24 b) (h1 : signed sa a ≤ (n : Int))
    (h2 : (n : Int) ≤ signed sb b) :
    signed sa a ≤ (fround 24 n 1 : Nat) ∧ ((fround 24 n 1 : Nat) : Int) ≤ signed sb b := by
  constructor
  · have := signed_natAbs sa a
    by_cases hs : 0 ≤ signed sa a
    · have : a ≤ fround 24 n 1 := rep_le_fround n 1 a (by omega) (by omega) ha (by omega)
      omega
    · omega
  · have := signed_natAbs sb b
    have : fround 24 n 1 ≤ b := fround_le_rep n 1 b (by omega) (by omega) hb (by omega)
    omega

theorem pow_rep (k : Nat) : Rep 24 (2 ^ k) := by
  have := (rep_of_lt (p := 24) (m := 1) (by norm_num)).scale (Nat.le_refl _) k
  rwa [Nat.one_mul] at this

/-- The number of units in one. -/
theorem unit_rep : Rep32 (2 ^ 149) := by
  have := Rep32.int (n := 1) (rep_of_lt (by norm_num)) (by norm_num)
  rwa [Nat.one_mul] at this

theorem ofInt_nat (n : Nat) (h : n ≤ 2 ^ 31) :
    ∃ u, Flt.ofInt (n : Int) = .fin u (fround 24 (n * 2 ^ 149) 1) ∧ u = false := by
  have hz : Rep32 (2 ^ 31 * 2 ^ 149) := Rep32.int (pow_rep 31) (by norm_num)
  have := mkFloat_le (neg := decide ((n : Int) < 0)) (n := n * 2 ^ 149) (d := 1) (by omega) hz (by
    rw [Nat.mul_one]; exact Nat.mul_le_mul_right _ h)
  refine ⟨_, this.1, by simp⟩

/-- The parameter of the intersection: at most one. -/
theorem crossing {sp si sj : Bool} {mp mi mj : Nat} (hne : signed sj mj ≠ signed si mi)
    (hb : (signed sp mp - signed si mi).natAbs ≤ (signed sj mj - signed si mi).natAbs)
    {z : Nat} (hz : Rep32 z) (hjz : (signed sj mj - signed si mi).natAbs ≤ z) :
    ∃ u1 A u2 B, (Flt.fin sp mp).subF (.fin si mi) = .fin u1 A ∧ (Flt.fin sj mj).subF (.fin si mi) = .fin u2 B ∧
      A ≤ B ∧ 0 < B := by
  obtain ⟨u1, A, h1, h2, _, _⟩ := subF_le (s := sp) (t := si) (m := mp) (n := mi) hz (le_trans hb hjz)
  obtain ⟨u2, B, h3, h4, _, _⟩ := subF_le (s := sj) (t := si) (m := mj) (n := mi) hz hjz
  refine ⟨u1, A, u2, B, h1, h3, ?_, ?_⟩
  · rw [h2, h4]
    exact fround_mono _ 1 _ 1 (by omega) (by omega) (by omega) (by omega)
  · rw [h4]
    exact rep_le_fround _ 1 1 (by omega) (by omega) (rep_of_lt (by norm_num)) (by omega)

theorem toInt_le {s : Bool} {m k : Nat} (h : m ≤ k * 2 ^ 149) (hk : k < 2 ^ 31) :
    ∃ n, (Flt.fin s m).toInt = .ok n ∧ n.natAbs ≤ k := by
  have h1 : m / 2 ^ 149 ≤ k := Nat.div_le_of_le_mul (by rw [Nat.mul_comm]; exact h)
  have h31 : (2 : Nat) ^ 31 = 2147483648 := by norm_num
  unfold toInt
  simp only
  generalize m / 2 ^ 149 = v at *
  rw [if_pos]
  · exact ⟨_, rfl, by split <;> omega⟩
  · unfold InInt32; split <;> omega

theorem doubleToInt_le {s : Bool} {m k : Nat} (h : m ≤ k * 2 ^ 1074) (hk : k < 2 ^ 31) :
    ∃ n, (Flt.fin s m).doubleToInt = .ok n ∧ n.natAbs ≤ k := by
  have h1 : m / 2 ^ 1074 ≤ k := Nat.div_le_of_le_mul (by rw [Nat.mul_comm]; exact h)
  have h31 : (2 : Nat) ^ 31 = 2147483648 := by norm_num
  unfold doubleToInt
  simp only
  generalize m / 2 ^ 1074 = v at *
  rw [if_pos]
  · exact ⟨_, rfl, by split <;> omega⟩
  · unfold InInt32; split <;> omega

/-- The intersection in `float`. -/
theorem legacy_expr {A B : Nat} {u1 u2 : Bool} (hAB : A ≤ B) (hB : 0 < B) {si sj : Bool} {mi mj : Nat} {k : Nat}
    (hi : mi ≤ 2 ^ 29 * 2 ^ 149) (hj : mj ≤ 2 ^ 29 * 2 ^ 149) (_hk : k = 3 * 2 ^ 29) :
    ∃ n, Flt.toInt ((Flt.fin si mi).addF (((Flt.fin u1 A).divF (.fin u2 B)).mulF ((Flt.fin sj mj).subF (.fin si mi)))) = .ok n ∧
      n.natAbs ≤ k := by
  have hU : (0 : Nat) < 2 ^ 149 := Nat.two_pow_pos _
  have r30 : Rep32 (2 ^ 30 * 2 ^ 149) := Rep32.int (pow_rep 30) (by norm_num)
  have rk : Rep32 (3 * 2 ^ 29 * 2 ^ 149) := Rep32.int ((rep_of_lt (p := 24) (m := 3) (by norm_num)).scale (Nat.le_refl _) 29) (by norm_num)
  have hU1 := unit_rep
  obtain ⟨u3, K, h3, _, hK, rK⟩ := subF_le (s := sj) (t := si) (m := mj) (n := mi) r30
    (le_trans (signed_sub_le _ _ _ _) (by
      rw [show (2 : Nat) ^ 30 * 2 ^ 149 = 2 ^ 29 * 2 ^ 149 + 2 ^ 29 * 2 ^ 149 by ring]; exact Nat.add_le_add hj hi))
  rw [h3]
  have hd : (Flt.fin u1 A).divF (.fin u2 B) = mkFloat (u1 != u2) (A * 2 ^ 149) B := by
    unfold divF divWith; simp only; rw [if_neg (by omega)]
  obtain ⟨h4, h5, _⟩ := mkFloat_le (neg := (u1 != u2)) (n := A * 2 ^ 149) (d := B) hB hU1 (by
    rw [Nat.mul_comm]; exact Nat.mul_le_mul_left _ hAB)
  rw [hd, h4]
  generalize fround 24 (A * 2 ^ 149) B = q at *
  have hm : (Flt.fin (u1 != u2) q).mulF (.fin u3 K) = mkFloat ((u1 != u2) != u3) (q * K) (2 ^ 149) := rfl
  obtain ⟨h6, h7, _⟩ := mkFloat_le (neg := ((u1 != u2) != u3)) (n := q * K) (d := 2 ^ 149) hU rK (by
    rw [Nat.mul_comm q]; exact Nat.mul_le_mul_left _ h5)
  rw [hm, h6]
  generalize fround 24 (q * K) (2 ^ 149) = p at *
  obtain ⟨u8, m8, h8, _, h9, _⟩ := addF_le (s := si) (t := ((u1 != u2) != u3)) (m := mi) (n := p) rk
    (le_trans (signed_add_le _ _ _ _) (by
      rw [show (3 : Nat) * 2 ^ 29 * 2 ^ 149 = 2 ^ 29 * 2 ^ 149 + 2 ^ 30 * 2 ^ 149 by ring]
      exact Nat.add_le_add hi (le_trans h7 hK)))
  rw [h8]
  exact toInt_le (by rw [_hk]; exact h9) (by rw [_hk]; norm_num)

/-- The intersection in `double`. -/
theorem double_expr {A B : Nat} {u1 u2 : Bool} (hAB : A ≤ B) (hB : 0 < B) {si sj : Bool} {mi mj : Nat} {k : Nat}
    (hi : mi ≤ 2 ^ 29 * 2 ^ 149) (hj : mj ≤ 2 ^ 29 * 2 ^ 149) (_hk : k = 3 * 2 ^ 29) :
    ∃ n, Flt.doubleToInt ((Flt.fin si mi).widen.addD (((Flt.fin u1 A).widen.divD (Flt.fin u2 B).widen).mulD
      ((Flt.fin sj mj).subF (.fin si mi)).widen)) = .ok n ∧ n.natAbs ≤ k := by
  have r30 : Rep32 (2 ^ 30 * 2 ^ 149) := Rep32.int (pow_rep 30) (by norm_num)
  obtain ⟨u3, K, h3, _, hK, rK⟩ := subF_le (s := sj) (t := si) (m := mj) (n := mi) r30
    (le_trans (signed_sub_le _ _ _ _) (by
      rw [show (2 : Nat) ^ 30 * 2 ^ 149 = 2 ^ 29 * 2 ^ 149 + 2 ^ 29 * 2 ^ 149 by ring]; exact Nat.add_le_add hj hi))
  rw [h3]
  have hW : (0 : Nat) < 2 ^ 925 := Nat.two_pow_pos _
  have hV : (0 : Nat) < 2 ^ 1074 := Nat.two_pow_pos _
  have hUW : (2 : Nat) ^ 149 * 2 ^ 925 = 2 ^ 1074 := by rw [← pow_add]
  have rV : Rep 53 (2 ^ 1074) := by
    have := (rep_of_lt (p := 53) (m := 1) (by norm_num)).scale (Nat.le_refl _) 1074
    rwa [Nat.one_mul] at this
  have rKW : Rep 53 (K * 2 ^ 925) := Rep.scale (p := 24) rK.1 (by omega) 925
  have rk : Rep 53 (3 * 2 ^ 29 * 2 ^ 1074) :=
    ((rep_of_lt (p := 53) (m := 3) (by norm_num)).scale (Nat.le_refl _) 29).scale (Nat.le_refl _) 1074
  have bV : (2 : Nat) ^ 1074 < 2 ^ 2098 := Nat.pow_lt_pow_right (by omega) (by omega)
  have bk : (3 : Nat) * 2 ^ 29 * 2 ^ 1074 < 2 ^ 2098 := by
    rw [show (2 : Nat) ^ 2098 = 2 ^ 1024 * 2 ^ 1074 by rw [← pow_add]]
    refine Nat.mul_lt_mul_of_pos_right (lt_of_lt_of_le (b := 2 ^ 31) (by norm_num) ?_) hV
    exact Nat.pow_le_pow_right (by omega) (by omega)
  have hKV : K * 2 ^ 925 ≤ 2 ^ 30 * 2 ^ 1074 := by
    rw [← hUW, ← Nat.mul_assoc]; exact Nat.mul_le_mul_right _ hK
  have bK : K * 2 ^ 925 < 2 ^ 2098 :=
    lt_of_le_of_lt (le_trans hKV (Nat.mul_le_mul_right _ (by norm_num))) bk
  have hiV : mi * 2 ^ 925 ≤ 2 ^ 29 * 2 ^ 1074 := by
    rw [← hUW, ← Nat.mul_assoc]; exact Nat.mul_le_mul_right _ hi
  have hd : (Flt.fin u1 A).widen.divD (Flt.fin u2 B).widen = mkDouble (u1 != u2) (A * 2 ^ 925 * 2 ^ 1074) (B * 2 ^ 925) := by
    unfold divD divWith widen; simp only; rw [if_neg (Nat.mul_pos hB hW).ne']
  obtain ⟨h4, h5⟩ := mkDouble_le (neg := (u1 != u2)) (n := A * 2 ^ 925 * 2 ^ 1074) (d := B * 2 ^ 925) (Nat.mul_pos hB hW) rV bV (by
    rw [Nat.mul_comm]; exact Nat.mul_le_mul_left _ (Nat.mul_le_mul_right _ hAB))
  rw [hd, h4]
  generalize fround 53 (A * 2 ^ 925 * 2 ^ 1074) (B * 2 ^ 925) = q at *
  have hm : (Flt.fin (u1 != u2) q).mulD (Flt.fin u3 K).widen = mkDouble ((u1 != u2) != u3) (q * (K * 2 ^ 925)) (2 ^ 1074) := rfl
  obtain ⟨h6, h7⟩ := mkDouble_le (neg := ((u1 != u2) != u3)) (n := q * (K * 2 ^ 925)) (d := 2 ^ 1074) hV rKW bK (by
    rw [Nat.mul_comm q]; exact Nat.mul_le_mul_left _ h5)
  rw [hm, h6]
  generalize fround 53 (q * (K * 2 ^ 925)) (2 ^ 1074) = p at *
  have hwi : (Flt.fin si mi).widen = .fin si (mi * 2 ^ 925) := rfl
  obtain ⟨u8, m8, h8, h9⟩ := addD_le (s := si) (t := ((u1 != u2) != u3)) (m := mi * 2 ^ 925) (n := p) rk bk
    (le_trans (signed_add_le _ _ _ _) (by
      rw [show (3 : Nat) * 2 ^ 29 * 2 ^ 1074 = 2 ^ 29 * 2 ^ 1074 + 2 ^ 30 * 2 ^ 1074 by
        rw [← Nat.add_mul, show (2 : Nat) ^ 29 + 2 ^ 30 = 3 * 2 ^ 29 by norm_num]]
      exact Nat.add_le_add hiV (le_trans h7 hKV)))
  rw [hwi, h8]
  exact doubleToInt_le (by rw [_hk]; exact h9) (by rw [_hk]; norm_num)

end Flt

/-- A single precision coordinate of at most `2^29`. -/
def SmallCoord (x : Flt) : Prop := ∃ s m, x = .fin s m ∧ Rep32 m ∧ m ≤ 2 ^ 29 * 2 ^ 149

/-- A coordinate that is also an integer. -/
def SmallInt (x : Flt) : Prop := ∃ s n, x = .fin s (n * 2 ^ 149) ∧ Rep32 (n * 2 ^ 149) ∧ n ≤ 2 ^ 29

theorem SmallInt.coord {x : Flt} (h : SmallInt x) : SmallCoord x := by
  obtain ⟨s, n, h1, h2, h3⟩ := h
  exact ⟨s, _, h1, h2, Nat.mul_le_mul_right _ h3⟩

theorem round_units (m U : Nat) (hU : 0 < U) (k : Nat) (hm : m ≤ k * (2 * U)) : (m + U) / (2 * U) ≤ k := by
  apply Nat.le_of_lt_succ
  rw [Nat.div_lt_iff_lt_mul (by omega), Nat.succ_mul]
  omega

theorem SmallCoord.round {x : Flt} (h : SmallCoord x) : SmallInt x.roundF := by
  obtain ⟨s, m, rfl, hr, hm⟩ := h
  refine ⟨s, (m + 2 ^ 148) / 2 ^ 149, rfl, ?_, ?_⟩
  · by_cases hb : m < 2 ^ 23 * 2 ^ 149
    · refine Flt.Rep32.int (rep_of_lt ?_) ?_
      all_goals
        have : (m + 2 ^ 148) / 2 ^ 149 ≤ 2 ^ 23 := by
          have := round_units m (2 ^ 148) (Nat.two_pow_pos _) (2 ^ 23)
          rw [show (2 : Nat) * 2 ^ 148 = 2 ^ 149 by rw [← pow_succ']] at this
          exact this hb.le
        exact lt_of_le_of_lt this (by norm_num)
    · have h0 : m ≠ 0 := by
        intro h0; apply hb; rw [h0]; exact Nat.mul_pos (Nat.two_pow_pos _) (Nat.two_pow_pos _)
      have hlog : 172 ≤ m.log2 := by
        rw [Nat.le_log2 h0]
        rw [show (172 : Nat) = 23 + 149 by rfl, pow_add]
        exact not_lt.mp hb
      have hd : 2 ^ 149 ∣ m := dvd_trans (Nat.pow_dvd_pow 2 (by omega)) hr.1
      obtain ⟨c, rfl⟩ := hd
      have : (2 ^ 149 * c + 2 ^ 148) / 2 ^ 149 = c := by
        rw [Nat.mul_add_div (Nat.two_pow_pos _), Nat.div_eq_of_lt (Nat.pow_lt_pow_right (by omega) (by omega))]
        rfl
      rw [this, Nat.mul_comm]
      exact hr
  · have := round_units m (2 ^ 148) (Nat.two_pow_pos _) (2 ^ 29)
    rw [show (2 : Nat) * 2 ^ 148 = 2 ^ 149 by rw [← pow_succ']] at this
    exact this hm

/-- The scan line separates a point from those below. -/
def below (row : Nat) (pt : Flt × Flt) : Bool := pt.2.lt (.fin false (row * 2 ^ 149))

theorem legacyNode_ok (row : Nat) (hrow : row ≤ 2 ^ 31) (e : (Flt × Flt) × (Flt × Flt))
    (h1 : SmallCoord e.1.1) (h2 : SmallCoord e.1.2) (h3 : SmallCoord e.2.1) (h4 : SmallCoord e.2.2) (nodes : List Int) :
    ∃ nodes', legacyNode row e nodes = .ok nodes' ∧
      nodes'.length = nodes.length + if (below row e.1 != below row e.2) = true then 1 else 0 := by
  obtain ⟨⟨xi, yi⟩, ⟨xj, yj⟩⟩ := e
  obtain ⟨s1, m1, e1, r1, b1⟩ := h1
  obtain ⟨s2, m2, e2, r2, b2⟩ := h2
  obtain ⟨s3, m3, e3, r3, b3⟩ := h3
  obtain ⟨s4, m4, e4, r4, b4⟩ := h4
  simp only at e1 e2 e3 e4
  subst e1 e2 e3 e4
  unfold legacyNode below
  simp only [Int.natAbs_natCast, show decide ((row : Int) < 0) = false by simp, Flt.lt, Flt.le, Flt.feq]
  have hsp : Flt.signed false (row * 2 ^ 149) = ((row * 2 ^ 149 : Nat) : Int) := rfl
  simp only [hsp]
  obtain ⟨u, hu, rfl⟩ := Flt.ofInt_nat row hrow
  have r30 : Rep32 (2 ^ 30 * 2 ^ 149) := Flt.Rep32.int (Flt.pow_rep 30) (by norm_num)
  have key : ∀ P : Nat, ((Flt.signed s2 m2 < P ∧ (P : Int) ≤ Flt.signed s4 m4) ∨ (Flt.signed s4 m4 < P ∧ (P : Int) ≤ Flt.signed s2 m2)) → P = row * 2 ^ 149 →
      ∃ n, Flt.toInt ((Flt.fin s1 m1).addF ((((Flt.ofInt row).subF (.fin s2 m2)).divF ((Flt.fin s4 m4).subF (.fin s2 m2))).mulF ((Flt.fin s3 m3).subF (.fin s1 m1)))) = .ok n := by
    intro P hP hPe
    have hne : Flt.signed s4 m4 ≠ Flt.signed s2 m2 := by omega
    have hb : (Flt.signed false (fround 24 (row * 2 ^ 149) 1) - Flt.signed s2 m2).natAbs ≤ (Flt.signed s4 m4 - Flt.signed s2 m2).natAbs := by
      show (((fround 24 (row * 2 ^ 149) 1 : Nat) : Int) - Flt.signed s2 m2).natAbs ≤ _
      rw [← hPe]
      rcases hP with hP | hP
      · have := Flt.fround_between r2.1 r4.1 (le_of_lt hP.1) hP.2
        omega
      · have := Flt.fround_between r4.1 r2.1 (le_of_lt hP.1) hP.2
        omega
    obtain ⟨u1, A, u2, B, c1, c2, c3, c4⟩ := Flt.crossing hne hb r30 (le_trans (Flt.signed_sub_le _ _ _ _) (by
      rw [show (2 : Nat) ^ 30 * 2 ^ 149 = 2 ^ 29 * 2 ^ 149 + 2 ^ 29 * 2 ^ 149 by ring]; exact Nat.add_le_add b4 b2))
    rw [hu, c1, c2]
    obtain ⟨n, hn, _⟩ := Flt.legacy_expr (u1 := u1) (u2 := u2) c3 c4 (si := s1) (sj := s3) (mi := m1) (mj := m3) b1 b3 rfl
    exact ⟨n, hn⟩
  have iff1 : ∀ P : Nat, ((decide (Flt.signed s2 m2 < (P : Int)) && (decide ((P : Int) < Flt.signed s4 m4) || decide ((P : Int) = Flt.signed s4 m4)) ||
      decide (Flt.signed s4 m4 < (P : Int)) && (decide ((P : Int) < Flt.signed s2 m2) || decide ((P : Int) = Flt.signed s2 m2))) = true) ↔
      ((Flt.signed s2 m2 < P ∧ (P : Int) ≤ Flt.signed s4 m4) ∨ (Flt.signed s4 m4 < P ∧ (P : Int) ≤ Flt.signed s2 m2)) := by
    intro P
    simp only [Bool.or_eq_true, Bool.and_eq_true, decide_eq_true_eq]
    constructor <;> intro h <;> omega
  have iff2 : ∀ P : Nat, ((decide (Flt.signed s2 m2 < (P : Int)) != decide (Flt.signed s4 m4 < (P : Int))) = true) ↔
      ((Flt.signed s2 m2 < P ∧ (P : Int) ≤ Flt.signed s4 m4) ∨ (Flt.signed s4 m4 < P ∧ (P : Int) ≤ Flt.signed s2 m2)) := by
    intro P
    simp only [bne_iff_ne, ne_eq, decide_eq_decide]
    constructor <;> intro h <;> omega
  by_cases hc : ((Flt.signed s2 m2 < ((row * 2 ^ 149 : Nat) : Int) ∧ ((row * 2 ^ 149 : Nat) : Int) ≤ Flt.signed s4 m4) ∨
      (Flt.signed s4 m4 < ((row * 2 ^ 149 : Nat) : Int) ∧ ((row * 2 ^ 149 : Nat) : Int) ≤ Flt.signed s2 m2))
  · rw [if_pos ((iff1 _).mpr hc), if_pos ((iff2 _).mpr hc)]
    obtain ⟨n, hn⟩ := key _ hc rfl
    rw [hn]
    exact ⟨nodes ++ [n], rfl, by simp⟩
  · rw [if_neg (fun h => hc ((iff1 _).mp h)), if_neg (fun h => hc ((iff2 _).mp h))]
    exact ⟨nodes, rfl, rfl⟩

theorem signed_mul (s : Bool) (n U : Nat) : Flt.signed s (n * U) = Flt.signed s n * U := by
  cases s <;> simp [Flt.signed]

theorem SmallInt.toInt {s : Bool} {n : Nat} (h : n ≤ 2 ^ 29) : (Flt.fin s (n * 2 ^ 149)).toInt = .ok (Flt.signed s n) := by
  unfold Flt.toInt
  simp only
  rw [Nat.mul_div_cancel _ (Nat.two_pow_pos _)]
  have h29 : (2 : Nat) ^ 29 = 536870912 := by norm_num
  unfold Flt.signed
  rw [if_pos]
  unfold InInt32
  split <;> omega

theorem node_ok (row : Nat) (hrow : row ≤ 2 ^ 31) (e : (Flt × Flt) × (Flt × Flt))
    (h1 : SmallInt e.1.1) (h2 : SmallInt e.1.2) (h3 : SmallInt e.2.1) (h4 : SmallInt e.2.2) (nodes : List Int) :
    ∃ nodes', node row e nodes = .ok nodes' ∧ nodes'.length ≤ nodes.length + 1 := by
  obtain ⟨⟨xi, yi⟩, ⟨xj, yj⟩⟩ := e
  obtain ⟨s1, n1, e1, r1, b1⟩ := h1
  obtain ⟨s2, n2, e2, r2, b2⟩ := h2
  obtain ⟨s3, n3, e3, r3, b3⟩ := h3
  obtain ⟨s4, n4, e4, r4, b4⟩ := h4
  simp only at e1 e2 e3 e4
  subst e1 e2 e3 e4
  unfold node
  simp only [SmallInt.toInt b2, SmallInt.toInt b4, Outcome.bind_ok]
  by_cases hc : (Flt.signed s2 n2 ≤ (row : Int) ∧ Flt.signed s4 n4 > (row : Int)) ∨ (Flt.signed s4 n4 ≤ (row : Int) ∧ Flt.signed s2 n2 > (row : Int)) ∨
      (Flt.signed s2 n2 < (row : Int) ∧ Flt.signed s4 n4 ≥ (row : Int)) ∨ (Flt.signed s4 n4 < (row : Int) ∧ Flt.signed s2 n2 ≥ (row : Int)) ∨
      (Flt.signed s2 n2 = Flt.signed s4 n4 ∧ Flt.signed s2 n2 = (row : Int))
  · rw [if_pos hc]
    by_cases hz : (((Flt.fin s4 (n4 * 2 ^ 149)).subF (.fin s2 (n2 * 2 ^ 149))).widen.feq .zero) = true
    · rw [if_pos hz]
      obtain ⟨n, hn, _⟩ := Flt.doubleToInt_le (s := s1) (m := n1 * 2 ^ 149 * 2 ^ 925) (k := n1)
        (by rw [Nat.mul_assoc, ← pow_add]) (lt_of_le_of_lt b1 (by norm_num))
      have hw : (Flt.fin s1 (n1 * 2 ^ 149)).widen = .fin s1 (n1 * 2 ^ 149 * 2 ^ 925) := rfl
      rw [hw, hn]
      exact ⟨nodes ++ [n], rfl, by simp⟩
    · rw [if_neg hz]
      have hne : Flt.signed s4 (n4 * 2 ^ 149) ≠ Flt.signed s2 (n2 * 2 ^ 149) := by
        intro he
        apply hz
        have : (Flt.fin s4 (n4 * 2 ^ 149)).subF (.fin s2 (n2 * 2 ^ 149)) = .fin (s4 && !s2) 0 := by
          unfold Flt.subF Flt.addF Flt.addWith Flt.neg
          simp only
          rw [Flt.signed_not, he, add_neg_cancel, if_pos rfl]
        rw [this]
        unfold Flt.widen Flt.feq Flt.zero Flt.signed
        simp
      have r30 : Rep32 (2 ^ 30 * 2 ^ 149) := Flt.Rep32.int (Flt.pow_rep 30) (by norm_num)
      have c1' := Nat.mul_le_mul_right (2 ^ 149) b1
      have c2' := Nat.mul_le_mul_right (2 ^ 149) b2
      have c3' := Nat.mul_le_mul_right (2 ^ 149) b3
      have c4' := Nat.mul_le_mul_right (2 ^ 149) b4
      obtain ⟨u, hu, rfl⟩ := Flt.ofInt_nat row hrow
      have hUpos : (0 : Int) ≤ ((2 ^ 149 : Nat) : Int) := Int.natCast_nonneg _
      have hb : (Flt.signed false (fround 24 (row * 2 ^ 149) 1) - Flt.signed s2 (n2 * 2 ^ 149)).natAbs ≤
          (Flt.signed s4 (n4 * 2 ^ 149) - Flt.signed s2 (n2 * 2 ^ 149)).natAbs := by
        show (((fround 24 (row * 2 ^ 149) 1 : Nat) : Int) - Flt.signed s2 (n2 * 2 ^ 149)).natAbs ≤ _
        have hcase : (Flt.signed s2 n2 ≤ row ∧ (row : Int) ≤ Flt.signed s4 n4) ∨ (Flt.signed s4 n4 ≤ row ∧ (row : Int) ≤ Flt.signed s2 n2) := by omega
        have cast : ((row * 2 ^ 149 : Nat) : Int) = (row : Int) * ((2 ^ 149 : Nat) : Int) := Nat.cast_mul _ _
        rcases hcase with ⟨ha, hb⟩ | ⟨ha, hb⟩
        · have := Flt.fround_between (sa := s2) (sb := s4) (n := row * 2 ^ 149) r2.1 r4.1
            (by rw [signed_mul, cast]; exact Int.mul_le_mul_of_nonneg_right ha hUpos)
            (by rw [signed_mul, cast]; exact Int.mul_le_mul_of_nonneg_right hb hUpos)
          omega
        · have := Flt.fround_between (sa := s4) (sb := s2) (n := row * 2 ^ 149) r4.1 r2.1
            (by rw [signed_mul, cast]; exact Int.mul_le_mul_of_nonneg_right ha hUpos)
            (by rw [signed_mul, cast]; exact Int.mul_le_mul_of_nonneg_right hb hUpos)
          omega
      obtain ⟨u1, A, u2, B, c1, c2, c3, c4⟩ := Flt.crossing hne hb r30 (le_trans (Flt.signed_sub_le _ _ _ _) (by
        rw [show (2 : Nat) ^ 30 * 2 ^ 149 = 2 ^ 29 * 2 ^ 149 + 2 ^ 29 * 2 ^ 149 by ring]; exact Nat.add_le_add c4' c2'))
      rw [hu, c1, c2]
      obtain ⟨n, hn, _⟩ := Flt.double_expr (u1 := u1) (u2 := u2) c3 c4 (si := s1) (sj := s3) (mi := n1 * 2 ^ 149) (mj := n3 * 2 ^ 149) c1' c3' rfl
      rw [hn]
      exact ⟨nodes ++ [n], rfl, by simp⟩
  · rw [if_neg hc]
    exact ⟨nodes, rfl, by omega⟩

/-- The intersections of a scan line in legacy mode. -/
theorem legacyNodes_ok (row : Nat) (hrow : row ≤ 2 ^ 31) (ps : List (Flt × Flt)) (hps : ∀ p ∈ ps, SmallCoord p.1 ∧ SmallCoord p.2) :
    ∃ nodes, Outcome.forEach (legacyNode row) (edges ps) [] = .ok nodes ∧ nodes.length % 2 = 0 ∧ nodes.length ≤ ps.length := by
  obtain ⟨nodes, h1, h2⟩ := forEach_inv (legacyNode row)
    (fun done nodes => nodes.length = done.countP fun e => below row e.1 != below row e.2) (edges ps) [] rfl
    (by
      intro done e nodes he hn
      obtain ⟨p1, p2⟩ := mem_edges ps e he
      obtain ⟨nodes', q1, q2⟩ := legacyNode_ok row hrow e (hps _ p1).1 (hps _ p1).2 (hps _ p2).1 (hps _ p2).2 nodes
      refine ⟨nodes', q1, ?_⟩
      rw [q2, hn, List.countP_append, List.countP_cons, List.countP_nil, Nat.zero_add])
  refine ⟨nodes, h1, ?_, ?_⟩
  · rw [h2]; exact edges_changes (below row) ps
  · rw [h2, ← edges_length ps]; exact List.countP_le_length

/-- The intersections of a scan line. -/
theorem nodes_ok (row : Nat) (hrow : row ≤ 2 ^ 31) (ps : List (Flt × Flt)) (hps : ∀ p ∈ ps, SmallInt p.1 ∧ SmallInt p.2) :
    ∃ nodes, Outcome.forEach (node row) (edges ps) [] = .ok nodes ∧ nodes.length ≤ ps.length := by
  obtain ⟨nodes, h1, h2⟩ := forEach_inv (node row)
    (fun done nodes => nodes.length ≤ done.length) (edges ps) [] (Nat.le_refl _)
    (by
      intro done e nodes he hn
      obtain ⟨p1, p2⟩ := mem_edges ps e he
      obtain ⟨nodes', q1, q2⟩ := node_ok row hrow e (hps _ p1).1 (hps _ p1).2 (hps _ p2).1 (hps _ p2).2 nodes
      refine ⟨nodes', q1, ?_⟩
      rw [List.length_append, List.length_singleton]
      omega)
  exact ⟨nodes, h1, by rw [← edges_length ps]; exact h2⟩

/-- One row. -/
theorem rasterRow_ok (legacy : Bool) (row w : Nat) (hrow : row ≤ 2 ^ 31) (ps : List (Flt × Flt))
    (hps : ∀ p ∈ ps, SmallCoord p.1 ∧ SmallCoord p.2) :
    ∃ spans : List (Int × Int), (∀ s ∈ spans, 0 ≤ s.1 ∧ s.2 < (w : Int)) ∧
      ∀ buf, rasterRow legacy (if legacy then ps else roundPolygon ps) w row buf =
        Outcome.forEach (fun s buf => fillSpan w row s.1 s.2 buf) spans buf := by
  cases legacy with
  | true =>
    obtain ⟨nodes, h1, h2, h3⟩ := legacyNodes_ok row hrow ps hps
    obtain ⟨l, h4, h5, h6⟩ := sortNodes_spec nodes
    refine ⟨legacySpans w l, legacySpans_range w l, fun buf => ?_⟩
    unfold rasterRow
    simp only [if_true]
    rw [h1, Outcome.bind_ok, h4, Outcome.bind_ok]
    exact legacyFill_eq w row l buf (by rw [h6.length_eq]; exact h2)
  | false =>
    have hr : ∀ p ∈ roundPolygon ps, SmallInt p.1 ∧ SmallInt p.2 := by
      intro p hp
      obtain ⟨q, hq, rfl⟩ := List.mem_map.mp hp
      exact ⟨(hps q hq).1.round, (hps q hq).2.round⟩
    obtain ⟨nodes, h1, h2⟩ := nodes_ok row hrow _ hr
    obtain ⟨l, h4, h5, h6⟩ := sortNodes_spec nodes
    refine ⟨rowSpans w l, rowSpans_range w l, fun buf => ?_⟩
    unfold rasterRow
    simp only [Bool.false_eq_true, if_false]
    rw [h1, Outcome.bind_ok, h4, Outcome.bind_ok]
    exact fillRow_eq w row l buf

theorem memsetArea_ok (buf : List UInt8) (v : UInt8) (w h : Nat) (hlen : w * h ≤ buf.length) (hsz : w * h < 2 ^ 31) :
    memsetArea buf v w h = .ok (List.replicate (w * h) v ++ buf.drop (w * h)) := by
  have h31 : (2 : Nat) ^ 31 = 2147483648 := by norm_num
  have hc : (w : Int) * h = ((w * h : Nat) : Int) := (Nat.cast_mul _ _).symm
  unfold memsetArea mul32
  rw [hc, if_pos (by unfold InInt32; omega), Outcome.bind_ok, if_pos (by omega), Int.toNat_natCast]

theorem getD_append_left' (a b : List UInt8) (k : Nat) (h : k < a.length) : (a ++ b).getD k 0 = a.getD k 0 := by
  simp [List.getD_eq_getElem?_getD, List.getElem?_append_left h]

/-- All rows, given the spans of every row. -/
theorem rasterize_spec (legacy : Bool) (ps : List (Flt × Flt)) (w h : Nat) (buf : List UInt8) (hlen : w * h ≤ buf.length)
    (hsz : w * h < 2 ^ 31) (spans : Nat → List (Int × Int))
    (hspans : ∀ row, row < h → (∀ s ∈ spans row, 0 ≤ s.1 ∧ s.2 < (w : Int)) ∧
      ∀ buf, rasterRow legacy (if legacy then ps else roundPolygon ps) w row buf =
        Outcome.forEach (fun s buf => fillSpan w row s.1 s.2 buf) (spans row) buf) :
    ∃ out, rasterize legacy ps buf w h = .ok out ∧ out.length = buf.length ∧ out.drop (w * h) = buf.drop (w * h) ∧
      ∀ i j : Nat, i < h → j < w →
        ((∃ s ∈ spans i, s.1 ≤ (j : Int) ∧ (j : Int) ≤ s.2) → out.getD (j + i * w) 0 = 1) ∧
        ((¬ ∃ s ∈ spans i, s.1 ≤ (j : Int) ∧ (j : Int) ≤ s.2) → out.getD (j + i * w) 0 = 0) := by
  unfold rasterize
  rw [memsetArea_ok buf 0 w h hlen hsz, Outcome.bind_ok, Int.toNat_natCast]
  have hl0 : (List.replicate (w * h) (0 : UInt8) ++ buf.drop (w * h)).length = buf.length := by
    rw [List.length_append, List.length_replicate, List.length_drop]; omega
  obtain ⟨out, h1, h2⟩ := forN_inv (rasterRow legacy (if legacy then ps else roundPolygon ps) w)
    (fun n out => Painted (List.replicate (w * h) 0 ++ buf.drop (w * h)) out fun k =>
      ∃ row, row < n ∧ ∃ s ∈ spans row, ((row * w : Nat) : Int) + s.1 ≤ (k : Int) ∧ (k : Int) ≤ ((row * w : Nat) : Int) + s.2)
    h (List.replicate (w * h) 0 ++ buf.drop (w * h)) ⟨rfl, fun k hk => ⟨by simp, fun _ => rfl⟩⟩
    (by
      intro i b hi hp
      obtain ⟨r1, r2⟩ := hspans i hi
      obtain ⟨out, q1, q2⟩ := spans_spec w i (spans i) r1 b (by
        rw [hp.1, hl0]
        exact le_trans (by rw [Nat.mul_comm w h]; exact Nat.mul_le_mul_right _ hi) hlen)
      refine ⟨out, by rw [r2 b]; exact q1, (hp.trans q2).congr fun k _ => ?_⟩
      constructor
      · rintro (⟨row, hr, s, hs, h⟩ | ⟨s, hs, h⟩)
        · exact ⟨row, by omega, s, hs, h⟩
        · exact ⟨i, by omega, s, hs, h⟩
      · rintro ⟨row, hr, s, hs, h⟩
        rcases Nat.lt_or_ge row i with hlt | hge
        · exact .inl ⟨row, hlt, s, hs, h⟩
        · have : row = i := by omega
          subst this
          exact .inr ⟨s, hs, h⟩)
  have hlo : out.length = buf.length := h2.1.trans hl0
  have hin : ∀ (row : Nat) (s : Int × Int) (k : Nat), row < h → s ∈ spans row → ((row * w : Nat) : Int) + s.1 ≤ (k : Int) → (k : Int) ≤ ((row * w : Nat) : Int) + s.2 →
      row * w ≤ k ∧ k < (row + 1) * w := by
    intro row s k hr hs h1 h2
    have := (hspans row hr).1 s hs
    rw [Nat.add_mul, Nat.one_mul]
    omega
  refine ⟨out, h1, hlo, ?_, ?_⟩
  · apply List.ext_getElem
    · rw [List.length_drop, List.length_drop, hlo]
    · intro k hk1 hk2
      rw [List.getElem_drop, List.getElem_drop]
      rw [List.length_drop] at hk1
      have hk : w * h + k < (List.replicate (w * h) (0 : UInt8) ++ buf.drop (w * h)).length := by rw [hl0]; omega
      have := (h2.2 (w * h + k) hk).2 (by
        rintro ⟨row, hr, s, hs, a1, a2⟩
        have := hin row s _ hr hs a1 a2
        have h4 : (row + 1) * w ≤ w * h := by rw [Nat.mul_comm w h]; exact Nat.mul_le_mul_right _ hr
        omega)
      rw [List.getD_eq_getElem?_getD, List.getD_eq_getElem?_getD, List.getElem?_eq_getElem (by omega),
        List.getElem?_eq_getElem hk, Option.getD_some, Option.getD_some] at this
      rw [this, List.getElem_append_right (by simp)]
      simp
  · intro i j hi hj
    have hlt : j + i * w < w * h := by
      have : (i + 1) * w ≤ w * h := by rw [Nat.mul_comm w h]; exact Nat.mul_le_mul_right _ hi
      rw [Nat.add_mul, Nat.one_mul] at this; omega
    obtain ⟨p1, p2⟩ := h2.2 (j + i * w) (by rw [hl0]; omega)
    have heq : (∃ row, row < h ∧ ∃ s ∈ spans row, ((row * w : Nat) : Int) + s.1 ≤ ((j + i * w : Nat) : Int) ∧ ((j + i * w : Nat) : Int) ≤ ((row * w : Nat) : Int) + s.2) ↔
        ∃ s ∈ spans i, s.1 ≤ (j : Int) ∧ (j : Int) ≤ s.2 := by
      constructor
      · rintro ⟨row, hr, s, hs, a1, a2⟩
        obtain ⟨b1, b2⟩ := hin row s _ hr hs a1 a2
        have : row = i := by
          rcases Nat.lt_trichotomy row i with hc | hc | hc
          · have : (row + 1) * w ≤ i * w := Nat.mul_le_mul_right _ hc
            omega
          · exact hc
          · have : (i + 1) * w ≤ row * w := Nat.mul_le_mul_right _ hc
            rw [Nat.add_mul, Nat.one_mul] at this
            omega
        subst this
        exact ⟨s, hs, by omega, by omega⟩
      · rintro ⟨s, hs, a1, a2⟩
        exact ⟨i, hi, s, hs, by omega, by omega⟩
    refine ⟨fun h => p1 (heq.mpr h), fun h => ?_⟩
    rw [p2 (fun h' => h (heq.mp h')), getD_append_left' _ _ _ (by rw [List.length_replicate]; exact hlt)]
    simp [List.getD_eq_getElem?_getD, hlt]

end Trax
