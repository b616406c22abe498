import Verif.Lemmas.Window

/-!
# Lemmas about rasterisation: rectangles with integer coordinates
-/

namespace Trax
open Region

namespace Flt

theorem Is.smallInt {x : Flt} {n : Int} (h : x.Is n) (hn : |n| ≤ 2 ^ 24) : SmallInt x := by
  obtain ⟨s, rfl, _⟩ := h
  obtain ⟨h1, h2⟩ := rep24_small hn
  refine ⟨s, n.natAbs, rfl, Rep32.int h1 h2, ?_⟩
  have h24 : (2 : Int) ^ 24 = 16777216 := by norm_num
  have h29 : (2 : Nat) ^ 29 = 536870912 := by norm_num
  rw [Int.abs_eq_natAbs] at hn
  omega

theorem Is.doubleToInt {x : Flt} {n : Int} (h : x.Is n) (hn : |n| ≤ 2 ^ 24) : x.widen.doubleToInt = .ok n := by
  obtain ⟨s, rfl, h1, h2⟩ := h
  have h24 : (2 : Int) ^ 24 = 16777216 := by norm_num
  rw [Int.abs_eq_natAbs] at hn
  unfold widen Flt.doubleToInt
  simp only
  rw [Nat.mul_assoc, ← pow_add, Nat.mul_div_cancel _ (Nat.two_pow_pos _)]
  have hv : (if s = true then -((n.natAbs : Nat) : Int) else ((n.natAbs : Nat) : Int)) = n := by
    cases s with
    | true =>
      have : ¬ 0 < n := fun h => by simpa using h2 h
      rw [if_pos rfl]; omega
    | false =>
      have : ¬ n < 0 := fun h => by simpa using h1 h
      rw [if_neg (by simp)]; omega
  rw [hv, if_pos (by unfold InInt32; omega)]

theorem Is.round {x : Flt} {n : Int} (h : x.Is n) : x.roundF.Is n := by
  obtain ⟨s, rfl, h1, h2⟩ := h
  refine ⟨s, ?_, h1, h2⟩
  have e : (n.natAbs * 2 ^ 149 + 2 ^ 148) / 2 ^ 149 = n.natAbs := by
    rw [Nat.mul_comm n.natAbs, Nat.mul_add_div (Nat.two_pow_pos _), Nat.div_eq_of_lt (Nat.pow_lt_pow_right (by omega) (by omega)),
      Nat.add_zero]
  unfold roundF
  simp only
  rw [e]

theorem addD_zero {x : Flt} {n : Int} (h : x.Is n) (hn : |n| ≤ 2 ^ 24) (t : Bool) :
    Flt.doubleToInt (x.widen.addD (.fin t 0)) = .ok n := by
  have hd := h.doubleToInt hn
  obtain ⟨s, rfl, h1, h2⟩ := h
  have hw : (Flt.fin s (n.natAbs * 2 ^ 149)).widen = .fin s (n.natAbs * 2 ^ 149 * 2 ^ 925) := rfl
  rw [hw] at hd ⊢
  have hrep : Rep 53 (n.natAbs * 2 ^ 149 * 2 ^ 925) :=
    ((rep24_small hn).1.scale (p' := 53) (by omega) 149).scale (Nat.le_refl _) 925
  have hlt : n.natAbs * 2 ^ 149 * 2 ^ 925 < 2 ^ 2098 := by
    rw [Nat.mul_assoc, ← pow_add, show (2 : Nat) ^ 2098 = 2 ^ 1024 * 2 ^ (149 + 925) by rw [← pow_add]]
    refine Nat.mul_lt_mul_of_pos_right (lt_trans (rep24_small hn).2 ?_) (Nat.two_pow_pos _)
    exact Nat.pow_lt_pow_right (by omega) (by omega)
  have hsig : signed t 0 = 0 := by cases t <;> rfl
  unfold addD addWith
  simp only
  rw [hsig, add_zero]
  generalize hM : n.natAbs * 2 ^ 149 * 2 ^ 925 = M at *
  by_cases h0 : signed s M = 0
  · rw [if_pos h0]
    have hM0 : M = 0 := by have := signed_natAbs s M; omega
    rw [hM0] at hd
    rw [← hd]
    unfold Flt.doubleToInt
    simp
  · rw [if_neg h0, signed_natAbs]
    have : mkDouble (decide (signed s M < 0)) M 1 = .fin s M := by
      have e := fround_exact (p := 53) (m := M) (d := 1) (by omega) hrep
      rw [Nat.mul_one] at e
      have hsg : decide (signed s M < 0) = s := by
        cases s with
        | true => simp only [signed, if_true] at h0 ⊢; exact decide_eq_true (by omega)
        | false => simp [signed]
      unfold mkDouble
      simp only
      rw [e, if_neg (not_le.mpr hlt), hsg]
    rw [this]
    exact hd

end Flt

/-- The condition of the node loop. -/
def Hit (row a b : Int) : Prop :=
  (a ≤ row ∧ b > row) ∨ (b ≤ row ∧ a > row) ∨ (a < row ∧ b ≥ row) ∨ (b < row ∧ a ≥ row) ∨ (a = b ∧ a = row)

instance (row a b : Int) : Decidable (Hit row a b) := inferInstanceAs (Decidable (_ ∨ _))

/-- An edge parallel to an axis. -/
theorem node_axis (row : Nat) (hrow : row ≤ 2 ^ 31) (xi yi xj yj : Flt) (a b c d : Int) (h1 : xi.Is a) (h2 : yi.Is b) (h3 : xj.Is c)
    (h4 : yj.Is d) (l1 : |a| ≤ 2 ^ 24) (l2 : |b| ≤ 2 ^ 24) (l4 : |d| ≤ 2 ^ 24) (haxis : a = c ∨ b = d)
    (nodes : List Int) :
    node row ((xi, yi), (xj, yj)) nodes = .ok (if Hit row b d then nodes ++ [a] else nodes) := by
  have h24 : (2 : Int) ^ 24 = 16777216 := by norm_num
  have hb : InInt32 b := by rw [Int.abs_eq_natAbs] at l2; unfold InInt32; omega
  have hd : InInt32 d := by rw [Int.abs_eq_natAbs] at l4; unfold InInt32; omega
  unfold node
  simp only [h2.toInt hb, h4.toInt hd, Outcome.bind_ok]
  by_cases hc : Hit row b d
  · have hc' := hc
    unfold Hit at hc'
    rw [if_pos hc, if_pos hc']
    by_cases hz : ((yj.subF yi).widen.feq .zero) = true
    · rw [if_pos hz, h1.doubleToInt l1]
      rfl
    · rw [if_neg hz]
      have hbd : b ≠ d := by
        rintro rfl
        apply hz
        obtain ⟨s, hs, _⟩ := h4.subF h2 (by rw [sub_self]; exact rep_of_lt (by norm_num)) (by rw [sub_self]; exact Nat.two_pow_pos _)
        rw [hs, sub_self]
        unfold Flt.widen Flt.feq Flt.zero Flt.signed
        simp
      have hac : a = c := haxis.resolve_right hbd
      subst hac
      obtain ⟨sk, hk, _⟩ := h3.subF h1 (by rw [sub_self]; exact rep_of_lt (by norm_num)) (by rw [sub_self]; exact Nat.two_pow_pos _)
      rw [sub_self, Int.natAbs_zero, Nat.zero_mul] at hk
      have si2 := h2.smallInt l2
      have si4 := h4.smallInt l4
      obtain ⟨s2, e2, p2, q2⟩ := h2
      obtain ⟨s4, e4, p4, q4⟩ := h4
      have sg2 : Flt.signed s2 b.natAbs = b := by
        have := Flt.Is.signed (n := b) p2 q2
        have hs := signed_mul s2 b.natAbs (2 ^ 149)
        rw [this] at hs
        have hU : (0 : Int) < 2 ^ 149 := by positivity
        rw [show (((2 ^ 149 : Nat) : Int)) = 2 ^ 149 from Nat.cast_pow 2 149] at hs
        exact (mul_right_cancel₀ (ne_of_gt hU) hs).symm
      have sg4 : Flt.signed s4 d.natAbs = d := by
        have := Flt.Is.signed (n := d) p4 q4
        have hs := signed_mul s4 d.natAbs (2 ^ 149)
        rw [this] at hs
        have hU : (0 : Int) < 2 ^ 149 := by positivity
        rw [show (((2 ^ 149 : Nat) : Int)) = 2 ^ 149 from Nat.cast_pow 2 149] at hs
        exact (mul_right_cancel₀ (ne_of_gt hU) hs).symm
      obtain ⟨u, hu, rfl⟩ := Flt.ofInt_nat row hrow
      have r2 : Rep32 (b.natAbs * 2 ^ 149) := Flt.Rep32.int (Flt.rep24_small l2).1 (Flt.rep24_small l2).2
      have r4 : Rep32 (d.natAbs * 2 ^ 149) := Flt.Rep32.int (Flt.rep24_small l4).1 (Flt.rep24_small l4).2
      have hUpos : (0 : Int) ≤ ((2 ^ 149 : Nat) : Int) := Int.natCast_nonneg _
      have hUne : ((2 ^ 149 : Nat) : Int) ≠ 0 := by
        have : (0 : Nat) < 2 ^ 149 := Nat.two_pow_pos _
        omega
      have hne : Flt.signed s4 (d.natAbs * 2 ^ 149) ≠ Flt.signed s2 (b.natAbs * 2 ^ 149) := by
        rw [signed_mul, signed_mul, sg2, sg4]
        intro h
        exact hbd (mul_right_cancel₀ hUne h).symm
      have hbnd : (Flt.signed false (fround 24 (row * 2 ^ 149) 1) - Flt.signed s2 (b.natAbs * 2 ^ 149)).natAbs ≤
          (Flt.signed s4 (d.natAbs * 2 ^ 149) - Flt.signed s2 (b.natAbs * 2 ^ 149)).natAbs := by
        show (((fround 24 (row * 2 ^ 149) 1 : Nat) : Int) - Flt.signed s2 (b.natAbs * 2 ^ 149)).natAbs ≤ _
        have hcase : (b ≤ row ∧ (row : Int) ≤ d) ∨ (d ≤ row ∧ (row : Int) ≤ b) := by unfold Hit at hc; omega
        have cast : ((row * 2 ^ 149 : Nat) : Int) = (row : Int) * ((2 ^ 149 : Nat) : Int) := Nat.cast_mul _ _
        rcases hcase with ⟨ha, hb⟩ | ⟨ha, hb⟩
        · have := Flt.fround_between (sa := s2) (sb := s4) (n := row * 2 ^ 149) r2.1 r4.1
            (by rw [signed_mul, cast, sg2]; exact Int.mul_le_mul_of_nonneg_right ha hUpos)
            (by rw [signed_mul, cast, sg4]; exact Int.mul_le_mul_of_nonneg_right hb hUpos)
          omega
        · have := Flt.fround_between (sa := s4) (sb := s2) (n := row * 2 ^ 149) r4.1 r2.1
            (by rw [signed_mul, cast, sg4]; exact Int.mul_le_mul_of_nonneg_right ha hUpos)
            (by rw [signed_mul, cast, sg2]; exact Int.mul_le_mul_of_nonneg_right hb hUpos)
          omega
      have r30 : Rep32 (2 ^ 30 * 2 ^ 149) := Flt.Rep32.int (Flt.pow_rep 30) (by norm_num)
      obtain ⟨u1, A, u2, B, c1, c2, c3, c4⟩ := Flt.crossing hne hbnd r30 (le_trans (Flt.signed_sub_le _ _ _ _) (by
        rw [← Nat.add_mul]
        refine Nat.mul_le_mul_right _ ?_
        have h30 : (2 : Nat) ^ 30 = 1073741824 := by norm_num
        rw [Int.abs_eq_natAbs] at l2 l4
        omega))
      have e2' : yi = .fin s2 (b.natAbs * 2 ^ 149) := e2
      have e4' : yj = .fin s4 (d.natAbs * 2 ^ 149) := e4
      rw [e2', e4', hu, c1, c2, hk]
      have hW : (0 : Nat) < 2 ^ 925 := Nat.two_pow_pos _
      have hV : (0 : Nat) < 2 ^ 1074 := Nat.two_pow_pos _
      have rV : Rep 53 (2 ^ 1074) := by
        have := (rep_of_lt (p := 53) (m := 1) (by norm_num)).scale (Nat.le_refl _) 1074
        rwa [Nat.one_mul] at this
      have bV : (2 : Nat) ^ 1074 < 2 ^ 2098 := Nat.pow_lt_pow_right (by omega) (by omega)
      have hdv : (Flt.fin u1 A).widen.divD (Flt.fin u2 B).widen = mkDouble (u1 != u2) (A * 2 ^ 925 * 2 ^ 1074) (B * 2 ^ 925) := by
        unfold Flt.divD Flt.divWith Flt.widen; simp only; rw [if_neg (Nat.mul_pos c4 hW).ne']
      obtain ⟨h6, h7⟩ := Flt.mkDouble_le (neg := (u1 != u2)) (n := A * 2 ^ 925 * 2 ^ 1074) (d := B * 2 ^ 925) (Nat.mul_pos c4 hW) rV bV (by
        rw [Nat.mul_comm]; exact Nat.mul_le_mul_left _ (Nat.mul_le_mul_right _ c3))
      rw [hdv, h6]
      generalize fround 53 (A * 2 ^ 925 * 2 ^ 1074) (B * 2 ^ 925) = q
      have hm : (Flt.fin (u1 != u2) q).mulD (Flt.fin sk 0).widen = .fin ((u1 != u2) != sk) 0 := by
        have hw : (Flt.fin sk 0).widen = .fin sk 0 := by unfold Flt.widen; simp only [Nat.zero_mul]
        have e : (Flt.fin (u1 != u2) q).mulD (Flt.fin sk 0) = mkDouble ((u1 != u2) != sk) (q * 0) (2 ^ 1074) := by
          unfold Flt.mulD Flt.mulWith; rfl
        obtain ⟨h8, h9⟩ := Flt.mkDouble_le (neg := ((u1 != u2) != sk)) (n := q * 0) (d := 2 ^ 1074) (z := 0) hV
          (rep_of_lt (Nat.two_pow_pos _)) (Nat.two_pow_pos _) (by rw [Nat.mul_zero]; exact Nat.zero_le _)
        rw [hw, e, h8, Nat.le_zero.mp h9]
      rw [hm, Flt.addD_zero h1 l1]
      rfl
  · have hc' := hc
    unfold Hit at hc'
    rw [if_neg hc, if_neg hc']

theorem sortNodes_eq {nodes l : List Int} (hp : l.Perm nodes) (hs : l.Pairwise (· ≤ ·)) : sortNodes nodes = .ok l := by
  obtain ⟨l', h1, h2, h3⟩ := sortNodes_spec nodes
  rw [h1, (h3.trans hp.symm).eq_of_pairwise' h2 hs]

/-- The four corners of a rectangle given by its extreme columns and rows. -/
structure IsRect (ps : List (Flt × Flt)) (l t r b : Int) : Prop where
  points : ∃ x0 y0 x1 y1 x2 y2 x3 y3 : Flt, ps = [(x0, y0), (x1, y1), (x2, y2), (x3, y3)] ∧
    x0.Is l ∧ y0.Is t ∧ x1.Is r ∧ y1.Is t ∧ x2.Is r ∧ y2.Is b ∧ x3.Is l ∧ y3.Is b
  bounds : |l| ≤ 2 ^ 24 ∧ |t| ≤ 2 ^ 24 ∧ |r| ≤ 2 ^ 24 ∧ |b| ≤ 2 ^ 24

theorem IsRect.round {ps : List (Flt × Flt)} {l t r b : Int} (h : IsRect ps l t r b) : IsRect (roundPolygon ps) l t r b := by
  obtain ⟨⟨x0, y0, x1, y1, x2, y2, x3, y3, rfl, h0, h1, h2, h3, h4, h5, h6, h7⟩, hb⟩ := h
  exact ⟨⟨_, _, _, _, _, _, _, _, rfl, h0.round, h1.round, h2.round, h3.round, h4.round, h5.round, h6.round, h7.round⟩, hb⟩

/-- The spans of a rectangle. -/
theorem rect_spans {ps : List (Flt × Flt)} {l t r b : Int} (h : IsRect ps l t r b) (hlr : l ≤ r) (htb : t ≤ b)
    (w row : Nat) (hrow : row ≤ 2 ^ 31) :
    ∃ spans : List (Int × Int), ((∀ s ∈ spans, 0 ≤ s.1 ∧ s.2 < (w : Int)) ∧
      ∀ buf, rasterRow false ps w row buf = Outcome.forEach (fun s buf => fillSpan w row s.1 s.2 buf) spans buf) ∧
      ∀ j : Nat, j < w → ((∃ s ∈ spans, s.1 ≤ (j : Int) ∧ (j : Int) ≤ s.2) ↔ (l ≤ (j : Int) ∧ (j : Int) ≤ r) ∧ (t ≤ (row : Int) ∧ (row : Int) ≤ b)) := by
  obtain ⟨⟨x0, y0, x1, y1, x2, y2, x3, y3, rfl, h0, h1, h2, h3, h4, h5, h6, h7⟩, b1, b2, b3, b4⟩ := h
  have he : edges [(x0, y0), (x1, y1), (x2, y2), (x3, y3)] =
      [((x0, y0), (x3, y3)), ((x1, y1), (x0, y0)), ((x2, y2), (x1, y1)), ((x3, y3), (x2, y2))] := rfl
  suffices ∃ nodes srt : List Int, Outcome.forEach (node row) (edges [(x0, y0), (x1, y1), (x2, y2), (x3, y3)]) [] = .ok nodes ∧
      sortNodes nodes = .ok srt ∧ ∀ j : Nat, j < w → ((∃ s ∈ rowSpans w srt, s.1 ≤ (j : Int) ∧ (j : Int) ≤ s.2) ↔
        (l ≤ (j : Int) ∧ (j : Int) ≤ r) ∧ (t ≤ (row : Int) ∧ (row : Int) ≤ b)) by
    obtain ⟨nodes, srt, a1, a2, a3⟩ := this
    refine ⟨rowSpans w srt, ⟨rowSpans_range w srt, fun buf => ?_⟩, a3⟩
    unfold rasterRow
    simp only [Bool.false_eq_true, if_false]
    rw [a1, Outcome.bind_ok, a2, Outcome.bind_ok]
    exact fillRow_eq w row srt buf
  rw [he]
  simp only [Outcome.forEach, node_axis row hrow x0 y0 x3 y3 l t l b h0 h1 h6 h7 b1 b2 b4 (.inl rfl), Outcome.bind_ok,
    node_axis row hrow x1 y1 x0 y0 r t l t h2 h3 h0 h1 b3 b2 b2 (.inr rfl),
    node_axis row hrow x2 y2 x1 y1 r b r t h4 h5 h2 h3 b3 b4 b2 (.inl rfl),
    node_axis row hrow x3 y3 x2 y2 l b r b h6 h7 h4 h5 b1 b4 b4 (.inr rfl)]
  have span : ∀ j : Nat, j < w → ((∃ s ∈ rowSpans w [l, r], s.1 ≤ (j : Int) ∧ (j : Int) ≤ s.2) ↔ (l ≤ (j : Int) ∧ (j : Int) ≤ r)) := by
    intro j hj
    rw [rowSpans]
    by_cases c1 : l ≥ (w : Int)
    · rw [if_pos c1]; simp; omega
    · rw [if_neg c1, if_neg (by simp)]
      by_cases c2 : r ≥ 0
      · rw [if_pos c2, rowSpans]
        · simp only [List.mem_singleton, exists_eq_left]
          split <;> split <;> omega
        · simp
      · rw [if_neg c2, rowSpans]
        · simp; omega
        · simp
  have span3 : ∀ j : Nat, j < w → ((∃ s ∈ rowSpans w [l, r, r], s.1 ≤ (j : Int) ∧ (j : Int) ≤ s.2) ↔ (l ≤ (j : Int) ∧ (j : Int) ≤ r)) := by
    intro j hj
    rw [rowSpans]
    by_cases c1 : l ≥ (w : Int)
    · rw [if_pos c1]; simp; omega
    · rw [if_neg c1]
      by_cases c3 : l = r
      · subst c3
        rw [if_pos ⟨rfl, by simp⟩]
        exact span j hj
      · rw [if_neg (fun h => c3 h.1)]
        by_cases c2 : r ≥ 0
        · rw [if_pos c2, rowSpans]
          · simp only [List.mem_singleton, exists_eq_left]
            split <;> split <;> omega
          · simp
        · rw [if_neg c2, rowSpans]
          · simp; omega
          · simp
  have llr : ∀ rest : List Int, rest ≠ [] → ∀ j : Nat, j < w → ((∃ s ∈ rowSpans w (l :: l :: rest), s.1 ≤ (j : Int) ∧ (j : Int) ≤ s.2) ↔
      (l < (w : Int) ∧ ∃ s ∈ rowSpans w (l :: rest), s.1 ≤ (j : Int) ∧ (j : Int) ≤ s.2)) := by
    intro rest hrest j hj
    rw [rowSpans]
    by_cases c1 : l ≥ (w : Int)
    · rw [if_pos c1]; simp; omega
    · rw [if_neg c1, if_pos ⟨rfl, hrest⟩]
      exact ⟨fun h => ⟨by omega, h⟩, fun h => h.2⟩
  by_cases ht : (row : Int) < t
  · refine ⟨[], [], ?_, sortNodes_eq (List.Perm.refl _) (by simp), ?_⟩
    · rw [if_neg (by unfold Hit; omega), if_neg (by unfold Hit; omega), if_neg (by unfold Hit; omega), if_neg (by unfold Hit; omega)]
    · intro j hj; simp [rowSpans]; omega
  by_cases hb : b < (row : Int)
  · refine ⟨[], [], ?_, sortNodes_eq (List.Perm.refl _) (by simp), ?_⟩
    · rw [if_neg (by unfold Hit; omega), if_neg (by unfold Hit; omega), if_neg (by unfold Hit; omega), if_neg (by unfold Hit; omega)]
    · intro j hj; simp [rowSpans]; omega
  rw [if_pos (show Hit row t b by unfold Hit; omega), if_pos (show Hit row b t by unfold Hit; omega)]
  by_cases c1 : t = (row : Int)
  · rw [if_pos (show Hit row t t by unfold Hit; omega)]
    by_cases c2 : b = (row : Int)
    · rw [if_pos (show Hit row b b by unfold Hit; omega)]
      refine ⟨_, [l, l, r, r], rfl, sortNodes_eq ?_ (by simp [hlr]), ?_⟩
      · show List.Perm [l, l, r, r] [l, r, r, l]
        exact (List.perm_append_comm (l₁ := [l]) (l₂ := [r, r])).cons l
      · intro j hj
        rw [llr [r, r] (by simp) j hj, span3 j hj]
        omega
    · rw [if_neg (show ¬ Hit row b b by unfold Hit; omega)]
      refine ⟨_, [l, r, r], rfl, sortNodes_eq (List.Perm.refl _) (by simp [hlr]), ?_⟩
      intro j hj
      rw [span3 j hj]
      omega
  · rw [if_neg (show ¬ Hit row t t by unfold Hit; omega)]
    by_cases c2 : b = (row : Int)
    · rw [if_pos (show Hit row b b by unfold Hit; omega)]
      refine ⟨_, [l, l, r], rfl, sortNodes_eq ?_ (by simp [hlr]), ?_⟩
      · exact (List.perm_append_comm (l₁ := [l]) (l₂ := [r])).cons l
      · intro j hj
        rw [llr [r] (by simp) j hj, span j hj]
        omega
    · rw [if_neg (show ¬ Hit row b b by unfold Hit; omega)]
      refine ⟨_, [l, r], rfl, sortNodes_eq (List.Perm.refl _) (by simp [hlr]), ?_⟩
      intro j hj
      rw [span j hj]
      omega

/-- The window of a rectangle. -/
theorem rasterize_rect {ps : List (Flt × Flt)} {l t r b : Int} (hr : IsRect (roundPolygon ps) l t r b) (hlr : l ≤ r) (htb : t ≤ b)
    (w h : Nat) (buf : List UInt8) (hlen : w * h ≤ buf.length) (hsz : w * h < 2 ^ 31) (hh : h < 2 ^ 31) :
    ∃ out, rasterize false ps buf w h = .ok out ∧ out.length = buf.length ∧ out.drop (w * h) = buf.drop (w * h) ∧
      ∀ i j : Nat, i < h → j < w → out.getD (j + i * w) 0 = if (l ≤ (j : Int) ∧ (j : Int) ≤ r) ∧ (t ≤ (i : Int) ∧ (i : Int) ≤ b) then 1 else 0 := by
  classical
  have hrow : ∀ row, ∃ spans : List (Int × Int), row < h → (((∀ s ∈ spans, 0 ≤ s.1 ∧ s.2 < (w : Int)) ∧
      ∀ buf, rasterRow false (if false = true then ps else roundPolygon ps) w row buf = Outcome.forEach (fun s buf => fillSpan w row s.1 s.2 buf) spans buf) ∧
      ∀ j : Nat, j < w → ((∃ s ∈ spans, s.1 ≤ (j : Int) ∧ (j : Int) ≤ s.2) ↔ (l ≤ (j : Int) ∧ (j : Int) ≤ r) ∧ (t ≤ (row : Int) ∧ (row : Int) ≤ b))) := by
    intro row
    by_cases hrw : row < h
    · obtain ⟨spans, h1⟩ := rect_spans hr hlr htb w row (by omega)
      exact ⟨spans, fun _ => h1⟩
    · exact ⟨[], fun h => absurd h hrw⟩
  choose spans hspans using hrow
  obtain ⟨out, h1, h2, h3, h4⟩ := rasterize_spec false ps w h buf hlen hsz spans (fun row hrw => (hspans row hrw).1)
  refine ⟨out, h1, h2, h3, fun i j hi hj => ?_⟩
  have hiff := (hspans i hi).2 j hj
  by_cases hc : (l ≤ (j : Int) ∧ (j : Int) ≤ r) ∧ (t ≤ (i : Int) ∧ (i : Int) ≤ b)
  · rw [if_pos hc]; exact (h4 i j hi hj).1 (hiff.mpr hc)
  · rw [if_neg hc]; exact (h4 i j hi hj).2 fun h => hc (hiff.mp h)

end Trax
