import Verif.Lemmas.Bounds
import Verif.Spec.Polygon

/-!
# Lemmas about the test whether a point is in a polygon
-/

namespace Trax
open Spec

namespace Flt

theorem Is.mulF {x y : Flt} {m n : Int} (hx : x.Is m) (hy : y.Is n) (hr : Rep 24 (m * n).natAbs)
    (hb : (m * n).natAbs < 2 ^ 128) : (x.mulF y).Is (m * n) := by
  obtain ⟨s, rfl, h1, h2⟩ := hx
  obtain ⟨t, rfl, h3, h4⟩ := hy
  unfold Flt.mulF mulWith
  dsimp only
  have e : m.natAbs * 2 ^ 149 * (n.natAbs * 2 ^ 149) = (m * n).natAbs * 2 ^ 149 * 2 ^ 149 := by
    rw [Int.natAbs_mul]
    generalize (2 ^ 149 : Nat) = U
    ring
  rw [e, mkFloat_exact (Nat.two_pow_pos _) (Rep32.int hr hb)]
  refine ⟨_, rfl, ?_, ?_⟩
  · intro h
    rcases Int.lt_trichotomy m 0 with hm | hm | hm
    · have hn : 0 < n := by
        by_contra hc
        have := Int.mul_nonneg_of_nonpos_of_nonpos (Int.le_of_lt hm) (Int.not_lt.mp hc)
        omega
      rw [h1 hm, h4 hn]; rfl
    · rw [hm] at h; simp at h
    · have hn : n < 0 := by
        by_contra hc
        have := Int.mul_nonneg (Int.le_of_lt hm) (Int.not_lt.mp hc)
        omega
      rw [h2 hm, h3 hn]; rfl
  · intro h
    rcases Int.lt_trichotomy m 0 with hm | hm | hm
    · have hn : n < 0 := by
        by_contra hc
        have := Int.mul_nonpos_of_nonpos_of_nonneg (Int.le_of_lt hm) (Int.not_lt.mp hc)
        omega
      rw [h1 hm, h3 hn]; rfl
    · rw [hm] at h; simp at h
    · have hn : 0 < n := by
        by_contra hc
        have := Int.mul_nonpos_of_nonneg_of_nonpos (Int.le_of_lt hm) (Int.not_lt.mp hc)
        omega
      rw [h2 hm, h4 hn]; rfl

theorem Is.divF {x y : Flt} {m n : Int} (hx : x.Is m) (hy : y.Is n) (hn : n ≠ 0) (hb : m.natAbs ≤ 2 ^ 24) :
    Nearest ((m : ℚ) / n) (x.divF y) := by
  have hvx := hx.value
  have hvy := hy.value
  obtain ⟨s, rfl, h1, h2⟩ := hx
  obtain ⟨t, rfl, h3, h4⟩ := hy
  have hnp : 0 < n.natAbs := Int.natAbs_pos.mpr hn
  have hd : 0 < n.natAbs * 2 ^ 149 := Nat.mul_pos hnp (Nat.two_pow_pos _)
  unfold Flt.divF divWith
  dsimp only
  rw [if_neg (by omega)]
  have hbound : m.natAbs * 2 ^ 149 * 2 ^ 149 ≤ (2 ^ 24 - 1) * 2 ^ 253 * (n.natAbs * 2 ^ 149) := by
    have e1 : (2 ^ 24 - 1) * 2 ^ 253 * (n.natAbs * 2 ^ 149) = (2 ^ 24 - 1) * 2 ^ 253 * n.natAbs * 2 ^ 149 := by
      generalize (2 ^ 253 : Nat) = V
      generalize (2 ^ 149 : Nat) = U
      ring
    rw [e1]
    refine Nat.mul_le_mul_right _ ?_
    have e2 : (2 : Nat) ^ 253 = 2 ^ 104 * 2 ^ 149 := by rw [← pow_add]
    rw [e2]
    have e3 : (2 ^ 24 - 1) * (2 ^ 104 * 2 ^ 149) * n.natAbs = (2 ^ 24 - 1) * 2 ^ 104 * n.natAbs * 2 ^ 149 := by
      generalize (2 ^ 149 : Nat) = U
      generalize (2 ^ 104 : Nat) = V
      ring
    rw [e3]
    refine Nat.mul_le_mul_right _ ?_
    have e4 : (2 ^ 24 - 1) * 2 ^ 104 ≤ (2 ^ 24 - 1) * 2 ^ 104 * n.natAbs := Nat.le_mul_of_pos_right _ hnp
    have e5 : (2 : Nat) ^ 24 ≤ (2 ^ 24 - 1) * 2 ^ 104 := by decide
    omega
  have := mkFloat_nearest (neg := s != t) hd hbound
  have hq : ((if (s != t) = true then (-1 : ℚ) else 1) * (((m.natAbs * 2 ^ 149 * 2 ^ 149 : Nat) : ℚ) / ((n.natAbs * 2 ^ 149 : Nat) * 2 ^ 149)))
      = (m : ℚ) / n := by
    have hU : ((2 ^ 149 : Nat) : ℚ) ≠ 0 := by
      have := Nat.two_pow_pos 149
      exact_mod_cast this.ne'
    have hU' : ((2 : ℚ) ^ 149) = ((2 ^ 149 : Nat) : ℚ) := (Nat.cast_pow 2 149).symm
    rw [hU']
    generalize (2 ^ 149 : Nat) = U at hU
    have hm' : (m : ℚ) = (if s then (-1 : ℚ) else 1) * m.natAbs := by
      rcases Int.lt_trichotomy m 0 with hm | hm | hm
      · rw [h1 hm]
        have : m = -(m.natAbs : Int) := by omega
        conv_lhs => rw [this]
        push_cast; simp
      · subst hm; simp
      · rw [h2 hm]
        have : m = (m.natAbs : Int) := by omega
        conv_lhs => rw [this]
        push_cast; simp
    have hn' : (n : ℚ) = (if t then (-1 : ℚ) else 1) * n.natAbs := by
      rcases Int.lt_trichotomy n 0 with hm | hm | hm
      · rw [h3 hm]
        have : n = -(n.natAbs : Int) := by omega
        conv_lhs => rw [this]
        push_cast; simp
      · exact absurd hm hn
      · rw [h4 hm]
        have : n = (n.natAbs : Int) := by omega
        conv_lhs => rw [this]
        push_cast; simp
    rw [hm', hn']
    have hnq : (n.natAbs : ℚ) ≠ 0 := by exact_mod_cast hnp.ne'
    push_cast
    cases s <;> cases t <;> simp <;> field_simp
  rw [hq] at this
  exact this

/-- Multiples of 2^-12 below 4096 are single precision numbers. -/
theorem exists_grid (k : Int) (hk : k.natAbs < 2 ^ 24) : ∃ z : Flt, z.IsFloat ∧ z.IsFinite ∧ z.value = (k : ℚ) / 2 ^ 12 := by
  refine ⟨.fin (decide (k < 0)) (k.natAbs * 2 ^ 137), ?_, trivial, ?_⟩
  · refine ⟨(rep_of_lt hk).scale (Nat.le_refl _) 137, ?_⟩
    have : (2 : Nat) ^ 277 = 2 ^ 140 * 2 ^ 137 := by rw [← pow_add]
    rw [this]
    exact Nat.mul_lt_mul_of_pos_right (Nat.lt_trans hk (Nat.pow_lt_pow_right (by omega) (by omega))) (Nat.two_pow_pos _)
  · rw [value_fin]
    have e : ((2 : ℚ) ^ 149) = 2 ^ 12 * 2 ^ 137 := by rw [← pow_add]
    rw [e]
    have hp : ((2 : ℚ) ^ 137) ≠ 0 := by positivity
    have hs : ((signed (decide (k < 0)) (k.natAbs * 2 ^ 137) : Int) : ℚ) = (k : ℚ) * 2 ^ 137 := by
      unfold signed
      by_cases h : k < 0
      · simp only [h, decide_true, if_true]
        have : (k.natAbs : Int) = -k := by omega
        push_cast
        rw [abs_of_neg (show (k : ℚ) < 0 by exact_mod_cast h)]
        ring
      · simp only [h, decide_false, Bool.false_eq_true, if_false]
        push_cast
        rw [abs_of_nonneg (show (0 : ℚ) ≤ k by exact_mod_cast Int.not_lt.mp h)]
        ring
    rw [hs, mul_div_mul_right _ _ hp]

end Flt

/-- The comparison of the code with the position of a side: exact for whole numbers of this size. -/
theorem crossing_exact {fxi fyi fxj fyj fx fy : Flt} {xi yi xj yj x y : Int} (hxi : fxi.Is xi) (hyi : fyi.Is yi) (hxj : fxj.Is xj)
    (hyj : fyj.Is yj) (hx : fx.Is x) (hy : fy.Is y) (lo : Int) (hlo : -4095 ≤ lo ∧ lo ≤ 0)
    (b1 : lo ≤ xi ∧ xi ≤ lo + 4095) (b2 : lo ≤ yi ∧ yi ≤ lo + 4095) (b3 : lo ≤ xj ∧ xj ≤ lo + 4095) (b4 : lo ≤ yj ∧ yj ≤ lo + 4095)
    (b5 : lo ≤ x ∧ x ≤ lo + 4095) (b6 : lo ≤ y ∧ y ≤ lo + 4095) (hne : yj - yi ≠ 0) (hin : (yi > y) ≠ (yj > y)) :
    fx.lt ((((fxj.subF fxi).mulF (fy.subF fyi)).divF (fyj.subF fyi)).addF fxi) = true ↔
      (x : ℚ) < xi + ((xj - xi : Int) : ℚ) * ((y - yi : Int) : ℚ) / ((yj - yi : Int) : ℚ) := by
  have small : ∀ k : Int, |k| ≤ 4095 * 4095 → Rep 24 k.natAbs ∧ k.natAbs < 2 ^ 128 := fun k hk =>
    Flt.rep24_small (le_trans hk (by norm_num))
  have hsmall : ∀ k : Int, -4095 ≤ k → k ≤ 4095 → Rep 24 k.natAbs ∧ k.natAbs < 2 ^ 128 := fun k h1 h2 =>
    small k (by rw [abs_le]; omega)
  have s1 := hxj.subF hxi (hsmall _ (by omega) (by omega)).1 (hsmall _ (by omega) (by omega)).2
  have s2 := hy.subF hyi (hsmall _ (by omega) (by omega)).1 (hsmall _ (by omega) (by omega)).2
  have s3 := hyj.subF hyi (hsmall _ (by omega) (by omega)).1 (hsmall _ (by omega) (by omega)).2
  have hab : |(xj - xi) * (y - yi)| ≤ 4095 * 4095 := by
    rw [abs_mul]
    exact mul_le_mul (by rw [abs_le]; omega) (by rw [abs_le]; omega) (abs_nonneg _) (by norm_num)
  have s4 := s1.mulF s2 (small _ hab).1 (small _ hab).2
  have hnum : ((xj - xi) * (y - yi)).natAbs ≤ 2 ^ 24 := by
    have : (2 : Nat) ^ 24 = 16777216 := by norm_num
    have := abs_le.mp hab
    omega
  have hq := s4.divF s3 hne hnum
  generalize hdef : ((fxj.subF fxi).mulF (fy.subF fyi)).divF (fyj.subF fyi) = q at *
  generalize hA : xj - xi = A at *
  generalize hB : y - yi = B at *
  generalize hC : yj - yi = C at *
  have hCq : ((C : Int) : ℚ) ≠ 0 := by exact_mod_cast hne
  -- the quotient lies between 0 and 1 times A
  have hAbs : |((A * B : Int) : ℚ) / C| ≤ 4095 := by
    rw [abs_div, div_le_iff₀ (abs_pos.mpr hCq)]
    have hBC : |B| ≤ |C| := by
      rw [ne_eq, eq_iff_iff] at hin
      rcases lt_or_ge 0 C with h | h
      · rw [abs_of_pos h, abs_le]; omega
      · rw [abs_of_nonpos h, abs_le]; omega
    have hA4 : |A| ≤ 4095 := by rw [abs_le]; omega
    have : |A * B| ≤ 4095 * |C| := by
      rw [abs_mul]
      exact mul_le_mul hA4 hBC (abs_nonneg _) (by norm_num)
    exact_mod_cast this
  obtain ⟨hl, hu⟩ := abs_le.mp hAbs
  -- the rounded quotient stays in range
  obtain ⟨zu, zu1, zu2, zu3⟩ := Flt.exists_grid (4095 * 4096) (by norm_num)
  obtain ⟨zl, zl1, zl2, zl3⟩ := Flt.exists_grid (-(4095 * 4096)) (by norm_num)
  have zu4 : zu.value = 4095 := by rw [zu3]; norm_num
  have zl4 : zl.value = -4095 := by rw [zl3]; norm_num
  have qu := Flt.Nearest.le hq zu1 zu2 (by rw [zu4]; exact hu)
  have ql := Flt.Nearest.ge hq zl1 zl2 (by rw [zl4]; exact hl)
  have hxiq : (-4095 : ℚ) ≤ xi ∧ (xi : ℚ) ≤ 4095 := by
    constructor <;> norm_cast <;> omega
  have hmax : (8190 : ℚ) ≤ Flt.fltMax.value := by
    have h1 := Flt.ofInt_small (n := 8190) (by norm_num)
    have h2 := Flt.abs_le_fltMax (x := Flt.ofInt 8190) (h1.isFloat (small 8190 (by norm_num)).1 (small 8190 (by norm_num)).2)
    rw [h1.value] at h2
    exact le_trans (by norm_num) h2
  have hsum := Flt.addF_nearest (a := q) (b := fxi) hq.2.1 hxi.finite (by
    rw [hxi.value, abs_le]
    constructor <;> linarith [hxiq.1, hxiq.2])
  rw [hxi.value] at hsum
  rw [Flt.lt_iff hx.finite hsum.2.1, hx.value]
  have hdq : ((A * B : Int) : ℚ) / C = (A : ℚ) * B / C := by push_cast; rfl
  rw [← hdq]
  constructor
  · intro h
    by_contra hc
    have hc' : ((A * B : Int) : ℚ) / C ≤ ((x - xi : Int) : ℚ) := by push_cast at hc ⊢; linarith
    obtain ⟨zd, d1, d2, d3⟩ := Flt.exists_grid ((x - xi) * 4096) (by omega)
    have d4 : zd.value = ((x - xi : Int) : ℚ) := by rw [d3]; push_cast; ring
    have hle := Flt.Nearest.le hq d1 d2 (by rw [d4]; exact hc')
    obtain ⟨ze, e1, e2, e3⟩ := Flt.exists_grid (x * 4096) (by omega)
    have e4 : ze.value = (x : ℚ) := by rw [e3]; push_cast; ring
    have hle2 := Flt.Nearest.le hsum e1 e2 (by rw [e4]; rw [d4] at hle; push_cast at hle; linarith)
    rw [e4] at hle2
    linarith
  · intro h
    have hc' : ((x - xi : Int) : ℚ) < ((A * B : Int) : ℚ) / C := by push_cast at h ⊢; linarith
    have hgap : ((x - xi : Int) : ℚ) + 1 / 2 ^ 12 ≤ ((A * B : Int) : ℚ) / C := by
      have hC4 : -4095 ≤ C ∧ C ≤ 4095 := by omega
      rcases lt_or_gt_of_ne hne with hneg | hpos
      · have hCn : ((C : Int) : ℚ) < 0 := by exact_mod_cast hneg
        rw [lt_div_iff_of_neg hCn] at hc'
        rw [le_div_iff_of_neg hCn]
        have h1 : A * B < (x - xi) * C := by exact_mod_cast hc'
        have h2 : A * B + 1 ≤ (x - xi) * C := h1
        have h3 : ((A * B : Int) : ℚ) + 1 ≤ ((x - xi : Int) : ℚ) * C := by exact_mod_cast h2
        have h4 : (-4095 : ℚ) ≤ C := by exact_mod_cast hC4.1
        linarith
      · have hCp : (0 : ℚ) < C := by exact_mod_cast hpos
        rw [lt_div_iff₀ hCp] at hc'
        rw [le_div_iff₀ hCp]
        have h1 : (x - xi) * C < A * B := by exact_mod_cast hc'
        have h2 : (x - xi) * C + 1 ≤ A * B := h1
        have h3 : ((x - xi : Int) : ℚ) * C + 1 ≤ ((A * B : Int) : ℚ) := by exact_mod_cast h2
        have h4 : (C : ℚ) ≤ 4095 := by exact_mod_cast hC4.2
        linarith
    obtain ⟨zd, d1, d2, d3⟩ := Flt.exists_grid ((x - xi) * 4096 + 1) (by omega)
    have d4 : zd.value = ((x - xi : Int) : ℚ) + 1 / 2 ^ 12 := by rw [d3]; push_cast; ring
    have hge := Flt.Nearest.ge hq d1 d2 (by rw [d4]; exact hgap)
    obtain ⟨ze, e1, e2, e3⟩ := Flt.exists_grid (x * 4096 + 1) (by omega)
    have e4 : ze.value = (x : ℚ) + 1 / 2 ^ 12 := by rw [e3]; push_cast; ring
    have hge2 := Flt.Nearest.ge hsum e1 e2 (by rw [e4]; rw [d4] at hge; push_cast at hge; linarith)
    rw [e4] at hge2
    have : (0 : ℚ) < 1 / 2 ^ 12 := by positivity
    linarith

/-- The pairs the code goes through, with the previous point second, are the sides of the polygon. -/
theorem zip_sides {R : (Flt × Flt) → (Int × Int) → Prop} {ps : List (Flt × Flt)} {cs : List (Int × Int)} (h : List.Forall₂ R ps cs)
    (prev : Flt × Flt) (prev' : Int × Int) (hp : R prev prev') :
    List.Forall₂ (fun e s => R e.2 s.1 ∧ R e.1 s.2) (ps.zip (prev :: ps.dropLast)) (sidesFrom prev' cs) := by
  induction h generalizing prev prev' with
  | nil => exact .nil
  | @cons a b l1 l2 hab hl ih =>
    cases hl with
    | nil => exact .cons ⟨hp, hab⟩ .nil
    | cons h1 h2 =>
      have := ih a b hab
      rw [List.dropLast_cons_cons, List.zip_cons_cons]
      exact .cons ⟨hp, hab⟩ this

theorem forall2_getLast {α β : Type} {R : α → β → Prop} {ps : List α} {cs : List β} (h : List.Forall₂ R ps cs) :
    (ps.getLast? = none ∧ cs.getLast? = none) ∨ ∃ a b, ps.getLast? = some a ∧ cs.getLast? = some b ∧ R a b := by
  induction h with
  | nil => exact .inl ⟨rfl, rfl⟩
  | @cons a b l1 l2 hab hl ih =>
    right
    cases hl with
    | nil => exact ⟨a, b, rfl, rfl, hab⟩
    | cons h1 h2 =>
      rcases ih with ⟨h, _⟩ | ⟨a', b', e1, e2, e3⟩
      · simp at h
      · exact ⟨a', b', by rw [List.getLast?_cons_cons]; exact e1, by rw [List.getLast?_cons_cons]; exact e2, e3⟩

theorem forall2_countP {α β : Type} {R : α → β → Prop} {ps : List α} {cs : List β} (h : List.Forall₂ R ps cs) (p : α → Bool) (q : β → Bool)
    (hpq : ∀ a b, R a b → p a = q b) : ps.countP p = cs.countP q := by
  induction h with
  | nil => rfl
  | cons hab _ ih => rw [List.countP_cons, List.countP_cons, ih, hpq _ _ hab]

/-- The two ends of a side may be swapped. -/
theorem meets_swap (a b : Int × Int) (y : Int) (h : a.2 ≠ b.2) : meets (b, a) y = meets (a, b) y := by
  unfold meets
  have h1 : (a.2 : ℚ) - b.2 ≠ 0 := sub_ne_zero.mpr (by exact_mod_cast h)
  have h2 : (b.2 : ℚ) - a.2 ≠ 0 := sub_ne_zero.mpr (by exact_mod_cast h.symm)
  have h3 : (a.2 : ℚ) - b.2 = -(b.2 - a.2) := by ring
  dsimp only
  rw [h3]
  field_simp
  ring

theorem foldl_toggle {α : Type} (p : α → Bool) (l : List α) (c : Bool) :
    l.foldl (fun c e => if p e then !c else c) c = (c != decide (Odd (l.countP p))) := by
  induction l generalizing c with
  | nil => simp
  | cons a l ih =>
    rw [List.foldl_cons, ih, List.countP_cons]
    cases h : p a
    · simp
    · simp only [if_true, Nat.odd_add_one]
      by_cases ho : Odd (l.countP p) <;> simp [ho]

theorem pointInPolygon_eq (lo : Int) (hlo : -4095 ≤ lo ∧ lo ≤ 0) (cs : List (Int × Int)) (x y : Int) (ps : List (Flt × Flt)) (fx fy : Flt)
    (hps : List.Forall₂ (fun p c => p.1.Is c.1 ∧ p.2.Is c.2) ps cs) (hx : fx.Is x) (hy : fy.Is y)
    (hc : ∀ c ∈ cs, lo ≤ c.1 ∧ c.1 ≤ lo + 4095 ∧ lo ≤ c.2 ∧ c.2 ≤ lo + 4095)
    (bx : lo ≤ x ∧ x ≤ lo + 4095) (by' : lo ≤ y ∧ y ≤ lo + 4095) :
    Region.pointInPolygon ps fx fy = decide (InPolygon cs x y) := by
  have hps' : List.Forall₂ (fun (p : Flt × Flt) (c : Int × Int) => (p.1.Is c.1 ∧ p.2.Is c.2) ∧
      lo ≤ c.1 ∧ c.1 ≤ lo + 4095 ∧ lo ≤ c.2 ∧ c.2 ≤ lo + 4095) ps cs := by
    clear hx hy
    induction hps with
    | nil => exact .nil
    | cons h _ ih =>
      exact .cons ⟨h, hc _ List.mem_cons_self⟩ (ih fun c hm => hc c (List.mem_cons_of_mem _ hm))
  have hst : ∀ e : (Flt × Flt) × (Flt × Flt), ∀ s : (Int × Int) × (Int × Int),
      (((e.2.1.Is s.1.1 ∧ e.2.2.Is s.1.2) ∧ lo ≤ s.1.1 ∧ s.1.1 ≤ lo + 4095 ∧ lo ≤ s.1.2 ∧ s.1.2 ≤ lo + 4095) ∧
       ((e.1.1.Is s.2.1 ∧ e.1.2.Is s.2.2) ∧ lo ≤ s.2.1 ∧ s.2.1 ≤ lo + 4095 ∧ lo ≤ s.2.2 ∧ s.2.2 ≤ lo + 4095)) →
      ((fy.lt e.1.2 != fy.lt e.2.2) &&
        fx.lt ((((e.2.1.subF e.1.1).mulF (fy.subF e.1.2)).divF (e.2.2.subF e.1.2)).addF e.1.1)) = decide (Crosses x y s) := by
    rintro ⟨⟨fxi, fyi⟩, ⟨fxj, fyj⟩⟩ ⟨⟨xj, yj⟩, ⟨xi, yi⟩⟩ ⟨⟨⟨hxj, hyj⟩, bj⟩, ⟨⟨hxi, hyi⟩, bi⟩⟩
    dsimp only at *
    have li : fy.lt fyi = decide (y < yi) := by
      rw [Bool.eq_iff_iff, Flt.lt_iff hy.finite hyi.finite, hy.value, hyi.value, decide_eq_true_eq]; norm_cast
    have lj : fy.lt fyj = decide (y < yj) := by
      rw [Bool.eq_iff_iff, Flt.lt_iff hy.finite hyj.finite, hy.value, hyj.value, decide_eq_true_eq]; norm_cast
    by_cases hin : (yi > y) = (yj > y)
    · have h1 : (fy.lt fyi != fy.lt fyj) = false := by
        rw [li, lj]
        have : decide (y < yi) = decide (y < yj) := by rw [decide_eq_decide]; exact iff_of_eq hin
        rw [this]; simp
      rw [h1, Bool.false_and, eq_comm, decide_eq_false_iff_not]
      rintro ⟨h, _⟩
      rw [eq_iff_iff] at hin
      dsimp only at h
      omega
    · have hin' := hin
      rw [eq_iff_iff] at hin'
      have hne : yj - yi ≠ 0 := by
        intro h; apply hin'; constructor <;> intro _ <;> omega
      have h1 : (fy.lt fyi != fy.lt fyj) = true := by
        rw [li, lj]
        simp only [bne_iff_ne, ne_eq, decide_eq_decide]
        exact hin'
      rw [h1, Bool.true_and, Bool.eq_iff_iff, decide_eq_true_eq,
        crossing_exact hxi hyi hxj hyj hx hy lo hlo ⟨bi.1, bi.2.1⟩ bi.2.2 ⟨bj.1, bj.2.1⟩ bj.2.2 bx by' hne hin]
      have hm := meets_swap (xi, yi) (xj, yj) y (by dsimp only; omega)
      have hm' : meets ((xi, yi), (xj, yj)) y = xi + ((xj - xi : Int) : ℚ) * ((y - yi : Int) : ℚ) / ((yj - yi : Int) : ℚ) := by
        unfold meets; push_cast; rfl
      rw [← hm', ← hm]
      unfold Crosses
      refine ⟨fun h => ⟨?_, h⟩, fun h => h.2⟩
      dsimp only
      rcases lt_or_ge y yi with h2 | h2
      · left
        refine ⟨?_, h2⟩
        by_contra h3
        exact hin' ⟨fun _ => by omega, fun _ => h2⟩
      · right
        refine ⟨h2, ?_⟩
        by_contra h3
        exact hin' ⟨fun _ => by omega, fun _ => by omega⟩
  have hfold := foldl_toggle (fun e : (Flt × Flt) × (Flt × Flt) => (fy.lt e.1.2 != fy.lt e.2.2) &&
        fx.lt ((((e.2.1.subF e.1.1).mulF (fy.subF e.1.2)).divF (e.2.2.subF e.1.2)).addF e.1.1)) (Region.edges ps) false
  have hpip : Region.pointInPolygon ps fx fy = (Region.edges ps).foldl (fun c e => if ((fy.lt e.1.2 != fy.lt e.2.2) &&
        fx.lt ((((e.2.1.subF e.1.1).mulF (fy.subF e.1.2)).divF (e.2.2.subF e.1.2)).addF e.1.1)) then !c else c) false := rfl
  rw [hpip, hfold, Bool.false_bne, decide_eq_decide]
  unfold InPolygon
  suffices hcount : (Region.edges ps).countP _ = (sides cs).countP _ by rw [hcount]
  unfold Region.edges sides
  rcases forall2_getLast hps' with ⟨e1, e2⟩ | ⟨a, b, e1, e2, e3⟩
  · rw [e1, e2]; rfl
  · rw [e1, e2]
    exact forall2_countP (zip_sides hps' a b e3) _ _ hst

end Trax
