import Verif.Spec.Pixels
import Mathlib.Tactic.Linarith
import Mathlib.Tactic.Ring
import Mathlib.Tactic.FieldSimp
import Mathlib.Tactic.LinearCombination

/-!
# Lemmas about the rows of a convex polygon
-/

namespace Trax.Spec

/-! ## Sides -/

theorem mem_sidesFrom {prev : Int × Int} {ps : List (Int × Int)} {s : (Int × Int) × (Int × Int)} (h : s ∈ sidesFrom prev ps) :
    (s.1 = prev ∨ s.1 ∈ ps) ∧ s.2 ∈ ps := by
  induction ps generalizing prev with
  | nil => simp [sidesFrom] at h
  | cons p ps ih =>
    rw [sidesFrom] at h
    rcases List.mem_cons.mp h with rfl | h
    · exact ⟨.inl rfl, List.mem_cons_self⟩
    · obtain ⟨h1, h2⟩ := ih h
      refine ⟨.inr ?_, List.mem_cons_of_mem _ h2⟩
      rcases h1 with h1 | h1
      · rw [h1]; exact List.mem_cons_self
      · exact List.mem_cons_of_mem _ h1

theorem mem_sides {ps : List (Int × Int)} {s : (Int × Int) × (Int × Int)} (h : s ∈ sides ps) : s.1 ∈ ps ∧ s.2 ∈ ps := by
  unfold sides at h
  cases hl : ps.getLast? with
  | none => rw [hl] at h; simp at h
  | some l =>
    rw [hl] at h
    obtain ⟨h1, h2⟩ := mem_sidesFrom h
    refine ⟨?_, h2⟩
    rcases h1 with h1 | h1
    · rw [h1]; exact List.mem_of_getLast? hl
    · exact h1

theorem sidesFrom_next {prev : Int × Int} {ps : List (Int × Int)} {s : (Int × Int) × (Int × Int)} (h : s ∈ sidesFrom prev ps) :
    (∃ s' ∈ sidesFrom prev ps, s'.1 = s.2) ∨ ps.getLast? = some s.2 := by
  induction ps generalizing prev with
  | nil => simp [sidesFrom] at h
  | cons p ps ih =>
    rw [sidesFrom] at h
    rcases List.mem_cons.mp h with rfl | h
    · cases ps with
      | nil => exact .inr rfl
      | cons q ps => exact .inl ⟨(p, q), by simp [sidesFrom], rfl⟩
    · rcases ih h with ⟨s', h1, h2⟩ | h1
      · exact .inl ⟨s', by rw [sidesFrom]; exact List.mem_cons_of_mem _ h1, h2⟩
      · right
        cases ps with
        | nil => simp at h1
        | cons q ps => rw [List.getLast?_cons_cons]; exact h1

/-- Every side is followed by another one. -/
theorem sides_next {ps : List (Int × Int)} {s : (Int × Int) × (Int × Int)} (h : s ∈ sides ps) : ∃ s' ∈ sides ps, s'.1 = s.2 := by
  unfold sides at h ⊢
  cases hl : ps.getLast? with
  | none => rw [hl] at h; simp at h
  | some l =>
    rw [hl] at h
    simp only at h ⊢
    rcases sidesFrom_next h with h1 | h1
    · exact h1
    · rw [hl, Option.some.injEq] at h1
      cases ps with
      | nil => simp at hl
      | cons p ps => exact ⟨(l, p), by rw [sidesFrom]; exact List.mem_cons_self, h1⟩

theorem sidesFrom_balance (f : Int × Int → Bool) (prev : Int × Int) (ps : List (Int × Int)) (l : Int × Int)
    (hl : (prev :: ps).getLast? = some l) :
    (((sidesFrom prev ps).countP fun s => !f s.1 && f s.2 : Nat) : Int) + (if f prev then 1 else 0) =
      ((sidesFrom prev ps).countP fun s => f s.1 && !f s.2 : Nat) + (if f l then 1 else 0) := by
  induction ps generalizing prev with
  | nil =>
    simp at hl
    subst hl
    simp [sidesFrom]
  | cons p ps ih =>
    rw [List.getLast?_cons_cons] at hl
    have := ih p hl
    simp only [sidesFrom, List.countP_cons]
    cases h1 : f prev <;> cases h2 : f p <;> simp only [h1, h2] at this ⊢ <;> simp at this ⊢ <;> omega

/-- The outline goes into a set of corners as often as out of it. -/
theorem sides_balance (f : Int × Int → Bool) (ps : List (Int × Int)) :
    ((sides ps).countP fun s => !f s.1 && f s.2) = (sides ps).countP fun s => f s.1 && !f s.2 := by
  unfold sides
  cases hl : ps.getLast? with
  | none => rfl
  | some l =>
    have := sidesFrom_balance f l ps l (by
      cases ps with
      | nil => simp at hl
      | cons p ps => rw [List.getLast?_cons_cons]; exact hl)
    simp only at this ⊢
    omega

/-! ## Points of sides -/

/-- The side has a point in the row. -/
def Reaches (y : Int) (s : (Int × Int) × (Int × Int)) : Prop := (s.1.2 ≤ y ∧ y ≤ s.2.2) ∨ (s.2.2 ≤ y ∧ y ≤ s.1.2)

theorem onSide_reaches {s : (Int × Int) × (Int × Int)} {x : ℚ} {y : Int} (h : OnSide s x y) : Reaches y s := by
  obtain ⟨t, h0, h1, _, h3⟩ := h
  unfold Reaches
  rcases le_total s.1.2 s.2.2 with hle | hle
  · left
    have : (s.1.2 : ℚ) ≤ s.2.2 := by exact_mod_cast hle
    constructor
    · have : (s.1.2 : ℚ) ≤ y := by nlinarith
      exact_mod_cast this
    · have : (y : ℚ) ≤ s.2.2 := by nlinarith
      exact_mod_cast this
  · right
    have : (s.2.2 : ℚ) ≤ s.1.2 := by exact_mod_cast hle
    constructor
    · have : (s.2.2 : ℚ) ≤ y := by nlinarith
      exact_mod_cast this
    · have : (y : ℚ) ≤ s.1.2 := by nlinarith
      exact_mod_cast this

/-- A side that is not level has one point in the row. -/
theorem onSide_iff {s : (Int × Int) × (Int × Int)} (hs : s.1.2 ≠ s.2.2) (x : ℚ) (y : Int) :
    OnSide s x y ↔ Reaches y s ∧ x = meets s y := by
  have hne : ((s.2.2 : ℚ) - s.1.2) ≠ 0 := sub_ne_zero.mpr (by exact_mod_cast hs.symm)
  constructor
  · intro h
    refine ⟨onSide_reaches h, ?_⟩
    obtain ⟨t, h0, h1, h2, h3⟩ := h
    unfold meets
    rw [h2, h3]
    field_simp
    ring
  · rintro ⟨hr, rfl⟩
    refine ⟨(y - s.1.2) / (s.2.2 - s.1.2), ?_, ?_, ?_, ?_⟩
    · rcases hr with ⟨a, b⟩ | ⟨a, b⟩
      · have : (s.1.2 : ℚ) ≤ y := by exact_mod_cast a
        have : (s.1.2 : ℚ) < s.2.2 := by exact_mod_cast (show s.1.2 < s.2.2 by omega)
        exact div_nonneg (by linarith) (by linarith)
      · have : (y : ℚ) ≤ s.1.2 := by exact_mod_cast b
        have : (s.2.2 : ℚ) < s.1.2 := by exact_mod_cast (show s.2.2 < s.1.2 by omega)
        exact div_nonneg_of_nonpos (by linarith) (by linarith)
    · rcases hr with ⟨a, b⟩ | ⟨a, b⟩
      · have : (y : ℚ) ≤ s.2.2 := by exact_mod_cast b
        have : (s.1.2 : ℚ) < s.2.2 := by exact_mod_cast (show s.1.2 < s.2.2 by omega)
        rw [div_le_one (by linarith)]; linarith
      · have : (s.2.2 : ℚ) ≤ y := by exact_mod_cast a
        have : (s.2.2 : ℚ) < s.1.2 := by exact_mod_cast (show s.2.2 < s.1.2 by omega)
        rw [div_le_one_of_neg (by linarith)]; linarith
    · unfold meets; ring
    · field_simp; ring

theorem meets_first {s : (Int × Int) × (Int × Int)} : meets s s.1.2 = s.1.1 := by
  unfold meets; simp

/-- The ends of a side. -/
theorem onSide_first (s : (Int × Int) × (Int × Int)) : OnSide s s.1.1 s.1.2 := ⟨0, le_refl _, by norm_num, by ring, by ring⟩

/-! ## Rows of a convex polygon -/

/-- A point of a side is on the same side of a line as the ends. -/
theorem turn_onSide {s e : (Int × Int) × (Int × Int)} {x y : ℚ} (h : OnSide e x y) (c : ℚ) (h1 : 0 ≤ c * turn s e.1) (h2 : 0 ≤ c * turn s e.2) :
    0 ≤ c * ((s.2.1 - s.1.1) * (y - s.1.2) - (s.2.2 - s.1.2) * (x - s.1.1)) := by
  obtain ⟨t, t0, t1, rfl, rfl⟩ := h
  unfold turn at h1 h2
  push_cast at h1 h2
  have : c * ((s.2.1 - s.1.1 : ℚ) * (e.1.2 + t * (e.2.2 - e.1.2) - s.1.2) - (s.2.2 - s.1.2) * (e.1.1 + t * (e.2.1 - e.1.1) - s.1.1)) =
      (1 - t) * (c * ((s.2.1 - s.1.1) * (e.1.2 - s.1.2) - (s.2.2 - s.1.2) * (e.1.1 - s.1.1))) +
      t * (c * ((s.2.1 - s.1.1) * (e.2.2 - s.1.2) - (s.2.2 - s.1.2) * (e.2.1 - s.1.1))) := by ring
  rw [this]
  have a1 := mul_nonneg (show (0 : ℚ) ≤ 1 - t by linarith) h1
  have a2 := mul_nonneg t0 h2
  linarith

theorem turn_meets {s : (Int × Int) × (Int × Int)} (hs : s.1.2 ≠ s.2.2) (x : ℚ) (y : Int) :
    ((s.2.1 - s.1.1 : ℚ) * (y - s.1.2) - (s.2.2 - s.1.2) * (x - s.1.1)) = (s.2.2 - s.1.2) * (meets s y - x) := by
  have hne : ((s.2.2 : ℚ) - s.1.2) ≠ 0 := sub_ne_zero.mpr (by exact_mod_cast hs.symm)
  unfold meets
  field_simp
  ring

/-- What a row of a convex polygon looks like: its points of the outline lie between two of them, and the sides that
reach the row do so there. -/
structure ConvexRow (ps : List (Int × Int)) (y : Int) (L R : ℚ) : Prop where
  le : L ≤ R
  left : ∃ s ∈ sides ps, s.1.2 ≠ s.2.2 ∧ Reaches y s ∧ meets s y = L
  right : ∃ s ∈ sides ps, s.1.2 ≠ s.2.2 ∧ Reaches y s ∧ meets s y = R
  two : ∃ s ∈ sides ps, ∃ s' ∈ sides ps, s ≠ s' ∧ Reaches y s ∧ Reaches y s'
  range : ∀ x, OnOutline ps x y → L ≤ x ∧ x ≤ R
  sides : ∀ s ∈ sides ps, s.1.2 ≠ s.2.2 → Reaches y s → meets s y = L ∨ meets s y = R
  level : ∀ s ∈ Spec.sides ps, s.1.2 = s.2.2 → s.2.2 = y → (s.2.1 : ℚ) = L ∨ (s.2.1 : ℚ) = R

/-- There are a side that goes up and one that goes down. -/
theorem both_ways {ps : List (Int × Int)} {y : Int} {s : (Int × Int) × (Int × Int)} (hs : s ∈ sides ps) (hne : s.1.2 ≠ s.2.2) (hr : Reaches y s) :
    (∃ u ∈ sides ps, u.1.2 < u.2.2 ∧ Reaches y u) ∧ (∃ d ∈ sides ps, d.2.2 < d.1.2 ∧ Reaches y d) := by
  have key : ∀ f : Int × Int → Bool, ((∃ u ∈ sides ps, f u.1 = false ∧ f u.2 = true) ↔ (∃ d ∈ sides ps, f d.1 = true ∧ f d.2 = false)) := by
    intro f
    have hb := sides_balance f ps
    have e1 : (∃ u ∈ sides ps, f u.1 = false ∧ f u.2 = true) ↔ 0 < (sides ps).countP fun s => !f s.1 && f s.2 := by
      rw [List.countP_pos_iff]; simp
    have e2 : (∃ d ∈ sides ps, f d.1 = true ∧ f d.2 = false) ↔ 0 < (sides ps).countP fun s => f s.1 && !f s.2 := by
      rw [List.countP_pos_iff]; simp
    rw [e1, e2, hb]
  have k1 := key fun p => decide (y ≤ p.2)
  have k2 := key fun p => decide (y < p.2)
  simp only [decide_eq_false_iff_not, decide_eq_true_eq] at k1 k2
  unfold Reaches at *
  rcases lt_or_gt_of_ne hne with hup | hdown
  · refine ⟨⟨s, hs, hup, hr⟩, ?_⟩
    by_cases hc : s.1.2 < y
    · have e := k1.mp ⟨s, hs, by clear k1 k2; omega, by clear k1 k2; omega⟩
      clear k1 k2
      obtain ⟨d, hd, a, b⟩ := e
      exact ⟨d, hd, by omega, by omega⟩
    · have e := k2.mp ⟨s, hs, by clear k1 k2; omega, by clear k1 k2; omega⟩
      clear k1 k2
      obtain ⟨d, hd, a, b⟩ := e
      exact ⟨d, hd, by omega, by omega⟩
  · refine ⟨?_, ⟨s, hs, hdown, hr⟩⟩
    by_cases hc : s.2.2 < y
    · have e := k1.mpr ⟨s, hs, by clear k1 k2; omega, by clear k1 k2; omega⟩
      clear k1 k2
      obtain ⟨d, hd, a, b⟩ := e
      exact ⟨d, hd, by omega, by omega⟩
    · have e := k2.mpr ⟨s, hs, by clear k1 k2; omega, by clear k1 k2; omega⟩
      clear k1 k2
      obtain ⟨d, hd, a, b⟩ := e
      exact ⟨d, hd, by omega, by omega⟩

theorem convexRow {ps : List (Int × Int)} (hc : Convex ps) {y : Int} (h : ∃ s ∈ sides ps, Reaches y s) :
    ∃ L R, ConvexRow ps y L R := by
  -- a side that is not level
  have h' : ∃ s ∈ sides ps, s.1.2 ≠ s.2.2 ∧ Reaches y s := by
    obtain ⟨s, hs, hr⟩ := h
    by_cases hl : s.1.2 = s.2.2
    · obtain ⟨s', hs', he⟩ := sides_next hs
      refine ⟨s', hs', hc.level s hs s' hs' he.symm hl, ?_⟩
      unfold Reaches at hr ⊢
      rw [he]
      omega
    · exact ⟨s, hs, hl, hr⟩
  obtain ⟨s, hs, hne, hr⟩ := h'
  obtain ⟨⟨u, hu, hu1, hu2⟩, ⟨d, hd, hd1, hd2⟩⟩ := both_ways hs hne hr
  have huq : (u.1.2 : ℚ) < u.2.2 := by exact_mod_cast hu1
  have hdq : (d.2.2 : ℚ) < d.1.2 := by exact_mod_cast hd1
  -- the position of a side bounds the outline
  have bound : ∀ c : ℚ, (∀ s ∈ sides ps, ∀ p ∈ ps, 0 ≤ c * turn s p) → ∀ s ∈ sides ps, s.1.2 ≠ s.2.2 → ∀ x : ℚ, OnOutline ps x y →
      0 ≤ c * ((s.2.2 - s.1.2) * (meets s y - x)) := by
    intro c hcs s hs hne x ⟨e, he, hx⟩
    rw [← turn_meets hne]
    exact turn_onSide hx c (hcs s hs _ (mem_sides he).1) (hcs s hs _ (mem_sides he).2)
  have onU : OnOutline ps (meets u y) y := ⟨u, hu, (onSide_iff (by omega) _ _).mpr ⟨hu2, rfl⟩⟩
  have onD : OnOutline ps (meets d y) y := ⟨d, hd, (onSide_iff (by omega) _ _).mpr ⟨hd2, rfl⟩⟩
  have on : ∀ s ∈ sides ps, s.1.2 ≠ s.2.2 → Reaches y s → OnOutline ps (meets s y) y := fun s hs h1 h2 =>
    ⟨s, hs, (onSide_iff h1 _ _).mpr ⟨h2, rfl⟩⟩
  have lev : ∀ L R : ℚ, (∀ s ∈ sides ps, s.1.2 ≠ s.2.2 → Reaches y s → meets s y = L ∨ meets s y = R) →
      ∀ s ∈ sides ps, s.1.2 = s.2.2 → s.2.2 = y → (s.2.1 : ℚ) = L ∨ (s.2.1 : ℚ) = R := by
    intro L R hLR s hs hl hy
    obtain ⟨s', hs', he⟩ := sides_next hs
    have hne' := hc.level s hs s' hs' he.symm hl
    have hr' : Reaches y s' := by
      unfold Reaches; rw [he, hy]; omega
    have hm : meets s' y = s.2.1 := by
      have : y = s'.1.2 := by rw [he, hy]
      rw [this, meets_first, he]
    rw [← hm]
    exact hLR s' hs' hne' hr'
  have hud : u ≠ d := by
    intro h; rw [h] at hu1; omega
  rcases hc.apart with hap | hap
  · have b := bound 1 (fun s hs p hp => by rw [one_mul]; exact_mod_cast hap s hs p hp)
    simp only [one_mul] at b
    have up : ∀ s ∈ sides ps, s.1.2 < s.2.2 → ∀ x, OnOutline ps x y → x ≤ meets s y := by
      intro s hs hlt x hx
      have h1 := b s hs (by omega) x hx
      have : (0 : ℚ) < s.2.2 - s.1.2 := by have : (s.1.2 : ℚ) < s.2.2 := by exact_mod_cast hlt
                                           linarith
      have := nonneg_of_mul_nonneg_right h1 this
      linarith
    have down : ∀ s ∈ sides ps, s.2.2 < s.1.2 → ∀ x, OnOutline ps x y → meets s y ≤ x := by
      intro s hs hlt x hx
      have h1 := b s hs (by omega) x hx
      have : (0 : ℚ) < s.1.2 - s.2.2 := by have : (s.2.2 : ℚ) < s.1.2 := by exact_mod_cast hlt
                                           linarith
      have h2 : 0 ≤ (s.1.2 - s.2.2 : ℚ) * (x - meets s y) := by linarith
      have := nonneg_of_mul_nonneg_right h2 this
      linarith
    have hsides : ∀ s ∈ sides ps, s.1.2 ≠ s.2.2 → Reaches y s → meets s y = meets d y ∨ meets s y = meets u y := by
      intro s hs h1 h2
      rcases lt_or_gt_of_ne h1 with hlt | hlt
      · right
        exact le_antisymm (up u hu hu1 _ (on s hs h1 h2)) (up s hs hlt _ onU)
      · left
        exact le_antisymm (down s hs hlt _ onD) (down d hd hd1 _ (on s hs h1 h2))
    exact ⟨meets d y, meets u y, up u hu hu1 _ onD, ⟨d, hd, by omega, hd2, rfl⟩, ⟨u, hu, by omega, hu2, rfl⟩, ⟨u, hu, d, hd, hud, hu2, hd2⟩,
      fun x hx => ⟨down d hd hd1 x hx, up u hu hu1 x hx⟩, hsides, lev _ _ hsides⟩
  · have b := bound (-1) (fun s hs p hp => by
      have : ((turn s p : Int) : ℚ) ≤ 0 := by exact_mod_cast hap s hs p hp
      linarith)
    have up : ∀ s ∈ sides ps, s.1.2 < s.2.2 → ∀ x, OnOutline ps x y → meets s y ≤ x := by
      intro s hs hlt x hx
      have h1 := b s hs (by omega) x hx
      have : (0 : ℚ) < s.2.2 - s.1.2 := by have : (s.1.2 : ℚ) < s.2.2 := by exact_mod_cast hlt
                                           linarith
      have h2 : 0 ≤ (s.2.2 - s.1.2 : ℚ) * (x - meets s y) := by linarith
      have := nonneg_of_mul_nonneg_right h2 this
      linarith
    have down : ∀ s ∈ sides ps, s.2.2 < s.1.2 → ∀ x, OnOutline ps x y → x ≤ meets s y := by
      intro s hs hlt x hx
      have h1 := b s hs (by omega) x hx
      have : (0 : ℚ) < s.1.2 - s.2.2 := by have : (s.2.2 : ℚ) < s.1.2 := by exact_mod_cast hlt
                                           linarith
      have h2 : 0 ≤ (s.1.2 - s.2.2 : ℚ) * (meets s y - x) := by linarith
      have := nonneg_of_mul_nonneg_right h2 this
      linarith
    have hsides : ∀ s ∈ sides ps, s.1.2 ≠ s.2.2 → Reaches y s → meets s y = meets u y ∨ meets s y = meets d y := by
      intro s hs h1 h2
      rcases lt_or_gt_of_ne h1 with hlt | hlt
      · left
        exact le_antisymm (up s hs hlt _ onU) (up u hu hu1 _ (on s hs h1 h2))
      · right
        exact le_antisymm (down d hd hd1 _ (on s hs h1 h2)) (down s hs hlt _ onD)
    exact ⟨meets u y, meets d y, up u hu hu1 _ onD, ⟨u, hu, by omega, hu2, rfl⟩, ⟨d, hd, by omega, hd2, rfl⟩, ⟨u, hu, d, hd, hud, hu2, hd2⟩,
      fun x hx => ⟨up u hu hu1 x hx, down d hd hd1 x hx⟩, hsides, lev _ _ hsides⟩

/-- The pixels of such a row. -/
theorem ConvexRow.pixel {ps : List (Int × Int)} {y : Int} {L R : ℚ} (h : ConvexRow ps y L R) (x : Int) :
    MeetsPixel ps x y ↔ L < x + 1 ∧ (x : ℚ) ≤ R := by
  constructor
  · rintro ⟨a, t, b, ha, hb, h1, h2, h3, h4⟩
    exact ⟨by linarith [(h.range a ha).1], by linarith [(h.range b hb).2]⟩
  · rintro ⟨h1, h2⟩
    obtain ⟨s, hs, e1, e2, e3⟩ := h.left
    obtain ⟨s', hs', e1', e2', e3'⟩ := h.right
    have hxx : (x : ℚ) < x + 1 := by linarith
    refine ⟨L, max L x, R, ⟨s, hs, (onSide_iff e1 _ _).mpr ⟨e2, e3.symm⟩⟩, ⟨s', hs', (onSide_iff e1' _ _).mpr ⟨e2', e3'.symm⟩⟩,
      le_max_left _ _, max_le h.le h2, le_max_right _ _, max_lt h1 hxx⟩

/-- A row that no side reaches. -/
theorem no_pixel {ps : List (Int × Int)} {y : Int} (h : ¬ ∃ s ∈ sides ps, Reaches y s) (x : Int) : ¬ MeetsPixel ps x y := by
  rintro ⟨a, t, b, ⟨s, hs, h1⟩, _⟩
  exact h ⟨s, hs, onSide_reaches h1⟩

/-! ## Moving a polygon -/

/-- The polygon moved. -/
def move (dx dy : Int) (c : Int × Int) : Int × Int := (c.1 + dx, c.2 + dy)

theorem sidesFrom_move (dx dy : Int) (prev : Int × Int) (ps : List (Int × Int)) :
    sidesFrom (move dx dy prev) (ps.map (move dx dy)) = (sidesFrom prev ps).map fun s => (move dx dy s.1, move dx dy s.2) := by
  induction ps generalizing prev with
  | nil => rfl
  | cons p ps ih => simp only [List.map_cons, sidesFrom, ih]

theorem sides_move (dx dy : Int) (ps : List (Int × Int)) :
    sides (ps.map (move dx dy)) = (sides ps).map fun s => (move dx dy s.1, move dx dy s.2) := by
  unfold sides
  rw [List.getLast?_map]
  cases ps.getLast? with
  | none => rfl
  | some l => exact sidesFrom_move dx dy l ps

theorem meets_move (dx dy : Int) (s : (Int × Int) × (Int × Int)) (y : Int) :
    meets (move dx dy s.1, move dx dy s.2) (y + dy) = meets s y + dx := by
  unfold meets move
  push_cast
  have e1 : ((s.2.1 : ℚ) + dx - (s.1.1 + dx)) = s.2.1 - s.1.1 := by ring
  have e2 : ((s.2.2 : ℚ) + dy - (s.1.2 + dy)) = s.2.2 - s.1.2 := by ring
  have e3 : ((y : ℚ) + dy - (s.1.2 + dy)) = y - s.1.2 := by ring
  rw [e1, e2, e3]
  ring

theorem straddles_move (dx dy : Int) (s : (Int × Int) × (Int × Int)) (y : Int) :
    Straddles (y + dy) (move dx dy s.1, move dx dy s.2) ↔ Straddles y s := by
  unfold Straddles move; dsimp only; omega

theorem onSide_move (dx dy : Int) (s : (Int × Int) × (Int × Int)) (x y : ℚ) :
    OnSide (move dx dy s.1, move dx dy s.2) (x + dx) (y + dy) ↔ OnSide s x y := by
  unfold OnSide move
  dsimp only
  push_cast
  refine exists_congr fun t => and_congr_right fun _ => and_congr_right fun _ => and_congr ?_ ?_
  · constructor <;> intro h <;> linarith
  · constructor <;> intro h <;> linarith

theorem onOutline_move (dx dy : Int) (ps : List (Int × Int)) (x y : ℚ) :
    OnOutline (ps.map (move dx dy)) (x + dx) (y + dy) ↔ OnOutline ps x y := by
  unfold OnOutline
  rw [sides_move]
  simp only [List.mem_map]
  constructor
  · rintro ⟨_, ⟨s, hs, rfl⟩, h⟩
    exact ⟨s, hs, (onSide_move dx dy s x y).mp h⟩
  · rintro ⟨s, hs, h⟩
    exact ⟨_, ⟨s, hs, rfl⟩, (onSide_move dx dy s x y).mpr h⟩

theorem meetsPixel_move (dx dy : Int) (ps : List (Int × Int)) (x y : Int) :
    MeetsPixel (ps.map (move dx dy)) (x + dx) (y + dy) ↔ MeetsPixel ps x y := by
  unfold MeetsPixel
  push_cast
  constructor
  · rintro ⟨a, t, b, h1, h2, h3, h4, h5, h6⟩
    refine ⟨a - dx, t - dx, b - dx, ?_, ?_, by linarith, by linarith, by linarith, by linarith⟩
    · rw [← onOutline_move dx dy, sub_add_cancel]; exact h1
    · rw [← onOutline_move dx dy, sub_add_cancel]; exact h2
  · rintro ⟨a, t, b, h1, h2, h3, h4, h5, h6⟩
    exact ⟨a + dx, t + dx, b + dx, (onOutline_move dx dy ps _ _).mpr h1, (onOutline_move dx dy ps _ _).mpr h2, by linarith, by linarith,
      by linarith, by linarith⟩

theorem offGrid_move (dx dy : Int) {ps : List (Int × Int)} {y : Int} (h : OffGrid ps y) : OffGrid (ps.map (move dx dy)) (y + dy) := by
  intro s' hs' hne hst n he
  rw [sides_move] at hs'
  obtain ⟨s, hs, rfl⟩ := List.mem_map.mp hs'
  rw [meets_move] at he
  refine h s hs (fun e => hne (by unfold move; dsimp only; omega)) ((straddles_move dx dy s y).mp hst) (n - dx) ?_
  push_cast
  linarith

theorem turn_move (dx dy : Int) (s : (Int × Int) × (Int × Int)) (p : Int × Int) :
    turn (move dx dy s.1, move dx dy s.2) (move dx dy p) = turn s p := by
  unfold turn move
  dsimp only
  ring

theorem Convex.move (dx dy : Int) {ps : List (Int × Int)} (h : Convex ps) : Convex (ps.map (move dx dy)) where
  apart := by
    rw [sides_move]
    rcases h.apart with h | h
    · left
      intro s0 hs0 p0 hp0
      obtain ⟨s, hs, rfl⟩ := List.mem_map.mp hs0
      obtain ⟨p, hp, rfl⟩ := List.mem_map.mp hp0
      rw [turn_move]; exact h s hs p hp
    · right
      intro s0 hs0 p0 hp0
      obtain ⟨s, hs, rfl⟩ := List.mem_map.mp hs0
      obtain ⟨p, hp, rfl⟩ := List.mem_map.mp hp0
      rw [turn_move]; exact h s hs p hp
  level := by
    rw [sides_move]
    intro s0 hs0 s0' hs0' h1 h2
    obtain ⟨s, hs, rfl⟩ := List.mem_map.mp hs0
    obtain ⟨s', hs', rfl⟩ := List.mem_map.mp hs0'
    unfold Spec.move at h1 h2 ⊢
    dsimp only at h1 h2 ⊢
    rw [Prod.mk.injEq] at h1
    have := h.level s hs s' hs' (Prod.ext (by omega) (by omega)) (by omega)
    omega

theorem evenOdd_move (dx dy : Int) (ps : List (Int × Int)) (x y : Int) :
    EvenOddPixel (ps.map (move dx dy)) (x + dx) (y + dy) ↔ EvenOddPixel ps x y := by
  unfold EvenOddPixel InPolygon
  rw [sides_move, List.countP_map]
  refine or_congr ?_ ?_
  · have : ((fun s => decide (Crosses (x + dx) (y + dy) s)) ∘ fun s : (Int × Int) × (Int × Int) => (move dx dy s.1, move dx dy s.2)) =
        fun s => decide (Crosses x y s) := by
      funext s
      rw [Function.comp_apply, decide_eq_decide]
      unfold Crosses
      rw [meets_move]
      push_cast
      refine and_congr ?_ ?_
      · unfold move; dsimp only; omega
      · constructor <;> intro h <;> linarith
    rw [this]
  · push_cast
    constructor
    · rintro ⟨s0, hs0, h1, h2, h3⟩
      obtain ⟨s, hs, rfl⟩ := List.mem_map.mp hs0
      rw [meets_move] at h2 h3
      exact ⟨s, hs, (straddles_move dx dy s y).mp h1, by linarith, by linarith⟩
    · rintro ⟨s, hs, h1, h2, h3⟩
      exact ⟨_, List.mem_map.mpr ⟨s, hs, rfl⟩, (straddles_move dx dy s y).mpr h1, by rw [meets_move]; linarith, by rw [meets_move]; linarith⟩

end Trax.Spec
