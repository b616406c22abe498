import Verif.Lemmas.Bounds
import Mathlib.Data.Rat.Floor
import Verif.Lemmas.GridFloat

/-!
# Property theorems C40–C43, C45: bounds, conversion between formats, points

`Flt.value x` is the rational number that the single precision number `x` stands for; `Spec.Nearest q y`
says that `y` is a single precision number as near to `q` as possible. Pixel `(j, i)` of a mask is
`data[j + i * w]`, at the image position `(x + j, y + i)`.
-/

namespace Trax
open Spec Region

/-! ## C40: bounds -/

/-- `v` is attained on the list and is the smallest (largest) value there. -/
def Spec.IsLeast {α : Type} (l : List α) (f : α → ℚ) (v : ℚ) : Prop := (∀ p ∈ l, v ≤ f p) ∧ ∃ p ∈ l, f p = v
def Spec.IsGreatest {α : Type} (l : List α) (f : α → ℚ) (v : ℚ) : Prop := (∀ p ∈ l, f p ≤ v) ∧ ∃ p ∈ l, f p = v

/-- **C40 (polygons).** The bounds of a polygon contain all points and each side touches one. -/
theorem C40_polygon_bounds (legacy : Bool) (ps : List (Flt × Flt)) (hne : ps ≠ [])
    (hf : ∀ p ∈ ps, (p.1.IsFloat ∧ p.1.IsFinite) ∧ (p.2.IsFloat ∧ p.2.IsFinite)) :
    ∃ b, computeBounds legacy (.polygon ps) = .ok b ∧
      IsLeast ps (fun p => p.1.value) b.left.value ∧ IsGreatest ps (fun p => p.1.value) b.right.value ∧
      IsLeast ps (fun p => p.2.value) b.top.value ∧ IsGreatest ps (fun p => p.2.value) b.bottom.value := by
  refine ⟨_, rfl, ?_⟩
  unfold Bounds.ofPolygon
  rw [foldl_extend]
  obtain ⟨p0, hp0⟩ := List.exists_mem_of_ne_nil ps hne
  have h1 : ∀ x ∈ ps.map (·.1), x.IsFinite := by
    intro x hx; obtain ⟨p, hp, rfl⟩ := List.mem_map.mp hx; exact (hf p hp).1.2
  have h2 : ∀ x ∈ ps.map (·.2), x.IsFinite := by
    intro x hx; obtain ⟨p, hp, rfl⟩ := List.mem_map.mp hx; exact (hf p hp).2.2
  have m1 : p0.1 ∈ ps.map (·.1) := List.mem_map.mpr ⟨p0, hp0, rfl⟩
  have m2 : p0.2 ∈ ps.map (·.2) := List.mem_map.mpr ⟨p0, hp0, rfl⟩
  have lift1 : ∀ v : ℚ, (∃ z ∈ ps.map (·.1), z.value = v) → ∃ p ∈ ps, p.1.value = v := by
    rintro v ⟨z, hz, hv⟩
    obtain ⟨p, hp, rfl⟩ := List.mem_map.mp hz
    exact ⟨p, hp, hv⟩
  have lift2 : ∀ v : ℚ, (∃ z ∈ ps.map (·.2), z.value = v) → ∃ p ∈ ps, p.2.value = v := by
    rintro v ⟨z, hz, hv⟩
    obtain ⟨p, hp, rfl⟩ := List.mem_map.mp hz
    exact ⟨p, hp, hv⟩
  have hn := Flt.neg_finite Flt.fltMax_finite
  refine ⟨⟨fun p hp => (foldl_minF _ _ Flt.fltMax_finite h1).2.2.1 _ (List.mem_map.mpr ⟨p, hp, rfl⟩), lift1 _ ?_⟩,
    ⟨fun p hp => (foldl_maxF _ _ hn h1).2.2.1 _ (List.mem_map.mpr ⟨p, hp, rfl⟩), lift1 _ ?_⟩,
    ⟨fun p hp => (foldl_minF _ _ Flt.fltMax_finite h2).2.2.1 _ (List.mem_map.mpr ⟨p, hp, rfl⟩), lift2 _ ?_⟩,
    ⟨fun p hp => (foldl_maxF _ _ hn h2).2.2.1 _ (List.mem_map.mpr ⟨p, hp, rfl⟩), lift2 _ ?_⟩⟩
  · exact foldl_minF_mem _ _ Flt.fltMax_finite h1 _ m1 (Flt.le_fltMax (hf p0 hp0).1.1)
  · exact foldl_maxF_mem _ _ hn h1 _ m1 (Flt.neg_fltMax_le (hf p0 hp0).1.1)
  · exact foldl_minF_mem _ _ Flt.fltMax_finite h2 _ m2 (Flt.le_fltMax (hf p0 hp0).2.1)
  · exact foldl_maxF_mem _ _ hn h2 _ m2 (Flt.neg_fltMax_le (hf p0 hp0).2.1)

example : computeBounds false (.polygon [(.ofInt (-3), .ofInt 2), (.ofInt (-1), .ofInt (-7)), (.ofInt (-2), .ofInt 0)]) =
    .ok ⟨.ofInt (-7), .ofInt 2, .ofInt (-3), .ofInt (-1)⟩ := by decide +kernel

/-- **C40 (rectangles).** Within 2^24 of the origin the bounds of a rectangle with whole coordinates are the first and last column and row
of its pixels; in legacy mode the right and lower bounds are one more. -/
theorem C40_rectangle_bounds_partial (legacy : Bool) {X Y W H : Flt} {x y : Int} {w h : Nat} (hX : X.Is x) (hY : Y.Is y) (hW : W.Is (w : Int)) (hH : H.Is (h : Int))
    (hw : 0 < w) (hh : 0 < h) (hx : |x| + w ≤ 2 ^ 24) (hy : |y| + h ≤ 2 ^ 24) :
    ∃ (b : Bounds) (l r t bo : Int), computeBounds legacy (.rectangle X Y W H) = .ok b ∧
      b.left.value = l ∧ b.right.value = (if legacy then r + 1 else r : Int) ∧ b.top.value = t ∧ b.bottom.value = (if legacy then bo + 1 else bo : Int) ∧
      ∀ i j : Int, (x ≤ i ∧ i < x + w ∧ y ≤ j ∧ j < y + h) ↔ (l ≤ i ∧ i ≤ r ∧ t ≤ j ∧ j ≤ bo) := by
  have h24 : (2 : Int) ^ 24 = 16777216 := by norm_num
  have ab : ∀ n : Int, n.natAbs ≤ 16777216 → |n| ≤ 2 ^ 24 := by
    intro n hn; rw [h24, Int.abs_eq_natAbs]; omega
  rw [h24, Int.abs_eq_natAbs] at hx hy
  have r1 := hX.add hW (ab _ (by omega))
  have b1 := hY.add hH (ab _ (by omega))
  cases legacy with
  | true =>
    refine ⟨_, x, x + w - 1, y, y + h - 1, rfl, hX.value, ?_, hY.value, ?_, ?_⟩
    · rw [r1.value]; simp
    · rw [b1.value]; simp
    · intro i j; omega
  | false =>
    have r2 := r1.sub (Flt.ofInt_small (n := 1) (by norm_num)) (ab _ (by omega))
    have b2 := b1.sub (Flt.ofInt_small (n := 1) (by norm_num)) (ab _ (by omega))
    refine ⟨_, x, x + w - 1, y, y + h - 1, rfl, hX.value, ?_, hY.value, ?_, ?_⟩
    · exact r2.value
    · exact b2.value
    · intro i j; omega

example : (Flt.ofInt (-3)).Is (-3) ∧ (Flt.ofInt 5).Is ((5 : Nat) : Int) := ⟨Flt.ofInt_small (by norm_num), Flt.ofInt_small (by norm_num)⟩

/-- **C40, violated for rectangles** that are less than a pixel wide: the right bound is left of the left one. -/
theorem C40_thin_rectangle_false :
    computeBounds false (.rectangle (.ofInt 2) (.ofInt 2) (Flt.one.divF (.ofInt 2)) (.ofInt 3)) =
      .ok ⟨.ofInt 2, .ofInt 4, .ofInt 2, (Flt.ofInt 3).divF (.ofInt 2)⟩ ∧ ((Flt.ofInt 3).divF (.ofInt 2)).lt (.ofInt 2) = true := by
  decide +kernel

/-- **C40 (special regions).** A special region has no bounds: every coordinate is inside them. -/
theorem C40_special_bounds (legacy : Bool) (code : Int) (X : Flt) (hX : X.IsFloat) :
    ∃ b, computeBounds legacy (.special code) = .ok b ∧ b.left.value ≤ X.value ∧ X.value ≤ b.right.value ∧
      b.top.value ≤ X.value ∧ X.value ≤ b.bottom.value :=
  ⟨_, rfl, Flt.neg_fltMax_le hX, Flt.le_fltMax hX, Flt.neg_fltMax_le hX, Flt.le_fltMax hX⟩

/-- The foreground pixels `(column, row)` of a mask. -/
def Spec.IsForeground (w h : Nat) (data : List UInt8) (p : Nat × Nat) : Prop :=
  p.1 < w ∧ p.2 < h ∧ data.getD (p.1 + p.2 * w) 0 ≠ 0

instance (w h : Nat) (data : List UInt8) (p : Nat × Nat) : Decidable (IsForeground w h data p) :=
  inferInstanceAs (Decidable (_ ∧ _ ∧ _))

/-- **C40, violated for masks** at large offsets: the position 16777217 is not a single precision number. -/
theorem C40_mask_bounds_false :
    ∃ b, computeBounds false (.mask 16777217 0 1 1 [1]) = .ok b ∧ b.left.value = 16777216 := by
  refine ⟨⟨.ofInt 0, .ofInt 0, .ofInt 16777216, .ofInt 16777216⟩, by decide +kernel, ?_⟩
  exact (Flt.ofInt_small (n := 16777216) (by norm_num)).value

/-- **C40, what holds for masks.** Within 2^24 of the origin the bounds of a mask are the smallest and
largest coordinates of its foreground pixels. Missing: larger coordinates. -/
theorem C40_mask_bounds_partial (legacy : Bool) (x y : Int) (w h : Nat) (data : List UInt8)
    (hlen : data.length = w * h) (hx : |x| + w ≤ 2 ^ 24) (hy : |y| + h ≤ 2 ^ 24) (hsz : w * h ≤ 2 ^ 31)
    (hfg : ∃ p, IsForeground w h data p) :
    ∃ (b : Bounds) (l r t bo : Int), computeBounds legacy (.mask x y w h data) = .ok b ∧
      b.left.value = l ∧ b.right.value = r ∧ b.top.value = t ∧ b.bottom.value = bo ∧
      (∀ p, IsForeground w h data p → l ≤ x + p.1 ∧ x + p.1 ≤ r ∧ t ≤ y + p.2 ∧ y + p.2 ≤ bo) ∧
      (∃ p, IsForeground w h data p ∧ x + p.1 = l) ∧ (∃ p, IsForeground w h data p ∧ x + p.1 = r) ∧
      (∃ p, IsForeground w h data p ∧ y + p.2 = t) ∧ (∃ p, IsForeground w h data p ∧ y + p.2 = bo) := by
  have hiff : ∀ p, p ∈ Bounds.foreground w h data ↔ IsForeground w h data p := fun p => mem_foreground w h data p.1 p.2
  obtain ⟨p0, hp0⟩ := hfg
  have hw : 0 < w := by have := hp0.1; omega
  have hh : 0 < h := by have := hp0.2.1; omega
  obtain ⟨b, l, r, t, bo, h1, h2, h3, h4, h5, h6, ⟨pl, hl, el⟩, ⟨pr, hr, er⟩, ⟨pt, ht, et⟩, ⟨pb, hb, eb⟩⟩ :=
    ofMask_spec x y w h data hw hh (by omega) hsz hx hy (List.ne_nil_of_mem ((hiff p0).mpr hp0))
  refine ⟨b, _, _, _, _, h1, h2.value, h3.value, h4.value, h5.value, ?_, ⟨pl, (hiff _).mp hl, by rw [el]⟩,
    ⟨pr, (hiff _).mp hr, by rw [er]⟩, ⟨pt, (hiff _).mp ht, by rw [et]⟩, ⟨pb, (hiff _).mp hb, by rw [eb]⟩⟩
  intro p hp
  have := h6 p ((hiff p).mpr hp)
  omega

example : (∃ p, IsForeground 3 2 [0, 0, 5, 0, 1, 0] p) ∧
    computeBounds false (.mask (-10) 4 3 2 [0, 0, 5, 0, 1, 0]) = .ok ⟨.ofInt 4, .ofInt 5, .ofInt (-9), .ofInt (-8)⟩ :=
  ⟨⟨(2, 0), by decide⟩, by decide +kernel⟩

/-! ## C41: conversion to a rectangle -/

/-- **C41, violated.** The box of a polygon left of and above the origin reaches to the origin, because
the search for the maximum begins with the smallest positive number. -/
theorem C41_bounding_box_false (fresh : Nat → List UInt8) :
    convert false fresh (.polygon [(.ofInt (-4), .ofInt (-4)), (.ofInt (-2), .ofInt (-4)), (.ofInt (-2), .ofInt (-3))]) .rectangle =
      .ok (some (.rectangle (.ofInt (-4)) (.ofInt (-4)) (.ofInt 4) (.ofInt 4))) := by
  rfl

/-- **C41, what holds for polygons.** If the largest coordinates are not below `FLT_MIN` (in particular if
they are at least 1), the rectangle begins at the smallest coordinates and its size is the difference
rounded to single precision. Missing: polygons with a non-positive largest coordinate. -/
theorem C41_polygon_box_partial (legacy : Bool) (fresh : Nat → List UInt8) (ps : List (Flt × Flt))
    (hf : ∀ p ∈ ps, (p.1.IsFloat ∧ p.1.IsFinite) ∧ (p.2.IsFloat ∧ p.2.IsFinite))
    (l r t bo : ℚ) (hl : IsLeast ps (fun p => p.1.value) l) (hr : IsGreatest ps (fun p => p.1.value) r)
    (ht : IsLeast ps (fun p => p.2.value) t) (hb : IsGreatest ps (fun p => p.2.value) bo)
    (hr0 : Flt.fltMin.value ≤ r) (hb0 : Flt.fltMin.value ≤ bo)
    (hw : r - l ≤ Flt.fltMax.value) (hh : bo - t ≤ Flt.fltMax.value) :
    ∃ x y w h, convert legacy fresh (.polygon ps) .rectangle = .ok (some (.rectangle x y w h)) ∧
      x.value = l ∧ y.value = t ∧ Nearest (r - l) w ∧ Nearest (bo - t) h := by
  refine ⟨_, _, _, _, rfl, ?_⟩
  rw [foldl_extend]
  simp only
  have h1 : ∀ x ∈ ps.map (·.1), x.IsFinite := by
    intro x hx; obtain ⟨p, hp, rfl⟩ := List.mem_map.mp hx; exact (hf p hp).1.2
  have h2 : ∀ x ∈ ps.map (·.2), x.IsFinite := by
    intro x hx; obtain ⟨p, hp, rfl⟩ := List.mem_map.mp hx; exact (hf p hp).2.2
  have hmin : Flt.fltMin.IsFinite := trivial
  have least : ∀ (f : Flt × Flt → Flt) (v : ℚ), (∀ x ∈ ps.map f, x.IsFinite) → (∀ p ∈ ps, (f p).IsFloat) →
      IsLeast ps (fun p => (f p).value) v → ((ps.map f).foldl Flt.minF .fltMax).value = v := by
    intro f v hfin hfl ⟨hv1, p, hp, hv2⟩
    simp only at hv1 hv2
    obtain ⟨z, hz, he⟩ := foldl_minF_mem _ _ Flt.fltMax_finite hfin (f p) (List.mem_map.mpr ⟨p, hp, rfl⟩) (Flt.le_fltMax (hfl p hp))
    obtain ⟨q, hq, rfl⟩ := List.mem_map.mp hz
    apply le_antisymm
    · rw [← hv2]; exact (foldl_minF _ _ Flt.fltMax_finite hfin).2.2.1 _ (List.mem_map.mpr ⟨p, hp, rfl⟩)
    · rw [← he]; exact hv1 q hq
  have greatest : ∀ (f : Flt × Flt → Flt) (v : ℚ), (∀ x ∈ ps.map f, x.IsFinite) →
      IsGreatest ps (fun p => (f p).value) v → Flt.fltMin.value ≤ v → ((ps.map f).foldl Flt.maxF .fltMin).value = v := by
    intro f v hfin ⟨hv1, p, hp, hv2⟩ hv0
    simp only at hv1 hv2
    obtain ⟨z, hz, he⟩ := foldl_maxF_mem _ _ hmin hfin (f p) (List.mem_map.mpr ⟨p, hp, rfl⟩) (by rw [hv2]; exact hv0)
    obtain ⟨q, hq, rfl⟩ := List.mem_map.mp hz
    apply le_antisymm
    · rw [← he]; exact hv1 q hq
    · rw [← hv2]; exact (foldl_maxF _ _ hmin hfin).2.2.1 _ (List.mem_map.mpr ⟨p, hp, rfl⟩)
  have el := least (·.1) l h1 (fun p hp => (hf p hp).1.1) hl
  have et := least (·.2) t h2 (fun p hp => (hf p hp).2.1) ht
  have er := greatest (·.1) r h1 hr hr0
  have eb := greatest (·.2) bo h2 hb hb0
  have hlr : l ≤ r := by
    obtain ⟨p, hp, he⟩ := hl.2
    rw [← he]; exact hr.1 p hp
  have htb : t ≤ bo := by
    obtain ⟨p, hp, he⟩ := ht.2
    rw [← he]; exact hb.1 p hp
  refine ⟨el, et, ?_, ?_⟩
  · rw [← el, ← er]
    apply Flt.subF_nearest (foldl_maxF _ _ hmin h1).1 (foldl_minF _ _ Flt.fltMax_finite h1).1
    rw [el, er, abs_of_nonneg (by linarith)]; exact hw
  · rw [← et, ← eb]
    apply Flt.subF_nearest (foldl_maxF _ _ hmin h2).1 (foldl_minF _ _ Flt.fltMax_finite h2).1
    rw [et, eb, abs_of_nonneg (by linarith)]; exact hh

example : convert false (fun _ => []) (.polygon [(.ofInt (-4), .ofInt 4), (.ofInt 2, .ofInt (-4)), (.ofInt (-2), .ofInt 3)]) .rectangle =
    .ok (some (.rectangle (.ofInt (-4)) (.ofInt (-4)) (.ofInt 6) (.ofInt 8))) := by decide +kernel

/-- **C41, what holds for masks.** Within 2^24 of the origin a mask is converted to the smallest rectangle
around its foreground pixels. Missing: larger coordinates. -/
theorem C41_mask_box_partial (legacy : Bool) (fresh : Nat → List UInt8) (x y : Int) (w h : Nat) (data : List UInt8)
    (hlen : data.length = w * h) (hx : |x| + w ≤ 2 ^ 24) (hy : |y| + h ≤ 2 ^ 24) (hsz : w * h ≤ 2 ^ 31)
    (hfg : ∃ p, IsForeground w h data p) :
    ∃ (X Y W H : Flt) (l t : Int) (bw bh : Nat),
      convert legacy fresh (.mask x y w h data) .rectangle = .ok (some (.rectangle X Y W H)) ∧
      X.value = l ∧ Y.value = t ∧ W.value = bw ∧ H.value = bh ∧
      (∀ p, IsForeground w h data p → l ≤ x + p.1 ∧ x + p.1 < l + bw ∧ t ≤ y + p.2 ∧ y + p.2 < t + bh) ∧
      (∃ p, IsForeground w h data p ∧ x + p.1 = l) ∧ (∃ p, IsForeground w h data p ∧ x + p.1 + 1 = l + bw) ∧
      (∃ p, IsForeground w h data p ∧ y + p.2 = t) ∧ (∃ p, IsForeground w h data p ∧ y + p.2 + 1 = t + bh) := by
  have hiff : ∀ p, p ∈ Bounds.foreground w h data ↔ IsForeground w h data p := fun p => mem_foreground w h data p.1 p.2
  obtain ⟨p0, hp0⟩ := hfg
  have hw : 0 < w := by have := hp0.1; omega
  have hh : 0 < h := by have := hp0.2.1; omega
  obtain ⟨b, l, r, t, bo, h1, h2, h3, h4, h5, h6, ⟨pl, hl, el⟩, ⟨pr, hr, er⟩, ⟨pt, ht, et⟩, ⟨pb, hb, eb⟩⟩ :=
    ofMask_spec x y w h data hw hh (by omega) hsz hx hy (List.ne_nil_of_mem ((hiff p0).mpr hp0))
  have hlr : l ≤ r := by have := h6 pl hl; omega
  have htb : t ≤ bo := by have := h6 pt ht; omega
  have hrw : r < w := by have := ((hiff _).mp hr).1; omega
  have hbh : bo < h := by have := ((hiff _).mp hb).2.1; omega
  have h24 : (2 : Int) ^ 24 = 16777216 := by norm_num
  have hxa := abs_nonneg x
  have hya := abs_nonneg y
  have w1 : (b.right.subF b.left).Is (((x : Int) + r) - (x + l)) := h3.sub h2 (by rw [abs_le]; omega)
  have w2 := w1.add Flt.one_is (by rw [abs_le]; omega)
  have v1 : (b.bottom.subF b.top).Is (((y : Int) + bo) - (y + t)) := h5.sub h4 (by rw [abs_le]; omega)
  have v2 := v1.add Flt.one_is (by rw [abs_le]; omega)
  refine ⟨b.left, b.top, (b.right.subF b.left).addF .one, (b.bottom.subF b.top).addF .one, x + l, y + t, r - l + 1, bo - t + 1, ?_, h2.value, h4.value, ?_, ?_, ?_, ?_, ?_, ?_, ?_⟩
  · show (Bounds.ofMask x y w h data).map _ = _
    rw [h1]; rfl
  · rw [w2.value]
    have : (x + (r : Int) - (x + l) + 1) = ((r - l + 1 : Nat) : Int) := by omega
    rw [this]; rfl
  · rw [v2.value]
    have : (y + (bo : Int) - (y + t) + 1) = ((bo - t + 1 : Nat) : Int) := by omega
    rw [this]; rfl
  · intro p hp
    have := h6 p ((hiff p).mpr hp)
    omega
  · exact ⟨pl, (hiff _).mp hl, by rw [el]⟩
  · exact ⟨pr, (hiff _).mp hr, by rw [er]; omega⟩
  · exact ⟨pt, (hiff _).mp ht, by rw [et]⟩
  · exact ⟨pb, (hiff _).mp hb, by rw [eb]; omega⟩

example : convert false (fun _ => []) (.mask (-10) 4 3 2 [0, 0, 5, 0, 1, 0]) .rectangle =
    .ok (some (.rectangle (.ofInt (-9)) (.ofInt 4) (.ofInt 2) (.ofInt 2))) := by decide +kernel

/-! ## C42: rectangle to polygon and back -/

/-- **C42, violated.** In the default mode a rectangle loses one row and one column. -/
theorem C42_rectangle_polygon_false (fresh : Nat → List UInt8) :
    ∃ p, convert false fresh (.rectangle (.ofInt 0) (.ofInt 0) (.ofInt 4) (.ofInt 3)) .polygon = .ok (some p) ∧
      convert false fresh p .rectangle = .ok (some (.rectangle (.ofInt 0) (.ofInt 0) (.ofInt 3) (.ofInt 2))) :=
  ⟨_, rfl, rfl⟩

theorem rect_box (legacy : Bool) (fresh : Nat → List UInt8) (x y r b : Flt)
    (hf : ∀ c ∈ [x, y, r, b], c.IsFloat ∧ c.IsFinite) (hxr : x.value ≤ r.value) (hyb : y.value ≤ b.value)
    (hr0 : Flt.fltMin.value ≤ r.value) (hb0 : Flt.fltMin.value ≤ b.value)
    (hw : r.value - x.value ≤ Flt.fltMax.value) (hh : b.value - y.value ≤ Flt.fltMax.value) :
    ∃ x' y' w' h', convert legacy fresh (.polygon [(x, y), (r, y), (r, b), (x, b)]) .rectangle =
        .ok (some (.rectangle x' y' w' h')) ∧
      x'.value = x.value ∧ y'.value = y.value ∧ Nearest (r.value - x.value) w' ∧ Nearest (b.value - y.value) h' := by
  have fx := hf x (by simp)
  have fy := hf y (by simp)
  have fr := hf r (by simp)
  have fb := hf b (by simp)
  apply C41_polygon_box_partial legacy fresh _ _ _ _ _ _ _ _ _ _ hr0 hb0 hw hh
  · intro p hp
    simp only [List.mem_cons, List.not_mem_nil, or_false] at hp
    rcases hp with rfl | rfl | rfl | rfl <;> simp_all
  · refine ⟨?_, (x, y), by simp, rfl⟩
    intro p hp
    simp only [List.mem_cons, List.not_mem_nil, or_false] at hp
    rcases hp with rfl | rfl | rfl | rfl <;> simp_all
  · refine ⟨?_, (r, y), by simp, rfl⟩
    intro p hp
    simp only [List.mem_cons, List.not_mem_nil, or_false] at hp
    rcases hp with rfl | rfl | rfl | rfl <;> simp_all
  · refine ⟨?_, (x, y), by simp, rfl⟩
    intro p hp
    simp only [List.mem_cons, List.not_mem_nil, or_false] at hp
    rcases hp with rfl | rfl | rfl | rfl <;> simp_all
  · refine ⟨?_, (x, b), by simp, rfl⟩
    intro p hp
    simp only [List.mem_cons, List.not_mem_nil, or_false] at hp
    rcases hp with rfl | rfl | rfl | rfl <;> simp_all

/-- `q` is a single precision number. -/
def Spec.Exact (q : ℚ) : Prop := ∃ z : Flt, z.IsFloat ∧ z.IsFinite ∧ z.value = q

/-- **C42, what holds.** In legacy mode a rectangle with a size that is not negative comes back unchanged
if its right and bottom ends are single precision numbers and not below `FLT_MIN`. Missing: the
default mode, ends that must be rounded, and ends that are not positive (C41). -/
theorem C42_legacy_partial (fresh : Nat → List UInt8) (x y w h : Flt)
    (hf : ∀ c ∈ [x, y, w, h], c.IsFloat ∧ c.IsFinite) (hw : 0 ≤ w.value) (hh : 0 ≤ h.value)
    (hr : Exact (x.value + w.value)) (hb : Exact (y.value + h.value))
    (hr0 : Flt.fltMin.value ≤ x.value + w.value) (hb0 : Flt.fltMin.value ≤ y.value + h.value) :
    ∃ p x' y' w' h', convert true fresh (.rectangle x y w h) .polygon = .ok (some p) ∧
      convert true fresh p .rectangle = .ok (some (.rectangle x' y' w' h')) ∧
      x'.value = x.value ∧ y'.value = y.value ∧ w'.value = w.value ∧ h'.value = h.value := by
  have fx := hf x (by simp)
  have fy := hf y (by simp)
  have fw := hf w (by simp)
  have fh := hf h (by simp)
  obtain ⟨zr, zr1, zr2, zr3⟩ := hr
  obtain ⟨zb, zb1, zb2, zb3⟩ := hb
  have nr := Flt.addF_nearest fx.2 fw.2 (by rw [← zr3]; exact Flt.abs_le_fltMax zr1)
  have nb := Flt.addF_nearest fy.2 fh.2 (by rw [← zb3]; exact Flt.abs_le_fltMax zb1)
  have er := Flt.Nearest.exact nr zr1 zr2 zr3
  have eb := Flt.Nearest.exact nb zb1 zb2 zb3
  obtain ⟨x', y', w', h', h1, h2, h3, h4, h5⟩ := rect_box true fresh x y (x.addF w) (y.addF h)
    (by
      intro c hc
      simp only [List.mem_cons, List.not_mem_nil, or_false] at hc
      rcases hc with rfl | rfl | rfl | rfl
      · exact fx
      · exact fy
      · exact ⟨nr.1, nr.2.1⟩
      · exact ⟨nb.1, nb.2.1⟩)
    (by rw [er]; linarith) (by rw [eb]; linarith) (by rw [er]; exact hr0) (by rw [eb]; exact hb0)
    (by rw [er, add_sub_cancel_left]; exact Flt.le_fltMax fw.1) (by rw [eb, add_sub_cancel_left]; exact Flt.le_fltMax fh.1)
  rw [er, add_sub_cancel_left] at h4
  rw [eb, add_sub_cancel_left] at h5
  exact ⟨_, x', y', w', h', rfl, h1, h2, h3, Flt.Nearest.exact h4 fw.1 fw.2 rfl, Flt.Nearest.exact h5 fh.1 fh.2 rfl⟩

/-- **C42, what holds (default mode).** There exactly one row and one column are lost, if the ends are
single precision numbers. -/
theorem C42_default_partial (fresh : Nat → List UInt8) (x y w h : Flt)
    (hf : ∀ c ∈ [x, y, w, h], c.IsFloat ∧ c.IsFinite) (hw : 1 ≤ w.value) (hh : 1 ≤ h.value)
    (hr : Exact (x.value + w.value)) (hb : Exact (y.value + h.value))
    (hr' : Exact (x.value + w.value - 1)) (hb' : Exact (y.value + h.value - 1))
    (hw' : Exact (w.value - 1)) (hh' : Exact (h.value - 1))
    (hr0 : Flt.fltMin.value ≤ x.value + w.value - 1) (hb0 : Flt.fltMin.value ≤ y.value + h.value - 1) :
    ∃ p x' y' w' h', convert false fresh (.rectangle x y w h) .polygon = .ok (some p) ∧
      convert false fresh p .rectangle = .ok (some (.rectangle x' y' w' h')) ∧
      x'.value = x.value ∧ y'.value = y.value ∧ w'.value = w.value - 1 ∧ h'.value = h.value - 1 := by
  have fx := hf x (by simp)
  have fy := hf y (by simp)
  have fw := hf w (by simp)
  have fh := hf h (by simp)
  obtain ⟨zr, zr1, zr2, zr3⟩ := hr
  obtain ⟨zb, zb1, zb2, zb3⟩ := hb
  obtain ⟨yr, yr1, yr2, yr3⟩ := hr'
  obtain ⟨yb, yb1, yb2, yb3⟩ := hb'
  obtain ⟨yw, yw1, yw2, yw3⟩ := hw'
  obtain ⟨yh, yh1, yh2, yh3⟩ := hh'
  have one : Flt.one.value = 1 := by simpa using Flt.one_is.value
  have nr := Flt.addF_nearest fx.2 fw.2 (by rw [← zr3]; exact Flt.abs_le_fltMax zr1)
  have nb := Flt.addF_nearest fy.2 fh.2 (by rw [← zb3]; exact Flt.abs_le_fltMax zb1)
  have er := Flt.Nearest.exact nr zr1 zr2 zr3
  have eb := Flt.Nearest.exact nb zb1 zb2 zb3
  have nr' := Flt.subF_nearest nr.2.1 Flt.one_is.finite (by rw [er, one, ← yr3]; exact Flt.abs_le_fltMax yr1)
  have nb' := Flt.subF_nearest nb.2.1 Flt.one_is.finite (by rw [eb, one, ← yb3]; exact Flt.abs_le_fltMax yb1)
  rw [er, one] at nr'
  rw [eb, one] at nb'
  have er' := Flt.Nearest.exact nr' yr1 yr2 yr3
  have eb' := Flt.Nearest.exact nb' yb1 yb2 yb3
  have ew : x.value + w.value - 1 - x.value = w.value - 1 := by ring
  have eh : y.value + h.value - 1 - y.value = h.value - 1 := by ring
  obtain ⟨x', y', w', h', h1, h2, h3, h4, h5⟩ := rect_box false fresh x y ((x.addF w).subF .one) ((y.addF h).subF .one)
    (by
      intro c hc
      simp only [List.mem_cons, List.not_mem_nil, or_false] at hc
      rcases hc with rfl | rfl | rfl | rfl
      · exact fx
      · exact fy
      · exact ⟨nr'.1, nr'.2.1⟩
      · exact ⟨nb'.1, nb'.2.1⟩)
    (by rw [er']; linarith) (by rw [eb']; linarith) (by rw [er']; exact hr0) (by rw [eb']; exact hb0)
    (by rw [er', ew, ← yw3]; exact Flt.le_fltMax yw1) (by rw [eb', eh, ← yh3]; exact Flt.le_fltMax yh1)
  rw [er', ew] at h4
  rw [eb', eh] at h5
  exact ⟨_, x', y', w', h', rfl, h1, h2, h3, Flt.Nearest.exact h4 yw1 yw2 yw3, Flt.Nearest.exact h5 yh1 yh2 yh3⟩

example : ∃ p, convert true (fun _ => []) (.rectangle (.ofInt (-2)) (.ofInt 3) (.ofInt 4) (.ofInt 5)) .polygon = .ok (some p) ∧
    convert true (fun _ => []) p .rectangle = .ok (some (.rectangle (.ofInt (-2)) (.ofInt 3) (.ofInt 4) (.ofInt 5))) :=
  ⟨_, rfl, by decide +kernel⟩

/-! ## C43: conversion to a mask -/

/-- **C43, violated.** The triangle (0,0), (4,0), (0,3) becomes a mask at height 4, which is the right end
of the triangle, and none of its pixels is set. -/
theorem C43_polygon_mask_false :
    convert false (fun n => List.replicate n 7) (.polygon [(.ofInt 0, .ofInt 0), (.ofInt 4, .ofInt 0), (.ofInt 0, .ofInt 3)]) .mask =
      .ok (some (.mask 0 4 4 3 (List.replicate 12 0))) := by
  decide +kernel

/-- The mask cannot even be made for a region that is less than one pixel wide. -/
theorem C43_small_false :
    convert false (fun n => List.replicate n 7) (.rectangle (.ofInt 0) (.ofInt 0) (Flt.one.divF (.ofInt 2)) (.ofInt 3)) .mask = .abort := by
  decide +kernel

theorem rectangle_mask (legacy : Bool) (fresh : Nat → List UInt8) (hfresh : ∀ n, (fresh n).length = n)
    {X Y W H : Flt} {x y : Int} {w h : Nat} (hX : X.toInt = .ok x) (hY : Y.toInt = .ok y) (hW : W.toInt = .ok (w : Int)) (hH : H.toInt = .ok (h : Int))
    (hw : 0 < w) (hh : 0 < h) (hsz : w * h < 2 ^ 31) :
    convert legacy fresh (.rectangle X Y W H) .mask = .ok (some (.mask x y w h (List.replicate (w * h) 255))) := by
  have h31 : (2 : Nat) ^ 31 = 2147483648 := by norm_num
  have hw' : w ≤ w * h := Nat.le_mul_of_pos_right _ hh
  have hh' : h ≤ w * h := Nat.le_mul_of_pos_left _ hw
  have hp : InInt32 ((w : Int) * h) := by
    have : ((w : Int) * h) = ((w * h : Nat) : Int) := by push_cast; rfl
    rw [this]; unfold InInt32; omega
  show X.toInt.bind _ = _
  rw [hX, Outcome.bind_ok, hY, Outcome.bind_ok, hW, Outcome.bind_ok, hH, Outcome.bind_ok]
  unfold createMask
  rw [if_pos (by omega), Outcome.bind_ok]
  unfold memsetArea mul32
  have ht : ((w : Int) * h).toNat = w * h := by
    have : ((w : Int) * h) = ((w * h : Nat) : Int) := by push_cast; rfl
    rw [this]; exact Int.toNat_natCast _
  rw [if_pos hp, Outcome.bind_ok, ht, hfresh, if_pos]
  · rw [List.drop_of_length_le (by rw [hfresh])]
    simp [Outcome.map]
  · push_cast
    exact ⟨by positivity, le_refl _⟩

/-- **C43, what holds.** A rectangle with whole coordinates becomes a mask with the same offset and size
that is all foreground. Missing: polygons (violated), other rectangles (truncated). -/
theorem C43_rectangle_partial (legacy : Bool) (fresh : Nat → List UInt8) (hfresh : ∀ n, (fresh n).length = n)
    (X Y W H : Flt) (x y : Int) (w h : Nat) (hf : ∀ c ∈ [X, Y, W, H], c.IsFinite)
    (hX : X.value = x) (hY : Y.value = y) (hW : W.value = w) (hH : H.value = h) (hx : InInt32 x) (hy : InInt32 y) (hw : 0 < w) (hh : 0 < h) (hsz : w * h < 2 ^ 31) :
    convert legacy fresh (.rectangle X Y W H) .mask = .ok (some (.mask x y w h (List.replicate (w * h) 255))) := by
  replace hX : X.Is x := Flt.is_of_value (hf X (by simp)) hX
  replace hY : Y.Is y := Flt.is_of_value (hf Y (by simp)) hY
  replace hW : W.Is w := Flt.is_of_value (hf W (by simp)) hW
  replace hH : H.Is h := Flt.is_of_value (hf H (by simp)) hH
  have h31 : (2 : Nat) ^ 31 = 2147483648 := by norm_num
  have hw' : w ≤ w * h := Nat.le_mul_of_pos_right _ hh
  have hh' : h ≤ w * h := Nat.le_mul_of_pos_left _ hw
  exact rectangle_mask legacy fresh hfresh (hX.toInt hx) (hY.toInt hy) (hW.toInt (by unfold InInt32; omega)) (hH.toInt (by unfold InInt32; omega)) hw hh hsz

/-- **C43, what the code does with any other rectangle** that is at least one pixel wide and high: position and size are each cut
towards zero, and the mask is all foreground. -/
theorem C43_cut_rectangle_partial (legacy : Bool) (fresh : Nat → List UInt8) (hfresh : ∀ n, (fresh n).length = n)
    (X Y W H : Flt) (hf : ∀ c ∈ [X, Y, W, H], c.IsFinite) (hX : |X.value| < 2 ^ 31) (hY : |Y.value| < 2 ^ 31)
    (hW : 1 ≤ W.value) (hH : 1 ≤ H.value) (hsz : W.value * H.value < 2 ^ 31) :
    ∃ (x y : Int) (w h : Nat), convert legacy fresh (.rectangle X Y W H) .mask = .ok (some (.mask x y w h (List.replicate (w * h) 255))) ∧
      ((0 ≤ X.value → x = ⌊X.value⌋) ∧ (X.value < 0 → x = ⌈X.value⌉)) ∧ ((0 ≤ Y.value → y = ⌊Y.value⌋) ∧ (Y.value < 0 → y = ⌈Y.value⌉)) ∧
      (w : Int) = ⌊W.value⌋ ∧ (h : Int) = ⌊H.value⌋ := by
  obtain ⟨x, x1, -, x2, x3⟩ := Flt.toInt_trunc (hf X (by simp)) hX
  obtain ⟨y, y1, -, y2, y3⟩ := Flt.toInt_trunc (hf Y (by simp)) hY
  have hW' : W.value < 2 ^ 31 := by nlinarith
  have hH' : H.value < 2 ^ 31 := by nlinarith
  obtain ⟨w, w1, w2, w3⟩ := Flt.toInt_floor (hf W (by simp)) (by linarith) hW'
  obtain ⟨h, h1, h2, h3⟩ := Flt.toInt_floor (hf H (by simp)) (by linarith) hH'
  have hw0 : 0 < w := by
    have : (0 : ℚ) < w := by linarith
    exact_mod_cast this
  have hh0 : 0 < h := by
    have : (0 : ℚ) < h := by linarith
    exact_mod_cast this
  have hwh : w * h < 2 ^ 31 := by
    have : (w : ℚ) * h < 2 ^ 31 := lt_of_le_of_lt (mul_le_mul w2 h2 (Nat.cast_nonneg _) (by linarith)) hsz
    exact_mod_cast this
  refine ⟨x, y, w, h, rectangle_mask legacy fresh hfresh x1 y1 w1 h1 hw0 hh0 hwh, ⟨fun h => ?_, fun h => ?_⟩, ⟨fun h => ?_, fun h => ?_⟩, ?_, ?_⟩
  · exact (Int.floor_eq_iff.mpr (x2 h)).symm
  · exact (Int.ceil_eq_iff.mpr (x3 h)).symm
  · exact (Int.floor_eq_iff.mpr (y2 h)).symm
  · exact (Int.ceil_eq_iff.mpr (y3 h)).symm
  · exact (Int.floor_eq_iff.mpr ⟨by rw [Int.cast_natCast]; exact w2, by rw [Int.cast_natCast]; exact w3⟩).symm
  · exact (Int.floor_eq_iff.mpr ⟨by rw [Int.cast_natCast]; exact h2, by rw [Int.cast_natCast]; exact h3⟩).symm

/-- So **C43 is violated** by a rectangle between pixels: from 0.75 with width 2 the mask holds the pixels 0 and 1, and the rasterised
rectangle the pixels 1 and 2. -/
theorem C43_fraction_false :
    (Flt.fin false (3 * 2 ^ 147)).value = 3 / 4 ∧
    convert false (fun n => List.replicate n 7) (.rectangle (.fin false (3 * 2 ^ 147)) (.ofInt 0) (.ofInt 2) (.ofInt 1)) .mask =
      .ok (some (.mask 0 0 2 1 [255, 255])) ∧
    getMaskOffset false (.rectangle (.fin false (3 * 2 ^ 147)) (.ofInt 0) (.ofInt 2) (.ofInt 1)) [7, 7, 7, 7] 0 0 4 1 = .ok [0, 1, 1, 0] := by
  refine ⟨by rw [Flt.value_fin]; norm_num [Flt.signed], by decide +kernel, by decide +kernel⟩

example : convert false (fun n => List.replicate n 7) (.rectangle (.ofInt (-2)) (.ofInt 3) (.ofInt 2) (.ofInt 1)) .mask =
    .ok (some (.mask (-2) 3 2 1 [255, 255])) := by decide +kernel

/-! ## C45: points -/

/-- **C45, violated.** The end of a rectangle is rounded, here up from 16777219; left of the origin the
point is looked up in the wrong pixel, and even outside the mask. -/
theorem C45_point_false :
    containsPoint (.rectangle (.ofInt 16777218) (.ofInt 0) (.ofInt 1) (.ofInt 1)) (.ofInt 16777220) (.ofInt 0) = .ok true ∧
    containsPoint (.mask (-2) 0 2 1 [1, 0]) ((Flt.ofInt (-3)).divF (.ofInt 2)) (.ofInt 0) = .ok false ∧
    containsPoint (.mask (-1) 0 1 1 [1]) ((Flt.ofInt (-1)).divF (.ofInt 2)) (.ofInt 0) = .ub := by
  decide +kernel

/-- **C45, what holds (rectangles).** If the right and bottom ends are single precision numbers, a
rectangle contains exactly the points within it. Missing: ends that must be rounded. -/
theorem C45_rectangle_partial (rx ry rw rh x y : Flt) (hf : ∀ c ∈ [rx, ry, rw, rh, x, y], c.IsFinite)
    (hr : Exact (rx.value + rw.value)) (hb : Exact (ry.value + rh.value)) :
    ∃ b, containsPoint (.rectangle rx ry rw rh) x y = .ok b ∧
      (b = true ↔ (rx.value ≤ x.value ∧ x.value ≤ rx.value + rw.value) ∧
        (ry.value ≤ y.value ∧ y.value ≤ ry.value + rh.value)) := by
  have frx := hf rx (by simp)
  have fry := hf ry (by simp)
  have frw := hf rw (by simp)
  have frh := hf rh (by simp)
  have fx := hf x (by simp)
  have fy := hf y (by simp)
  obtain ⟨zr, zr1, zr2, zr3⟩ := hr
  obtain ⟨zb, zb1, zb2, zb3⟩ := hb
  rw [add_comm] at zr3 zb3
  have nr := Flt.addF_nearest frw frx (by rw [← zr3]; exact Flt.abs_le_fltMax zr1)
  have nb := Flt.addF_nearest frh fry (by rw [← zb3]; exact Flt.abs_le_fltMax zb1)
  have er := Flt.Nearest.exact nr zr1 zr2 zr3
  have eb := Flt.Nearest.exact nb zb1 zb2 zb3
  refine ⟨_, rfl, ?_⟩
  rw [Bool.and_eq_true, Bool.and_eq_true, Bool.and_eq_true, Flt.le_iff frx fx, Flt.le_iff fx nr.2.1, Flt.le_iff fry fy,
    Flt.le_iff fy nb.2.1, er, eb, add_comm rw.value, add_comm rh.value]
  tauto

/-- **C45, what holds (rectangles, rounded ends).** A point within a rectangle is contained in it. -/
theorem C45_rectangle_inside (rx ry rw rh x y : Flt) (hf : ∀ c ∈ [rx, ry, rw, rh, x, y], c.IsFinite)
    (hx : x.IsFloat) (hy : y.IsFloat) (hr : |rx.value + rw.value| ≤ Flt.fltMax.value) (hb : |ry.value + rh.value| ≤ Flt.fltMax.value)
    (h : (rx.value ≤ x.value ∧ x.value ≤ rx.value + rw.value) ∧ (ry.value ≤ y.value ∧ y.value ≤ ry.value + rh.value)) :
    containsPoint (.rectangle rx ry rw rh) x y = .ok true := by
  have frx := hf rx (by simp)
  have fry := hf ry (by simp)
  have frw := hf rw (by simp)
  have frh := hf rh (by simp)
  have fx := hf x (by simp)
  have fy := hf y (by simp)
  have nr := Flt.addF_nearest frw frx (by rw [add_comm]; exact hr)
  have nb := Flt.addF_nearest frh fry (by rw [add_comm]; exact hb)
  have h1 := Flt.Nearest.ge nr hx fx (by linarith)
  have h2 := Flt.Nearest.ge nb hy fy (by linarith)
  show Outcome.ok _ = _
  rw [(Flt.le_iff frx fx).mpr h.1.1, (Flt.le_iff fx nr.2.1).mpr h1, (Flt.le_iff fry fy).mpr h.2.1, (Flt.le_iff fy nb.2.1).mpr h2]
  rfl

example : containsPoint (.rectangle (.ofInt 2) (.ofInt 3) (.ofInt 4) (.ofInt 5)) (.ofInt 6) (.ofInt 8) = .ok true ∧
    containsPoint (.rectangle (.ofInt 2) (.ofInt 3) (.ofInt 4) (.ofInt 5)) (.ofInt 7) (.ofInt 8) = .ok false := by decide +kernel

/-- **C45, what holds (masks).** For a mask at a non-negative position below 2^24 a point is contained iff
the pixel under it is foreground, and no memory outside the mask is read. Missing: negative and
larger positions. -/
theorem C45_mask_partial (mx my : Nat) (w h : Nat) (data : List UInt8) (hlen : data.length = w * h) (hsz : w * h < 2 ^ 31)
    (hx : mx + w ≤ 2 ^ 24) (hy : my + h ≤ 2 ^ 24) (x y : Flt) (fx : x.IsFinite) (fy : y.IsFinite) :
    ∃ b, containsPoint (.mask mx my w h data) x y = .ok b ∧
      (b = true ↔ ∃ p, IsForeground w h data p ∧
        (mx + p.1 : ℚ) ≤ x.value ∧ x.value < mx + p.1 + 1 ∧ (my + p.2 : ℚ) ≤ y.value ∧ y.value < my + p.2 + 1) := by
  have h24 : (2 : Nat) ^ 24 = 16777216 := by norm_num
  have h24' : (2 : Int) ^ 24 = 16777216 := by norm_num
  have h31 : (2 : Nat) ^ 31 = 2147483648 := by norm_num
  rw [h24] at hx hy
  rw [h31] at hsz
  have smx : (Flt.ofInt mx).Is mx := Flt.ofInt_small (by rw [abs_of_nonneg (by positivity), h24']; omega)
  have smy : (Flt.ofInt my).Is my := Flt.ofInt_small (by rw [abs_of_nonneg (by positivity), h24']; omega)
  have sr : (Flt.ofInt ((mx : Int) + w)).Is ((mx : Int) + w) :=
    Flt.ofInt_small (by rw [abs_of_nonneg (by positivity), h24']; omega)
  have sb : (Flt.ofInt ((my : Int) + h)).Is ((my : Int) + h) :=
    Flt.ofInt_small (by rw [abs_of_nonneg (by positivity), h24']; omega)
  have lt1 : x.lt (.ofInt mx) = true ↔ x.value < mx := by rw [Flt.lt_iff fx smx.finite, smx.value]; norm_cast
  have lt2 : y.lt (.ofInt my) = true ↔ y.value < my := by rw [Flt.lt_iff fy smy.finite, smy.value]; norm_cast
  have le1 : (Flt.ofInt ((mx : Int) + w)).le x = true ↔ (mx + w : ℚ) ≤ x.value := by
    rw [Flt.le_iff sr.finite fx, sr.value]; push_cast; rfl
  have le2 : (Flt.ofInt ((my : Int) + h)).le y = true ↔ (my + h : ℚ) ≤ y.value := by
    rw [Flt.le_iff sb.finite fy, sb.value]; push_cast; rfl
  have none_of : ∀ (P : Prop), (P → False) → ∃ b : Bool, (Outcome.ok false = Outcome.ok b) ∧ (b = true ↔ P) :=
    fun P hP => ⟨false, rfl, by simp; exact hP⟩
  show ∃ b, pointInMask mx my w h data x y = .ok b ∧ _
  unfold pointInMask
  have c1 : chk32 ((mx : Int) + w) = .ok ((mx : Int) + w) := by unfold chk32; rw [if_pos]; unfold InInt32; omega
  have c2 : chk32 ((my : Int) + h) = .ok ((my : Int) + h) := by unfold chk32; rw [if_pos]; unfold InInt32; omega
  rw [c1, c2, Outcome.bind_ok, Outcome.bind_ok]
  have castlt : ∀ a b : Nat, a < b → (a : ℚ) + 1 ≤ b := fun a b h => by exact_mod_cast h
  have castnn : ∀ a : Nat, (0 : ℚ) ≤ a := fun a => by positivity
  by_cases g1 : x.lt (.ofInt mx) || y.lt (.ofInt my)
  · rw [if_pos g1]
    apply none_of
    rintro ⟨p, hp, a1, a2, a3, a4⟩
    have n1 := castnn p.1
    have n2 := castnn p.2
    rcases Bool.or_eq_true_iff.mp g1 with g | g
    · have := lt1.mp g; linarith
    · have := lt2.mp g; linarith
  rw [if_neg g1]
  have hx0 : (mx : ℚ) ≤ x.value := not_lt.mp fun hc => g1 (by rw [Bool.or_eq_true]; exact .inl (lt1.mpr hc))
  have hy0 : (my : ℚ) ≤ y.value := not_lt.mp fun hc => g1 (by rw [Bool.or_eq_true]; exact .inr (lt2.mpr hc))
  by_cases g2 : (Flt.ofInt ((mx : Int) + w)).le x = true
  · rw [if_pos g2]
    apply none_of
    rintro ⟨p, hp, a1, a2, a3, a4⟩
    have := le1.mp g2
    have := castlt _ _ hp.1
    linarith
  rw [if_neg g2]
  by_cases g3 : (Flt.ofInt ((my : Int) + h)).le y = true
  · rw [if_pos g3]
    apply none_of
    rintro ⟨p, hp, a1, a2, a3, a4⟩
    have := le2.mp g3
    have := castlt _ _ hp.2.1
    linarith
  rw [if_neg g3]
  have hx1 : x.value < mx + w := not_le.mp fun hc => g2 (le1.mpr hc)
  have hy1 : y.value < my + h := not_le.mp fun hc => g3 (le2.mpr hc)
  have bx : ((mx + w : Nat) : ℚ) < 2 ^ 31 := by
    have : mx + w < 2 ^ 31 := by omega
    exact_mod_cast this
  have by' : ((my + h : Nat) : ℚ) < 2 ^ 31 := by
    have : my + h < 2 ^ 31 := by omega
    exact_mod_cast this
  push_cast at bx by'
  obtain ⟨n, hn, n1, n2⟩ := Flt.toInt_floor fx (le_trans (castnn mx) hx0) (by linarith)
  obtain ⟨k, hk, k1, k2⟩ := Flt.toInt_floor fy (le_trans (castnn my) hy0) (by linarith)
  have e1 : mx ≤ n := by
    have : (mx : ℚ) < n + 1 := by linarith
    have : mx < n + 1 := by exact_mod_cast this
    omega
  have e2 : my ≤ k := by
    have : (my : ℚ) < k + 1 := by linarith
    have : my < k + 1 := by exact_mod_cast this
    omega
  have e3 : n < mx + w := by
    have : (n : ℚ) < mx + w := by linarith
    exact_mod_cast this
  have e4 : k < my + h := by
    have : (k : ℚ) < my + h := by linarith
    exact_mod_cast this
  obtain ⟨j, rfl⟩ := Nat.exists_eq_add_of_le e1
  obtain ⟨i, rfl⟩ := Nat.exists_eq_add_of_le e2
  have hj : j < w := by omega
  have hi : i < h := by omega
  have hidx : j + i * w < w * h := by
    have : (i + 1) * w ≤ h * w := Nat.mul_le_mul_right _ hi
    rw [Nat.add_mul, Nat.one_mul, Nat.mul_comm h w] at this
    omega
  have d1 : chk32 (((mx + j : Nat) : Int) - mx) = .ok (j : Int) := by
    unfold chk32; rw [if_pos (by unfold InInt32; omega)]; congr 1; omega
  have d2 : chk32 (((my + i : Nat) : Int) - my) = .ok (i : Int) := by
    unfold chk32; rw [if_pos (by unfold InInt32; omega)]; congr 1; omega
  have d3 : mul32 (i : Int) w = .ok ((i * w : Nat) : Int) := by
    unfold mul32
    have : (i : Int) * w = ((i * w : Nat) : Int) := by push_cast; rfl
    rw [this, if_pos (by unfold InInt32; omega)]
  have d4 : chk32 ((j : Int) + ((i * w : Nat) : Int)) = .ok ((j + i * w : Nat) : Int) := by
    have : (j : Int) + ((i * w : Nat) : Int) = ((j + i * w : Nat) : Int) := by push_cast; rfl
    unfold chk32
    rw [this, if_pos (by unfold InInt32; omega)]
  have d5 : readAt data ((j + i * w : Nat) : Int) = .ok (data.getD (j + i * w) 0) := by
    unfold readAt
    rw [if_pos (by positivity), Int.toNat_natCast, List.getD_eq_getElem?_getD, List.getElem?_eq_getElem (by omega)]
    rfl
  rw [hn, Outcome.bind_ok, d1, Outcome.bind_ok, hk, Outcome.bind_ok, d2, Outcome.bind_ok, d3, Outcome.bind_ok, d4,
    Outcome.bind_ok, d5]
  refine ⟨_, rfl, ?_⟩
  rw [decide_eq_true_eq]
  push_cast at n1 n2 k1 k2
  constructor
  · intro hne
    exact ⟨(j, i), ⟨hj, hi, hne⟩, by linarith, by linarith, by linarith, by linarith⟩
  · rintro ⟨⟨p, q⟩, ⟨hp1, hp2, hp3⟩, a1, a2, a3, a4⟩
    simp only at *
    have q1 : (p : ℚ) < j + 1 := by linarith
    have q2 : (j : ℚ) < p + 1 := by linarith
    have q3 : (q : ℚ) < i + 1 := by linarith
    have q4 : (i : ℚ) < q + 1 := by linarith
    have q1' : p < j + 1 := by exact_mod_cast q1
    have q2' : j < p + 1 := by exact_mod_cast q2
    have q3' : q < i + 1 := by exact_mod_cast q3
    have q4' : i < q + 1 := by exact_mod_cast q4
    have ep : p = j := by omega
    have eq : q = i := by omega
    rw [← ep, ← eq]
    exact hp3

example : containsPoint (.mask 5 7 2 2 [0, 0, 9, 0]) ((Flt.ofInt 11).divF (.ofInt 2)) ((Flt.ofInt 35).divF (.ofInt 4)) = .ok true ∧
    containsPoint (.mask 5 7 2 2 [0, 0, 9, 0]) (.ofInt 6) (.ofInt 8) = .ok false := by decide +kernel

end Trax
