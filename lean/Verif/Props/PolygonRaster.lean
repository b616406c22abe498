import Verif.Lemmas.PolygonRaster
import Verif.Props.Raster

/-!
# Property theorems C143: which pixels of a polygon are marked
-/

namespace Trax
open Region Spec

/-- A polygon with whole corners. -/
def poly (cs : List (Int × Int)) : Region := .polygon (cs.map fun c => (.ofInt c.1, .ofInt c.2))

/-- The corners of the polygon are these whole numbers. -/
def Corners (ps : List (Flt × Flt)) (cs : List (Int × Int)) : Prop :=
  List.Forall₂ (fun p c => p.1.IsFinite ∧ p.2.IsFinite ∧ p.1.value = c.1 ∧ p.2.value = c.2) ps cs

theorem Corners.whole {ps : List (Flt × Flt)} {cs : List (Int × Int)} (h : Corners ps cs) : List.Forall₂ WholeAt ps cs := by
  induction h with
  | nil => exact .nil
  | cons h _ ih => exact .cons ⟨Flt.is_of_value h.1 h.2.2.1, Flt.is_of_value h.2.1 h.2.2.2⟩ ih

/-- The points the rasterisation works on. -/
theorem whole_moved {ps : List (Flt × Flt)} {cs : List (Int × Int)} (h : List.Forall₂ WholeAt ps cs) (wx wy : Int)
    (hb : ∀ c ∈ cs, |c.1| ≤ 2 ^ 22 ∧ |c.2| ≤ 2 ^ 22) (hwx : |wx| ≤ 2 ^ 22) (hwy : |wy| ≤ 2 ^ 22) :
    List.Forall₂ WholeAt (offsetPolygon ps (.ofInt (-wx)) (.ofInt (-wy))) (cs.map (move (-wx) (-wy))) ∧
    (∀ c ∈ cs.map (move (-wx) (-wy)), |c.1| ≤ 2 ^ 23 ∧ |c.2| ≤ 2 ^ 23) := by
  have h20 : (2 : Int) ^ 22 = 4194304 := by norm_num
  have h21 : (2 : Int) ^ 23 = 8388608 := by norm_num
  have h24 : (2 : Int) ^ 24 = 16777216 := by norm_num
  have ab : ∀ n k : Int, |n| ≤ k ↔ -k ≤ n ∧ n ≤ k := fun n k => abs_le
  simp only [ab, h20, h21] at hb hwx hwy ⊢
  have ox : (Flt.ofInt (-wx)).Is (-wx) := Flt.ofInt_small (by rw [ab, h24]; omega)
  have oy : (Flt.ofInt (-wy)).Is (-wy) := Flt.ofInt_small (by rw [ab, h24]; omega)
  constructor
  · unfold offsetPolygon
    induction h with
    | nil => exact .nil
    | @cons p c ps cs hpc _ ih =>
      have := hb c List.mem_cons_self
      refine .cons ⟨hpc.1.add ox ?_, hpc.2.add oy ?_⟩ (ih fun c hc => hb c (List.mem_cons_of_mem _ hc))
      · rw [ab, h24]; omega
      · rw [ab, h24]; omega
  · intro c0 hc0
    obtain ⟨c, hc, rfl⟩ := List.mem_map.mp hc0
    have := hb c hc
    unfold move
    dsimp only
    omega

theorem whole_round {ps : List (Flt × Flt)} {cs : List (Int × Int)} (h : List.Forall₂ WholeAt ps cs) :
    List.Forall₂ WholeAt (roundPolygon ps) cs := by
  unfold roundPolygon
  induction h with
  | nil => exact .nil
  | cons h _ ih => exact .cons ⟨h.1.round, h.2.round⟩ ih

theorem whole_small {ps : List (Flt × Flt)} {cs : List (Int × Int)} (h : List.Forall₂ WholeAt ps cs)
    (hb : ∀ c ∈ cs, |c.1| ≤ 2 ^ 23 ∧ |c.2| ≤ 2 ^ 23) : ∀ p ∈ ps, SmallCoord p.1 ∧ SmallCoord p.2 := by
  induction h with
  | nil => simp
  | @cons p c ps cs hpc _ ih =>
    intro q hq
    rcases List.mem_cons.mp hq with rfl | hq
    · obtain ⟨b1, b2⟩ := hb c List.mem_cons_self
      exact ⟨(hpc.1.smallInt (le_trans b1 (by norm_num))).coord, (hpc.2.smallInt (le_trans b2 (by norm_num))).coord⟩
    · exact ih (fun c hc => hb c (List.mem_cons_of_mem _ hc)) q hq

/-- What is needed of the corners after they have been moved to the window and rounded. -/
structure Placed (ps : List (Flt × Flt)) (cs : List (Int × Int)) (wx wy : Int) : Prop where
  small : ∀ p ∈ offsetPolygon ps (.ofInt (-wx)) (.ofInt (-wy)), SmallCoord p.1 ∧ SmallCoord p.2
  whole : List.Forall₂ WholeAt (roundPolygon (offsetPolygon ps (.ofInt (-wx)) (.ofInt (-wy)))) (cs.map (move (-wx) (-wy)))
  bound : ∀ c ∈ cs.map (move (-wx) (-wy)), |c.1| ≤ 2 ^ 23 ∧ |c.2| ≤ 2 ^ 23
  x : |wx| ≤ 2 ^ 22
  y : |wy| ≤ 2 ^ 22

theorem Corners.placed {ps : List (Flt × Flt)} {cs : List (Int × Int)} (h : Corners ps cs) {wx wy : Int}
    (hb : ∀ c ∈ cs, |c.1| ≤ 2 ^ 22 ∧ |c.2| ≤ 2 ^ 22) (hwx : |wx| ≤ 2 ^ 22) (hwy : |wy| ≤ 2 ^ 22) : Placed ps cs wx wy := by
  obtain ⟨hm1, hm2⟩ := whole_moved h.whole wx wy hb hwx hwy
  exact ⟨whole_small hm1 hm2, whole_round hm1, hm2, hwx, hwy⟩

/-- The window of a polygon whose rows are known, in part. -/
theorem polygon_window {ps : List (Flt × Flt)} {cs : List (Int × Int)} {wx wy : Int} (hps : Placed ps cs wx wy) (w h : Nat) (buf : List UInt8)
    (hbuf : w * h ≤ buf.length) (hsz : w * h < 2 ^ 31) (hh : h < 2 ^ 31) (good : Nat → Prop) (P : Nat → Nat → Prop)
    (hP : ∀ row, good row → row < h → ∃ spans : List (Int × Int), ((∀ s ∈ spans, 0 ≤ s.1 ∧ s.2 < (w : Int)) ∧
      ∀ buf, rasterRow false (roundPolygon (offsetPolygon ps (.ofInt (-wx)) (.ofInt (-wy)))) w row buf =
        Outcome.forEach (fun s buf => fillSpan w row s.1 s.2 buf) spans buf) ∧
      ∀ j : Nat, j < w → (0 < j ∨ ∀ c ∈ cs, wx ≤ c.1) → ((∃ s ∈ spans, s.1 ≤ (j : Int) ∧ (j : Int) ≤ s.2) ↔ P row j)) :
    ∃ out, getMaskOffset false (.polygon ps) buf wx wy w h = .ok out ∧ out.length = buf.length ∧ out.drop (w * h) = buf.drop (w * h) ∧
      ∀ i j : Nat, i < h → j < w → good i → (0 < j ∨ ∀ c ∈ cs, wx ≤ c.1) →
        (P i j → out.getD (j + i * w) 0 = 1) ∧ (¬ P i j → out.getD (j + i * w) 0 = 0) := by
  classical
  have hrow : ∀ row, ∃ spans : List (Int × Int), row < h → (((∀ s ∈ spans, 0 ≤ s.1 ∧ s.2 < (w : Int)) ∧
      ∀ buf, rasterRow false (if false = true then (offsetPolygon ps (.ofInt (-wx)) (.ofInt (-wy))) else roundPolygon (offsetPolygon ps (.ofInt (-wx)) (.ofInt (-wy)))) w row buf =
        Outcome.forEach (fun s buf => fillSpan w row s.1 s.2 buf) spans buf) ∧
      (good row → ∀ j : Nat, j < w → (0 < j ∨ ∀ c ∈ cs, wx ≤ c.1) → ((∃ s ∈ spans, s.1 ≤ (j : Int) ∧ (j : Int) ≤ s.2) ↔ P row j))) := by
    intro row
    by_cases hrw : row < h
    · by_cases hg : good row
      · obtain ⟨spans, h1, h2⟩ := hP row hg hrw
        exact ⟨spans, fun _ => ⟨h1, fun _ => h2⟩⟩
      · obtain ⟨spans, h1⟩ := rasterRow_ok false row w (by omega) _ hps.small
        exact ⟨spans, fun _ => ⟨h1, fun h => absurd h hg⟩⟩
    · exact ⟨[], fun h => absurd h hrw⟩
  choose spans hspans using hrow
  obtain ⟨out, h1, h2, h3, h4⟩ := rasterize_spec false _ w h buf hbuf hsz spans (fun row hrw => (hspans row hrw).1)
  refine ⟨out, ?_, h2, h3, fun i j hi hj hgi hj0 => ?_⟩
  · have h20 : (2 : Int) ^ 22 = 4194304 := by norm_num
    have hwx := hps.x
    have hwy := hps.y
    rw [h20, Int.abs_eq_natAbs] at hwx hwy
    unfold getMaskOffset
    simp only
    rw [chk32_ok (n := -wx) (by unfold InInt32; omega), Outcome.bind_ok, chk32_ok (n := -wy) (by unfold InInt32; omega), Outcome.bind_ok, h1]
  · have hiff := (hspans i hi).2 hgi j hj hj0
    exact ⟨fun hp => (h4 i j hi hj).1 (hiff.mpr hp), fun hp => (h4 i j hi hj).2 fun hx => hp (hiff.mp hx)⟩

/-- The window of a convex polygon. -/
theorem convex_window {ps : List (Flt × Flt)} {cs : List (Int × Int)} {wx wy : Int} (hps : Placed ps cs wx wy) (hconv : Spec.Convex cs)
    (w h : Nat) (buf : List UInt8) (hbuf : w * h ≤ buf.length) (hsz : w * h < 2 ^ 31) (hh : h < 2 ^ 31) :
    ∃ out, getMaskOffset false (.polygon ps) buf wx wy w h = .ok out ∧ out.length = buf.length ∧ out.drop (w * h) = buf.drop (w * h) ∧
      ∀ i j : Nat, i < h → j < w → OffGrid cs (wy + i) → (0 < j ∨ ∀ c ∈ cs, wx ≤ c.1) →
        (MeetsPixel cs (wx + j) (wy + i) → out.getD (j + i * w) 0 = 1) ∧ (¬ MeetsPixel cs (wx + j) (wy + i) → out.getD (j + i * w) 0 = 0) := by
  refine polygon_window hps w h buf hbuf hsz hh (fun i => OffGrid cs (wy + i)) (fun i j => MeetsPixel cs (wx + j) (wy + i)) ?_
  intro row hg hrw
  have hm1 := hps.whole
  have hm2 := hps.bound
  have hg' := offGrid_move (-wx) (-wy) hg
  rw [show wy + (row : Int) + -wy = row by ring] at hg'
  obtain ⟨spans, h1, h2⟩ := convex_row (hm1) (hconv.move (-wx) (-wy)) hm2 w row (by omega) hg'
  refine ⟨spans, h1, fun j hj hj0 => ?_⟩
  rw [h2 j hj (hj0.imp id fun h c0 hc0 => by
    obtain ⟨c, hc, rfl⟩ := List.mem_map.mp hc0
    have := h c hc
    unfold move
    dsimp only
    omega)]
  have := meetsPixel_move (-wx) (-wy) cs (wx + j) (wy + row)
  rw [show wy + (row : Int) + -wy = row by ring, show wx + (j : Int) + -wx = j by ring] at this
  exact this

/-- The window of any polygon, in simple rows. -/
theorem rows_window {ps : List (Flt × Flt)} {cs : List (Int × Int)} {wx wy : Int} (hps : Placed ps cs wx wy)
    (w h : Nat) (buf : List UInt8) (hbuf : w * h ≤ buf.length) (hsz : w * h < 2 ^ 31) (hh : h < 2 ^ 31) :
    ∃ out, getMaskOffset false (.polygon ps) buf wx wy w h = .ok out ∧ out.length = buf.length ∧ out.drop (w * h) = buf.drop (w * h) ∧
      ∀ i j : Nat, i < h → j < w → OffGrid cs (wy + i) → (∀ c ∈ cs, c.2 ≠ wy + i) → (∀ c ∈ cs, wx ≤ c.1) →
        ((sides cs).Pairwise fun s s' => Straddles (wy + i) s → Straddles (wy + i) s' → ⌊meets s (wy + i)⌋ ≠ ⌊meets s' (wy + i)⌋) →
        (EvenOddPixel cs (wx + j) (wy + i) → out.getD (j + i * w) 0 = 1) ∧ (¬ EvenOddPixel cs (wx + j) (wy + i) → out.getD (j + i * w) 0 = 0) := by
  obtain ⟨out, o1, o2, o3, o4⟩ := polygon_window hps w h buf hbuf hsz hh (fun i => OffGrid cs (wy + i) ∧ (∀ c ∈ cs, c.2 ≠ wy + i) ∧ (∀ c ∈ cs, wx ≤ c.1) ∧
        ((sides cs).Pairwise fun s s' => Straddles (wy + i) s → Straddles (wy + i) s' → ⌊meets s (wy + i)⌋ ≠ ⌊meets s' (wy + i)⌋))
      (fun i j => EvenOddPixel cs (wx + j) (wy + i)) (by
    rintro row ⟨hg, hcor, hleft, hdist⟩ hrw
    have hm1 := hps.whole
    have hm2 := hps.bound
    have hg' := offGrid_move (-wx) (-wy) hg
    have e : wy + (row : Int) + -wy = row := by ring
    rw [e] at hg'
    obtain ⟨spans, h1, h2⟩ := distinct_row (hm1) hm2 w row (by omega) hg' (by
        intro c0 hc0
        obtain ⟨c, hc, rfl⟩ := List.mem_map.mp hc0
        have := hcor c hc
        unfold move
        dsimp only
        omega) (by
        intro s' hs' hst
        rw [sides_move] at hs'
        obtain ⟨s, hs, rfl⟩ := List.mem_map.mp hs'
        have hm := meets_move (-wx) (-wy) s (wy + row)
        have hst' := (straddles_move (-wx) (-wy) s (wy + row)).mp (by rw [e]; exact hst)
        rw [e] at hm
        rw [hm]
        have hne : s.1.2 ≠ s.2.2 := by unfold Straddles at hst'; omega
        obtain ⟨t, t0, t1, t2, _⟩ := (onSide_iff hne (meets s (wy + row)) (wy + row)).mpr ⟨by unfold Straddles at hst'; unfold Reaches; omega, rfl⟩
        have m := mem_sides hs
        have p1 : (wx : ℚ) ≤ s.1.1 := by exact_mod_cast hleft _ m.1
        have p2 : (wx : ℚ) ≤ s.2.1 := by exact_mod_cast hleft _ m.2
        rw [t2]
        push_cast
        have : (s.1.1 : ℚ) + t * (s.2.1 - s.1.1) + -wx = (1 - t) * (s.1.1 - wx) + t * (s.2.1 - wx) := by ring
        rw [this]
        have := mul_nonneg (show (0 : ℚ) ≤ 1 - t by linarith) (show (0 : ℚ) ≤ s.1.1 - wx by linarith)
        have := mul_nonneg t0 (show (0 : ℚ) ≤ s.2.1 - wx by linarith)
        linarith) (by
        rw [sides_move, List.pairwise_map]
        refine hdist.imp ?_
        intro s s' hd h1 h2
        have m1 := meets_move (-wx) (-wy) s (wy + row)
        have m2 := meets_move (-wx) (-wy) s' (wy + row)
        have s1 := straddles_move (-wx) (-wy) s (wy + row)
        have s2 := straddles_move (-wx) (-wy) s' (wy + row)
        rw [e] at m1 m2 s1 s2
        rw [m1, m2, Int.floor_add_intCast, Int.floor_add_intCast]
        have := hd (s1.mp h1) (s2.mp h2)
        omega)
    refine ⟨spans, h1, fun j hj _ => ?_⟩
    rw [h2 j hj]
    have := evenOdd_move (-wx) (-wy) cs (wx + j) (wy + row)
    rw [e, show wx + (j : Int) + -wx = j by ring] at this
    exact this)
  exact ⟨out, o1, o2, o3, fun i j hi hj h1 h2 h3 h4 => o4 i j hi hj ⟨h1, h2, h3, h4⟩ (.inr h3)⟩

/-- **C143, what holds for convex polygons.** In the default mode the window of a convex polygon with whole corners holds 1 at the
pixels that meet the polygon in their row and 0 at the others. Missing: a row in which a slanted side meets a whole number
between its ends, the first column of a window that begins inside the polygon or right of its left end, corners that are not whole or beyond 2^22, and
legacy mode. -/
theorem C143_convex_partial (ps : List (Flt × Flt)) (cs : List (Int × Int)) (hps : Corners ps cs) (hconv : Spec.Convex cs)
    (wx wy : Int) (w h : Nat) (buf : List UInt8) (hb : ∀ c ∈ cs, |c.1| ≤ 2 ^ 22 ∧ |c.2| ≤ 2 ^ 22) (hwx : |wx| ≤ 2 ^ 22) (hwy : |wy| ≤ 2 ^ 22)
    (hbuf : w * h ≤ buf.length) (hsz : w * h < 2 ^ 31) (hh : h < 2 ^ 31) :
    ∃ out, getMaskOffset false (.polygon ps) buf wx wy w h = .ok out ∧ out.length = buf.length ∧ out.drop (w * h) = buf.drop (w * h) ∧
      ∀ i j : Nat, i < h → j < w → OffGrid cs (wy + i) → (0 < j ∨ ∀ c ∈ cs, wx ≤ c.1) →
        (MeetsPixel cs (wx + j) (wy + i) → out.getD (j + i * w) 0 = 1) ∧ (¬ MeetsPixel cs (wx + j) (wy + i) → out.getD (j + i * w) 0 = 0) :=
  convex_window (hps.placed hb hwx hwy) hconv w h buf hbuf hsz hh

/-- **C143, what holds for any polygon.** In a row that goes through no corner and meets the sides in different pixels of the window,
exactly the pixels are marked whose left end is in the polygon (by the even-odd rule) or that the outline goes through. Missing: other rows (violated, see below),
corners that are not whole or beyond 2^22, and legacy mode. -/
theorem C143_rows_partial (ps : List (Flt × Flt)) (cs : List (Int × Int)) (hps : Corners ps cs)
    (wx wy : Int) (w h : Nat) (buf : List UInt8) (hb : ∀ c ∈ cs, |c.1| ≤ 2 ^ 22 ∧ |c.2| ≤ 2 ^ 22) (hwx : |wx| ≤ 2 ^ 22) (hwy : |wy| ≤ 2 ^ 22)
    (hbuf : w * h ≤ buf.length) (hsz : w * h < 2 ^ 31) (hh : h < 2 ^ 31) :
    ∃ out, getMaskOffset false (.polygon ps) buf wx wy w h = .ok out ∧ out.length = buf.length ∧ out.drop (w * h) = buf.drop (w * h) ∧
      ∀ i j : Nat, i < h → j < w → OffGrid cs (wy + i) → (∀ c ∈ cs, c.2 ≠ wy + i) → (∀ c ∈ cs, wx ≤ c.1) →
        ((sides cs).Pairwise fun s s' => Straddles (wy + i) s → Straddles (wy + i) s' → ⌊meets s (wy + i)⌋ ≠ ⌊meets s' (wy + i)⌋) →
        (EvenOddPixel cs (wx + j) (wy + i) → out.getD (j + i * w) 0 = 1) ∧ (¬ EvenOddPixel cs (wx + j) (wy + i) → out.getD (j + i * w) 0 = 0) :=
  rows_window (hps.placed hb hwx hwy) w h buf hbuf hsz hh

/-! A case that meets the hypotheses, and what the code makes of it. -/

theorem corners_poly (cs : List (Int × Int)) (hb : ∀ c ∈ cs, |c.1| ≤ 2 ^ 22 ∧ |c.2| ≤ 2 ^ 22) :
    Corners (cs.map fun c => (.ofInt c.1, .ofInt c.2)) cs := by
  unfold Corners
  induction cs with
  | nil => exact .nil
  | cons c cs ih =>
    obtain ⟨b1, b2⟩ := hb c List.mem_cons_self
    have i1 := Flt.ofInt_small (n := c.1) (le_trans b1 (by norm_num))
    have i2 := Flt.ofInt_small (n := c.2) (le_trans b2 (by norm_num))
    exact .cons ⟨i1.finite, i2.finite, i1.value, i2.value⟩ (ih fun c hc => hb c (List.mem_cons_of_mem _ hc))

instance (y : Int) (s : (Int × Int) × (Int × Int)) : Decidable (Straddles y s) := inferInstanceAs (Decidable (_ ∨ _))

theorem offGrid_of_den {cs : List (Int × Int)} {y : Int} (h : ∀ s ∈ sides cs, s.1.1 ≠ s.2.1 → Straddles y s → (meets s y).den ≠ 1) :
    OffGrid cs y := fun s hs h1 h2 n he => h s hs h1 h2 (by rw [he]; rfl)

example : Spec.Convex [(1, 0), (5, 3), (2, 5), (-2, 4)] ∧ (∀ y ∈ [(0 : Int), 1, 2, 3, 4, 5], OffGrid [(1, 0), (5, 3), (2, 5), (-2, 4)] y) ∧
    getMaskOffset false (poly [(1, 0), (5, 3), (2, 5), (-2, 4)]) (List.replicate 48 7) (-2) 0 8 6 =
      .ok [0, 0, 0, 1, 0, 0, 0, 0,
           0, 0, 1, 1, 1, 0, 0, 0,
           0, 1, 1, 1, 1, 1, 0, 0,
           1, 1, 1, 1, 1, 1, 1, 1,
           1, 1, 1, 1, 1, 1, 0, 0,
           0, 0, 0, 0, 1, 0, 0, 0] := by
  refine ⟨⟨.inl (by decide), by decide⟩, ?_, by decide +kernel⟩
  have : ∀ y ∈ [(0 : Int), 1, 2, 3, 4, 5], ∀ s ∈ sides [(1, 0), (5, 3), (2, 5), (-2, 4)], s.1.1 ≠ s.2.1 → Straddles y s → (meets s y).den ≠ 1 := by
    decide +kernel
  exact fun y hy => offGrid_of_den (this y hy)

/-- **C143 is violated** by a polygon with a corner inside its level upper side: the pixels of that side right of the corner are not marked,
although they are in the polygon (which is a rectangle). -/
theorem C143_level_false :
    getMaskOffset false (poly [(0, 0), (3, 0), (9, 0), (9, 2), (0, 2)]) (List.replicate 30 7) 0 0 10 3 =
      .ok [1, 1, 1, 1, 0, 0, 0, 0, 0, 1,
           1, 1, 1, 1, 1, 1, 1, 1, 1, 1,
           1, 1, 1, 1, 1, 1, 1, 1, 1, 1] ∧
    (∀ x : Int, 0 ≤ x → x ≤ 9 → MeetsPixel [(0, 0), (3, 0), (9, 0), (9, 2), (0, 2)] x 0) := by
  refine ⟨by decide +kernel, fun x h0 h9 => ?_⟩
  have q0 : (0 : ℚ) ≤ x := by exact_mod_cast h0
  have q9 : (x : ℚ) ≤ 9 := by exact_mod_cast h9
  refine ⟨0, x, 9, ⟨((0, 0), (3, 0)), by simp [sides, sidesFrom], 0, by norm_num, by norm_num, by norm_num, by norm_num⟩,
    ⟨((9, 0), (9, 2)), by simp [sides, sidesFrom], 0, by norm_num, by norm_num, by norm_num, by norm_num⟩, q0, q9, le_refl _, by linarith⟩

/-- **C143 is violated** where the outline goes twice through one pixel: the row is filled between parts of the polygon (pixels 4 to 6) and not
inside one (pixel 8). The first row shows the same at a corner. -/
theorem C143_parity_false :
    getMaskOffset false (poly [(3, 12), (3, 0), (7, 10), (7, 0), (9, 0), (9, 12)]) (List.replicate 20 7) 0 0 10 2 =
      .ok [0, 0, 0, 1, 1, 1, 1, 1, 0, 1,
           0, 0, 0, 1, 1, 1, 1, 1, 0, 0] ∧
    ¬ EvenOddPixel [(3, 12), (3, 0), (7, 10), (7, 0), (9, 0), (9, 12)] 5 1 ∧
    EvenOddPixel [(3, 12), (3, 0), (7, 10), (7, 0), (9, 0), (9, 12)] 8 1 := by
  refine ⟨by decide +kernel, ?_, ?_⟩
  · unfold EvenOddPixel; decide +kernel
  · unfold EvenOddPixel; decide +kernel

/-- **C143 is violated** in the first column of a window: the convex polygon ends half a pixel left of the window, but
a pixel of the window is marked. -/
theorem C143_first_column_false :
    getMaskOffset false (poly [(0, 0), (9, 2), (0, 2)]) (List.replicate 2 7) 5 1 2 1 = .ok [1, 0] ∧
    Spec.Convex [(0, 0), (9, 2), (0, 2)] ∧ ¬ MeetsPixel [(0, 0), (9, 2), (0, 2)] 5 1 := by
  refine ⟨by decide +kernel, ⟨.inl (by decide), by decide⟩, ?_⟩
  rintro ⟨a, t, b, _, ⟨s, hs, l, l0, l1, h1, h2⟩, _, h4, h5, _⟩
  simp only [sides, sidesFrom, List.getLast?, List.mem_cons, List.not_mem_nil, or_false] at hs
  simp at hs
  rcases hs with rfl | rfl | rfl <;> push_cast at h1 h2 h5 <;> linarith

/-- **C143 is violated** where a slanted side meets a row in a whole number: the computed place is just left of it, so that
a pixel outside of the polygon is marked. -/
theorem C143_rounding_false :
    getMaskOffset false (poly [(0, 0), (49, 0), (49, 49)]) (List.replicate 2 7) 0 1 2 1 = .ok [1, 1] ∧
    Spec.Convex [(0, 0), (49, 0), (49, 49)] ∧ ¬ MeetsPixel [(0, 0), (49, 0), (49, 49)] 0 1 := by
  refine ⟨by decide +kernel, ⟨.inl (by decide), by decide⟩, ?_⟩
  rintro ⟨a, t, b, ⟨s, hs, l, l0, l1, h1, h2⟩, _, h3, _, h5, h6⟩
  simp only [sides, sidesFrom, List.getLast?, List.mem_cons, List.not_mem_nil, or_false] at hs
  simp at hs
  rcases hs with rfl | rfl | rfl <;> push_cast at h1 h2 h5 h6 <;> linarith

/-- **C143 is violated** in legacy mode: the row of the upper end of a rectangle is not marked. -/
theorem C143_legacy_false :
    getMaskOffset true (poly [(0, 0), (2, 0), (2, 2), (0, 2)]) (List.replicate 9 7) 0 0 3 3 = .ok [0, 0, 0, 1, 1, 0, 1, 1, 0] ∧
    MeetsPixel [(0, 0), (2, 0), (2, 2), (0, 2)] 1 0 := by
  refine ⟨by decide +kernel, 0, 1, 2, ⟨((0, 0), (2, 0)), by simp [sides, sidesFrom], 0, by norm_num, by norm_num, by norm_num, by norm_num⟩,
    ⟨((2, 0), (2, 2)), by simp [sides, sidesFrom], 0, by norm_num, by norm_num, by norm_num, by norm_num⟩, by norm_num, by norm_num, by norm_num, by norm_num⟩

/-- A case for `C143_rows_partial`: two teeth. -/
example : (∀ c ∈ [((3 : Int), (12 : Int)), (3, 0), (7, 10), (7, 0), (9, 0), (9, 12)], c.2 ≠ 4) ∧
    OffGrid [(3, 12), (3, 0), (7, 10), (7, 0), (9, 0), (9, 12)] 4 ∧
    ((sides [(3, 12), (3, 0), (7, 10), (7, 0), (9, 0), (9, 12)]).Pairwise fun s s' =>
      Straddles 4 s → Straddles 4 s' → ⌊meets s 4⌋ ≠ ⌊meets s' 4⌋) ∧
    getMaskOffset false (poly [(3, 12), (3, 0), (7, 10), (7, 0), (9, 0), (9, 12)]) (List.replicate 10 7) 0 4 10 1 =
      .ok [0, 0, 0, 1, 1, 0, 0, 1, 1, 1] := by
  refine ⟨by decide, offGrid_of_den (by decide +kernel), by decide +kernel, by decide +kernel⟩

/-! ### Corners between pixels -/

/-- The corners of the polygon are multiples of `2 ^ -k`, and these whole numbers are next to them. -/
def NearCorners (k : Nat) (ps : List (Flt × Flt)) (cs : List (Int × Int)) : Prop :=
  List.Forall₂ (fun (p : Flt × Flt) (c : Int × Int) => (p.1.IsFinite ∧ (∃ n : Int, p.1.value = n / 2 ^ k) ∧ |p.1.value - (c.1 : ℚ)| < 1 / 2) ∧
    (p.2.IsFinite ∧ (∃ n : Int, p.2.value = n / 2 ^ k) ∧ |p.2.value - (c.2 : ℚ)| < 1 / 2)) ps cs

/-- One coordinate of a corner, moved to the window and rounded. -/
theorem near_coord {k : Nat} (hk : k ≤ 22) {x : Flt} {c wx : Int} (hf : x.IsFinite) (hx : ∃ n : Int, x.value = n / 2 ^ k) (hc : |x.value - c| < 1 / 2)
    (hb : |x.value| ≤ 2 ^ 22 / 2 ^ k) (hwx : |(wx : ℚ)| ≤ 2 ^ 22 / 2 ^ k) :
    SmallCoord (x.addF (.ofInt (-wx))) ∧ (x.addF (.ofInt (-wx))).roundF.Is (c + -wx) ∧ |c + -wx| ≤ 2 ^ 23 := by
  obtain ⟨n, hn⟩ := hx
  have hKq : (1 : ℚ) ≤ 2 ^ k := one_le_pow₀ (by norm_num)
  have hKq0 : (0 : ℚ) < 2 ^ k := by linarith
  have hle : (2 : ℚ) ^ 22 / 2 ^ k ≤ 2 ^ 22 := by rw [div_le_iff₀ hKq0]; nlinarith
  have hn' : |n| ≤ 2 ^ 22 := by
    rw [hn, abs_div, abs_of_pos hKq0, div_le_div_iff_of_pos_right hKq0] at hb
    exact_mod_cast hb
  have hw' : |-(wx * 2 ^ k)| ≤ 2 ^ 22 := by
    rw [abs_neg]
    rw [le_div_iff₀ hKq0] at hwx
    have : |(wx : ℚ) * 2 ^ k| ≤ 2 ^ 22 := by rw [abs_mul, abs_of_pos hKq0]; exact hwx
    exact_mod_cast this
  have hw1 : |(-wx : Int)| ≤ 2 ^ 22 := by
    rw [abs_neg]
    have : |(wx : ℚ)| ≤ 2 ^ 22 := le_trans hwx hle
    exact_mod_cast this
  have oi := Flt.ofInt_small (n := -wx) (le_trans hw1 (by norm_num))
  have ox := oi.onGrid k
  rw [neg_mul] at ox
  have g : Flt.OnGrid k (x.addF (.ofInt (-wx))) (n + -(wx * 2 ^ k)) :=
    Flt.OnGrid.add (by omega) ⟨hf, hn⟩ ox (le_trans (abs_add_le _ _) (by
      have : (2 : Int) ^ 22 + 2 ^ 22 ≤ 2 ^ 24 := by norm_num
      linarith))
  have hv : (x.addF (.ofInt (-wx))).value = x.value - wx := by
    rw [g.2, hn]; push_cast; field_simp; ring
  obtain ⟨R, r0, r1, r2⟩ := Flt.roundF_spec g.1
  rw [hv] at r1 r2
  rw [abs_lt] at hc
  have hR : R = c + -wx := by
    have : ((R - (c + -wx) : Int) : ℚ) < 1 ∧ (-1 : ℚ) < ((R - (c + -wx) : Int) : ℚ) := by
      push_cast
      rcases lt_or_ge (x.value - wx) 0 with h | h
      · obtain ⟨p, q⟩ := r2 h
        constructor <;> linarith [hc.1, hc.2]
      · obtain ⟨p, q⟩ := r1 h
        constructor <;> linarith [hc.1, hc.2]
    have h1 : R - (c + -wx) < 1 := by exact_mod_cast this.1
    have h2 : -1 < R - (c + -wx) := by exact_mod_cast this.2
    omega
  have hxv : |x.value| ≤ 2 ^ 22 := le_trans hb hle
  have hwv : |(wx : ℚ)| ≤ 2 ^ 22 := le_trans hwx hle
  refine ⟨smallCoord_of_value ?_ g.1 ?_, hR ▸ r0, ?_⟩
  · exact (Flt.addF_nearest hf oi.finite (by
      rw [oi.value]
      have : |x.value + ((-wx : Int) : ℚ)| ≤ ((2 ^ 23 : Int) : ℚ) := by
        push_cast
        refine le_trans (abs_add_le _ _) ?_
        rw [abs_neg]
        have : (2 : ℚ) ^ 22 + 2 ^ 22 ≤ 2 ^ 23 := by norm_num
        linarith
      refine le_trans this ?_
      obtain ⟨z, z1, z2, z3⟩ := Flt.grid_float (k := 0) (by omega) (n := 2 ^ 23) (by norm_num)
      rw [pow_zero, div_one] at z3
      rw [← z3]
      exact Flt.le_fltMax z1)).1
  · rw [hv]
    refine le_trans (abs_sub _ _) ?_
    have : (2 : ℚ) ^ 22 + 2 ^ 22 ≤ 2 ^ 29 := by norm_num
    linarith
  · rw [abs_le] at hxv hwv ⊢
    have h1 : ((c + -wx : Int) : ℚ) < 2 ^ 23 + 1 := by push_cast; linarith [hxv.1, hxv.2, hwv.1, hwv.2, hc.1, hc.2]
    have h2 : (-2 ^ 23 - 1 : ℚ) < ((c + -wx : Int) : ℚ) := by push_cast; linarith [hxv.1, hxv.2, hwv.1, hwv.2, hc.1, hc.2]
    have h1' : c + -wx < 2 ^ 23 + 1 := by exact_mod_cast h1
    have h2' : -2 ^ 23 - 1 < c + -wx := by exact_mod_cast h2
    omega

theorem NearCorners.placed {k : Nat} (hk : k ≤ 22) {ps : List (Flt × Flt)} {cs : List (Int × Int)} (h : NearCorners k ps cs) {wx wy : Int}
    (hb : ∀ p ∈ ps, |p.1.value| ≤ 2 ^ 22 / 2 ^ k ∧ |p.2.value| ≤ 2 ^ 22 / 2 ^ k)
    (hwx : |(wx : ℚ)| ≤ 2 ^ 22 / 2 ^ k) (hwy : |(wy : ℚ)| ≤ 2 ^ 22 / 2 ^ k) : Placed ps cs wx wy := by
  have hle : (2 : ℚ) ^ 22 / 2 ^ k ≤ 2 ^ 22 := by
    have hKq : (1 : ℚ) ≤ 2 ^ k := one_le_pow₀ (by norm_num)
    rw [div_le_iff₀ (by linarith)]; nlinarith
  have bx : |wx| ≤ 2 ^ 22 := by have := le_trans hwx hle; exact_mod_cast this
  have bY : |wy| ≤ 2 ^ 22 := by have := le_trans hwy hle; exact_mod_cast this
  suffices (∀ p ∈ offsetPolygon ps (.ofInt (-wx)) (.ofInt (-wy)), SmallCoord p.1 ∧ SmallCoord p.2) ∧
      List.Forall₂ WholeAt (roundPolygon (offsetPolygon ps (.ofInt (-wx)) (.ofInt (-wy)))) (cs.map (move (-wx) (-wy))) ∧
      (∀ c ∈ cs.map (move (-wx) (-wy)), |c.1| ≤ 2 ^ 23 ∧ |c.2| ≤ 2 ^ 23) from ⟨this.1, this.2.1, this.2.2, bx, bY⟩
  unfold NearCorners at h
  unfold offsetPolygon roundPolygon
  induction h with
  | nil => simp
  | @cons p c ps cs hpc _ ih =>
    obtain ⟨⟨f1, g1, d1⟩, f2, g2, d2⟩ := hpc
    obtain ⟨b1, b2⟩ := hb p List.mem_cons_self
    obtain ⟨i1, i2, i3⟩ := ih fun p hp => hb p (List.mem_cons_of_mem _ hp)
    obtain ⟨x1, x2, x3⟩ := near_coord hk f1 g1 d1 b1 hwx
    obtain ⟨y1, y2, y3⟩ := near_coord hk f2 g2 d2 b2 hwy
    refine ⟨?_, ?_, ?_⟩
    · intro q hq
      rw [List.map_cons] at hq
      rcases List.mem_cons.mp hq with rfl | hq
      · exact ⟨x1, y1⟩
      · exact i1 q hq
    · exact .cons ⟨x2, y2⟩ i2
    · intro q hq
      rw [List.map_cons] at hq
      rcases List.mem_cons.mp hq with rfl | hq
      · exact ⟨x3, y3⟩
      · exact i3 q hq

/-- **C143 for corners between pixels, what holds.** In the default mode a polygon whose corners are multiples of `2 ^ -k` is drawn like the one with the
nearest whole corners: if that is convex, the window holds 1 at the pixels that meet it in their row and 0 at the others. Missing: corners in
the middle between two pixels (`C143_half_false`), the rows and the column left out in `C143_convex_partial`, numbers too large for their fraction. -/
theorem C143_near_convex_partial (k : Nat) (hk : k ≤ 22) (ps : List (Flt × Flt)) (cs : List (Int × Int)) (hps : NearCorners k ps cs) (hconv : Spec.Convex cs)
    (wx wy : Int) (w h : Nat) (buf : List UInt8) (hb : ∀ p ∈ ps, |p.1.value| ≤ 2 ^ 22 / 2 ^ k ∧ |p.2.value| ≤ 2 ^ 22 / 2 ^ k)
    (hwx : |(wx : ℚ)| ≤ 2 ^ 22 / 2 ^ k) (hwy : |(wy : ℚ)| ≤ 2 ^ 22 / 2 ^ k)
    (hbuf : w * h ≤ buf.length) (hsz : w * h < 2 ^ 31) (hh : h < 2 ^ 31) :
    ∃ out, getMaskOffset false (.polygon ps) buf wx wy w h = .ok out ∧ out.length = buf.length ∧ out.drop (w * h) = buf.drop (w * h) ∧
      ∀ i j : Nat, i < h → j < w → OffGrid cs (wy + i) → (0 < j ∨ ∀ c ∈ cs, wx ≤ c.1) →
        (MeetsPixel cs (wx + j) (wy + i) → out.getD (j + i * w) 0 = 1) ∧ (¬ MeetsPixel cs (wx + j) (wy + i) → out.getD (j + i * w) 0 = 0) :=
  convex_window (hps.placed hk hb hwx hwy) hconv w h buf hbuf hsz hh

/-- **C143 for corners between pixels, what holds for any polygon.** As `C143_rows_partial`, for the polygon with the nearest whole corners. -/
theorem C143_near_rows_partial (k : Nat) (hk : k ≤ 22) (ps : List (Flt × Flt)) (cs : List (Int × Int)) (hps : NearCorners k ps cs)
    (wx wy : Int) (w h : Nat) (buf : List UInt8) (hb : ∀ p ∈ ps, |p.1.value| ≤ 2 ^ 22 / 2 ^ k ∧ |p.2.value| ≤ 2 ^ 22 / 2 ^ k)
    (hwx : |(wx : ℚ)| ≤ 2 ^ 22 / 2 ^ k) (hwy : |(wy : ℚ)| ≤ 2 ^ 22 / 2 ^ k)
    (hbuf : w * h ≤ buf.length) (hsz : w * h < 2 ^ 31) (hh : h < 2 ^ 31) :
    ∃ out, getMaskOffset false (.polygon ps) buf wx wy w h = .ok out ∧ out.length = buf.length ∧ out.drop (w * h) = buf.drop (w * h) ∧
      ∀ i j : Nat, i < h → j < w → OffGrid cs (wy + i) → (∀ c ∈ cs, c.2 ≠ wy + i) → (∀ c ∈ cs, wx ≤ c.1) →
        ((sides cs).Pairwise fun s s' => Straddles (wy + i) s → Straddles (wy + i) s' → ⌊meets s (wy + i)⌋ ≠ ⌊meets s' (wy + i)⌋) →
        (EvenOddPixel cs (wx + j) (wy + i) → out.getD (j + i * w) 0 = 1) ∧ (¬ EvenOddPixel cs (wx + j) (wy + i) → out.getD (j + i * w) 0 = 0) :=
  rows_window (hps.placed hk hb hwx hwy) w h buf hbuf hsz hh

/-- A corner in the middle between two pixels goes away from the origin of the window: the square with the right end 0.5 marks
the pixel 1 in the window that begins at 0 and not in the one that begins at 1. -/
theorem C143_half_false :
    (Flt.fin false (2 ^ 148)).value = 1 / 2 ∧
    getMaskOffset false (.polygon [(.ofInt 0, .ofInt 0), (.fin false (2 ^ 148), .ofInt 0), (.fin false (2 ^ 148), .ofInt 1), (.ofInt 0, .ofInt 1)])
      [7, 7] 0 0 2 1 = .ok [1, 1] ∧
    getMaskOffset false (.polygon [(.ofInt 0, .ofInt 0), (.fin false (2 ^ 148), .ofInt 0), (.fin false (2 ^ 148), .ofInt 1), (.ofInt 0, .ofInt 1)])
      [7] 1 0 1 1 = .ok [0] := by
  refine ⟨by rw [Flt.value_fin]; norm_num [Flt.signed], by decide +kernel, by decide +kernel⟩

/-- A case for `C143_near_convex_partial`: the triangle (0.25, 0), (3.75, 0), (0, 3) is drawn like (0, 0), (4, 0), (0, 3). -/
example : NearCorners 2 [(.fin false (2 ^ 147), .ofInt 0), (.fin false (15 * 2 ^ 147), .ofInt 0), (.ofInt 0, .ofInt 3)] [(0, 0), (4, 0), (0, 3)] ∧
    Spec.Convex [(0, 0), (4, 0), (0, 3)] ∧
    getMaskOffset false (.polygon [(.fin false (2 ^ 147), .ofInt 0), (.fin false (15 * 2 ^ 147), .ofInt 0), (.ofInt 0, .ofInt 3)])
      (List.replicate 15 7) 0 0 5 3 = .ok [1, 1, 1, 1, 1, 1, 1, 1, 0, 0, 1, 1, 0, 0, 0] := by
  have i0 : (Flt.ofInt 0).Is 0 := Flt.ofInt_small (by norm_num)
  have i3 : (Flt.ofInt 3).Is 3 := Flt.ofInt_small (by norm_num)
  have v1 : (Flt.fin false (2 ^ 147)).value = 1 / 4 := by rw [Flt.value_fin]; norm_num [Flt.signed]
  have v2 : (Flt.fin false (15 * 2 ^ 147)).value = 15 / 4 := by rw [Flt.value_fin]; norm_num [Flt.signed]
  refine ⟨List.Forall₂.cons ⟨⟨trivial, ⟨1, by rw [v1]; norm_num⟩, by rw [v1]; norm_num [abs_lt]⟩, i0.finite, ⟨0, by rw [i0.value]; norm_num⟩, by rw [i0.value]; norm_num⟩
    (.cons ⟨⟨trivial, ⟨15, by rw [v2]; norm_num⟩, by rw [v2]; norm_num [abs_lt]⟩, i0.finite, ⟨0, by rw [i0.value]; norm_num⟩, by rw [i0.value]; norm_num⟩
    (.cons ⟨⟨i0.finite, ⟨0, by rw [i0.value]; norm_num⟩, by rw [i0.value]; norm_num⟩, i3.finite, ⟨12, by rw [i3.value]; norm_num⟩, by rw [i3.value]; norm_num⟩ .nil)),
    ⟨.inl (by decide), by decide⟩, by decide +kernel⟩

end Trax
