import Verif.Model.Drawing
import Verif.Spec.Drawing
import Verif.Props.OpenCv
import Verif.Lemmas.GridFloat

/-!
# Property theorems C155: drawing a region
-/

namespace Trax
open Ocv
open Spec (RoundsTo WithoutFraction DrawnAt)

theorem toInt_withoutFraction {x : Flt} (hf : x.IsFinite) (hb : |x.value| < 2 ^ 31) : ∃ n, x.toInt = .ok n ∧ WithoutFraction x.value n := by
  obtain ⟨n, e, _, h1, h2⟩ := Flt.toInt_trunc hf hb
  refine ⟨n, e, h1, fun h => ?_⟩
  rcases lt_or_eq_of_le h with h | h
  · exact h2 h
  · obtain ⟨a, b⟩ := h1 (by rw [h])
    rw [h] at a b ⊢
    have hn : n = 0 := by
      have a' : n ≤ 0 := by exact_mod_cast a
      have b' : (0 : Int) < n + 1 := by exact_mod_cast b
      omega
    subst hn
    norm_num

theorem cutPoints_ok (points : List (Flt × Flt)) (h : ∀ p ∈ points, (p.1.IsFinite ∧ |p.1.value| < 2 ^ 31) ∧ p.2.IsFinite ∧ |p.2.value| < 2 ^ 31) :
    ∃ places, cutPoints (.polygon points) = .ok places ∧ DrawnAt WithoutFraction points places := by
  have one : ∀ p ∈ points, ∃ q : Int × Int, (p.1.toInt.bind fun x => p.2.toInt.map fun y => (x, y)) = .ok q ∧
      WithoutFraction p.1.value q.1 ∧ WithoutFraction p.2.value q.2 := by
    intro p hp
    obtain ⟨⟨f1, b1⟩, f2, b2⟩ := h p hp
    obtain ⟨x, e1, w1⟩ := toInt_withoutFraction f1 b1
    obtain ⟨y, e2, w2⟩ := toInt_withoutFraction f2 b2
    refine ⟨(x, y), ?_, w1, w2⟩
    rw [e1, Outcome.bind_ok, e2]
    rfl
  have hex : ∀ i : Nat, ∃ q : Int × Int, ∀ hi : i < points.length, ((points[i].1.toInt.bind fun x => points[i].2.toInt.map fun y => (x, y)) = .ok q ∧
      WithoutFraction points[i].1.value q.1 ∧ WithoutFraction points[i].2.value q.2) := by
    intro i
    by_cases hi : i < points.length
    · obtain ⟨q, hq⟩ := one points[i] (List.getElem_mem hi)
      exact ⟨q, fun _ => hq⟩
    · exact ⟨(0, 0), fun h => absurd h hi⟩
  choose g hg using hex
  refine ⟨(List.range points.length).map g, ?_, ?_⟩
  · unfold cutPoints
    dsimp only [Region.getPolygonCount]
    rw [Outcome.bind_ok, Int.toNat_natCast]
    refine build_ok fun i hi => ?_
    have e : Region.getPolygonPoint (.polygon points) (i : Int) = .ok points[i] := by
      dsimp only [Region.getPolygonPoint]
      rw [if_pos (Or.inl (Int.natCast_nonneg i)), if_pos (Int.natCast_nonneg i), Int.toNat_natCast, List.getElem?_eq_getElem hi]
    rw [e, Outcome.bind_ok]
    exact (hg i hi).1
  · unfold DrawnAt
    rw [List.forall₂_iff_get]
    refine ⟨by simp, fun i hi hi' => ?_⟩
    simp only [List.get_eq_getElem, List.getElem_map, List.getElem_range]
    exact (hg i hi).2

theorem drawRegion_rectangle {κ : Type} (legacy : Bool) (fresh : Nat → List UInt8) (canvas : Mat) (color : κ) (width : Int) (x y w h : Flt) :
    drawRegion legacy fresh canvas (some (.rectangle x y w h)) color width = (regionToRect legacy fresh (some (.rectangle x y w h))).bind fun rectangle =>
      rectangle.corners.map fun (tl, br) => some [.rectangle tl br color width] := rfl

theorem drawRegion_polygon {κ : Type} (legacy : Bool) (fresh : Nat → List UInt8) (canvas : Mat) (color : κ) (width : Int) (ps : List (Flt × Flt)) :
    drawRegion legacy fresh canvas (some (.polygon ps)) color width = (cutPoints (.polygon ps)).bind fun points =>
        if points = [] then .ub
        else if width < 1 then .ok (some [.fillPoly points color])
        else .ok (some [.polylines points true color width]) := rfl

/-- **C155** (partial): nothing is drawn of an empty or special region; of a rectangle, one rectangle whose corners are the rounded
corner of the region and that corner plus the rounded size, in the given color and thickness; of a polygon, one closed polygon with its
vertices in order, each without its fraction. Missing: masks (`C155_mask_false`), vertices at the nearest pixel (`C155_vertices_false`), and what a width of zero
means (`C155_width_false`). -/
theorem C155_drawn_partial {κ : Type} (legacy : Bool) (fresh : Nat → List UInt8) (canvas : Mat) (color : κ) (width : Int) :
    drawRegion legacy fresh canvas none color width = .ok (some []) ∧
    (∀ code, drawRegion legacy fresh canvas (some (.special code)) color width = .ok (some [])) ∧
    (∀ x y w h : Flt, (∀ v ∈ [x, y, w, h], v.IsFinite ∧ |v.value| ≤ 2 ^ 30 - 1) →
      ∃ left top right bottom a b : Int, drawRegion legacy fresh canvas (some (.rectangle x y w h)) color width =
          .ok (some [.rectangle (left, top) (right, bottom) color width]) ∧
        RoundsTo x.value left ∧ RoundsTo y.value top ∧ right = left + a ∧ bottom = top + b ∧ RoundsTo w.value a ∧ RoundsTo h.value b) ∧
    (∀ vertices : List (Flt × Flt), vertices ≠ [] →
      (∀ p ∈ vertices, (p.1.IsFinite ∧ |p.1.value| < 2 ^ 31) ∧ p.2.IsFinite ∧ |p.2.value| < 2 ^ 31) →
      ∃ places, DrawnAt WithoutFraction vertices places ∧
        (1 ≤ width → drawRegion legacy fresh canvas (some (.polygon vertices)) color width = .ok (some [.polylines places true color width])) ∧
        (width < 0 → drawRegion legacy fresh canvas (some (.polygon vertices)) color width = .ok (some [.fillPoly places color]))) := by
  refine ⟨rfl, fun code => rfl, fun x y w h hv => ?_, fun vertices hne hv => ?_⟩
  · have hv' : ∀ v ∈ [x, y, w, h], v.IsFinite ∧ |v.value| < 2 ^ 31 - 1 := fun v hm =>
      ⟨(hv v hm).1, lt_of_le_of_lt (hv v hm).2 (by norm_num)⟩
    obtain ⟨a, a1, a2⟩ := roundInt_ok (hv' x (by simp)).1 (hv' x (by simp)).2
    obtain ⟨b, b1, b2⟩ := roundInt_ok (hv' y (by simp)).1 (hv' y (by simp)).2
    obtain ⟨c, c1, c2⟩ := roundInt_ok (hv' w (by simp)).1 (hv' w (by simp)).2
    obtain ⟨d, d1, d2⟩ := roundInt_ok (hv' h (by simp)).1 (hv' h (by simp)).2
    have bnd : ∀ {v : Flt} {r : Int}, v ∈ [x, y, w, h] → RoundsTo v.value r → r < 2 ^ 30 ∧ -2 ^ 30 < r := by
      intro v r hm hr
      have h1 := (hv v hm).2
      obtain ⟨h2, _⟩ := hr
      rw [abs_le] at h1 h2
      have u : (r : ℚ) < 2 ^ 30 := by linarith [h1.1, h1.2, h2.1, h2.2]
      have l : -2 ^ 30 < (r : ℚ) := by linarith [h1.1, h1.2, h2.1, h2.2]
      exact ⟨by exact_mod_cast u, by exact_mod_cast l⟩
    have ba := bnd (by simp) a2
    have bb := bnd (by simp) b2
    have bc := bnd (by simp) c2
    have bd := bnd (by simp) d2
    refine ⟨a, b, a + c, b + d, c, d, ?_, a2, b2, rfl, rfl, c2, d2⟩
    have e1 : chk32 (a + c) = .ok (a + c) := by
      unfold chk32
      rw [if_pos (by unfold InInt32; constructor <;> omega)]
    have e2 : chk32 (b + d) = .ok (b + d) := by
      unfold chk32
      rw [if_pos (by unfold InInt32; constructor <;> omega)]
    show (regionToRect legacy fresh (some (.rectangle x y w h))).bind _ = _
    rw [regionToRect_rectangle, a1, Outcome.bind_ok, b1, Outcome.bind_ok, c1, Outcome.bind_ok, d1]
    show ((Rect.corners ⟨a, b, c, d⟩).map _) = _
    unfold Rect.corners
    dsimp only
    rw [e1, Outcome.bind_ok, e2]
    rfl
  · obtain ⟨places, e, hd⟩ := cutPoints_ok vertices hv
    have hp : places ≠ [] := by
      rintro rfl
      have := hd.length_eq
      exact hne (List.length_eq_zero_iff.mp (by simpa using this))
    have step : drawRegion legacy fresh canvas (some (.polygon vertices)) color width =
        if width < 1 then .ok (some [.fillPoly places color]) else .ok (some [.polylines places true color width]) := by
      show (cutPoints (.polygon vertices)).bind _ = _
      rw [e, Outcome.bind_ok, if_neg hp]
    refine ⟨places, hd, fun hw => ?_, fun hw => ?_⟩
    · rw [step, if_neg (by omega)]
    · rw [step, if_pos (by omega)]

/-- A rectangle with a fraction, and a triangle. -/
example : (∀ v ∈ [Flt.ofInt 10, .ofInt (-3), .ofInt 20, .ofInt 30], v.IsFinite ∧ |v.value| ≤ 2 ^ 30 - 1) ∧
    ∀ p ∈ [(Flt.ofInt 0, Flt.ofInt 0), (.ofInt 9, .ofInt 1), (.ofInt 4, .ofInt (-7))],
      (p.1.IsFinite ∧ |p.1.value| < 2 ^ 31) ∧ p.2.IsFinite ∧ |p.2.value| < 2 ^ 31 := by
  have k : ∀ n : Int, |n| ≤ 30 → (Flt.ofInt n).IsFinite ∧ |(Flt.ofInt n).value| ≤ 30 := by
    intro n hn
    have i := Flt.ofInt_small (le_trans hn (by norm_num) : |n| ≤ 2 ^ 24)
    refine ⟨i.finite, ?_⟩
    rw [i.value]
    exact_mod_cast hn
  constructor
  · have all : ∀ n ∈ [(10 : Int), -3, 20, 30], |n| ≤ 30 := by decide
    intro v hv
    obtain ⟨n, hn, rfl⟩ : ∃ n ∈ [(10 : Int), -3, 20, 30], Flt.ofInt n = v := List.mem_map.mp hv
    exact ⟨(k n (all n hn)).1, le_trans (k n (all n hn)).2 (by norm_num)⟩
  · have all : ∀ n ∈ [((0 : Int), (0 : Int)), (9, 1), (4, -7)], |n.1| ≤ 30 ∧ |n.2| ≤ 30 := by decide
    intro p hp
    obtain ⟨n, hn, rfl⟩ : ∃ n ∈ [((0 : Int), (0 : Int)), (9, 1), (4, -7)], (Flt.ofInt n.1, Flt.ofInt n.2) = p :=
      List.mem_map (f := fun n : Int × Int => (Flt.ofInt n.1, Flt.ofInt n.2)).mp hp
    exact ⟨⟨(k _ (all n hn).1).1, lt_of_le_of_lt (k _ (all n hn).1).2 (by norm_num)⟩, (k _ (all n hn).2).1, lt_of_le_of_lt (k _ (all n hn).2).2 (by norm_num)⟩

/-- The full claim of C155 is false for masks: no mask is ever drawn, on no canvas. -/
theorem C155_mask_false {κ : Type} (legacy : Bool) (fresh : Nat → List UInt8) (canvas : Mat) (x y w h : Int) (data : List UInt8) (color : κ) (width : Int) :
    ∀ strokes, drawRegion legacy fresh canvas (some (.mask x y w h data)) color width ≠ .ok (some strokes) := by
  intro strokes
  show stencilMask fresh canvas (.mask x y w h data) ≠ _
  unfold stencilMask
  cases regionToMat fresh (.mask x y w h data) with
  | abort => intro h; cases h
  | ub => intro h; cases h
  | ok m =>
    cases m with
    | none => intro h; cases h
    | some m =>
      show Outcome.ok _ ≠ _
      dsimp only
      by_cases h1 : min canvas.rows m.rows ≤ min canvas.cols m.cols ∧ min canvas.cols m.cols ≤ min canvas.rows m.rows
      · rw [if_pos h1]
        by_cases h2 : (m.rows = min canvas.rows m.rows ∧ m.cols = min canvas.cols m.cols) ∨ m.rows * m.cols = 0
        · rw [if_pos h2, if_neg (fun h => absurd h.2.1 (by decide))]
          intro h; cases h
        · rw [if_neg h2]
          intro h; cases h
      · rw [if_neg h1]
        intro h; cases h

/-- The mask of a whole image throws: a good mask on a good canvas, three by three pixels with three channels. -/
example : drawRegion false (fun n => List.replicate n 0) ⟨3, 3, 9, .u8c3, List.replicate 27 0⟩ (some (.mask 0 0 3 3 (List.replicate 9 1))) () 1 = .ok none := by
  decide +kernel

/-- The full claim of C155 is false for polygons: a vertex that is nearer to the next pixel is drawn at the one before, and the same region as a
rectangle is drawn elsewhere. -/
theorem C155_vertices_false :
    ∃ (x : Flt) (places : List (Int × Int)), x.IsFinite ∧ x.value = 3 / 4 ∧
      drawRegion false (fun n => List.replicate n 0) .empty (some (.polygon [(x, x), (.ofInt 9, x), (x, .ofInt 9)])) () 1 =
        .ok (some [.polylines places true () 1]) ∧
      ¬ DrawnAt RoundsTo [(x, x), (.ofInt 9, x), (x, .ofInt 9)] places ∧
      drawRegion false (fun n => List.replicate n 0) .empty (some (.rectangle x x (.ofInt 8) (.ofInt 8))) () 1 =
        .ok (some [.rectangle (1, 1) (9, 9) () 1]) ∧ places[0]? = some (0, 0) := by
  have hv : (Flt.fin false (3 * 2 ^ 147)).value = 3 / 4 := by
    rw [value_div]
    norm_num
  refine ⟨.fin false (3 * 2 ^ 147), [(0, 0), (9, 0), (0, 9)], Flt.finite_iff.mpr ⟨_, _, rfl⟩, hv, by decide +kernel, ?_, by decide +kernel, rfl⟩
  intro h
  cases h with
  | cons h _ =>
    obtain ⟨⟨h1, _⟩, _⟩ := h
    rw [hv] at h1
    norm_num at h1

/-- The full claim of C155 is false for the width 0: a polygon is filled then, but a rectangle is not, because only a negative thickness makes OpenCV
fill one. -/
theorem C155_width_false {κ : Type} (legacy : Bool) (fresh : Nat → List UInt8) (canvas : Mat) (color : κ) :
    (∃ places, drawRegion legacy fresh canvas (some (.polygon [(.ofInt 0, .ofInt 0), (.ofInt 9, .ofInt 0), (.ofInt 0, .ofInt 9)])) color 0 =
      .ok (some [.fillPoly places color])) ∧
    ∃ corner opposite thickness, drawRegion legacy fresh canvas (some (.rectangle (.ofInt 0) (.ofInt 0) (.ofInt 9) (.ofInt 9))) color 0 =
      .ok (some [.rectangle corner opposite color thickness]) ∧ ¬ thickness < 0 := by
  constructor
  · refine ⟨[(0, 0), (9, 0), (0, 9)], ?_⟩
    have e : cutPoints (.polygon [(.ofInt 0, .ofInt 0), (.ofInt 9, .ofInt 0), (.ofInt 0, .ofInt 9)]) = .ok [(0, 0), (9, 0), (0, 9)] := by decide +kernel
    rw [drawRegion_polygon, e]
    rfl
  · refine ⟨(0, 0), (9, 9), 0, ?_, by decide⟩
    have e0 : roundInt (.ofInt 0) = .ok 0 := by decide +kernel
    have e9 : roundInt (.ofInt 9) = .ok 9 := by decide +kernel
    rw [drawRegion_rectangle, regionToRect_rectangle, e0, Outcome.bind_ok, Outcome.bind_ok, e9, Outcome.bind_ok]
    rfl

end Trax
