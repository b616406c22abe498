import Verif.Lemmas.PointPolygon

/-!
# Property theorem C79: points in polygons
-/

namespace Trax
open Spec

/-- **C79, violated.** The position of a side is computed in single precision. At the height of the point the
left side of this triangle is right of 4473 in exact numbers, by about 0.0002, and the code takes it to be at
4473: a point outside the triangle is reported inside. -/
theorem C79_point_false :
    ¬ InPolygon [(4261, 0), (4606, 4402), (5000, 0)] 4473 2705 ∧
    (Region.polygon [(.ofInt 4261, .ofInt 0), (.ofInt 4606, .ofInt 4402), (.ofInt 5000, .ofInt 0)]).containsPoint (.ofInt 4473) (.ofInt 2705)
      = .ok true := by
  refine ⟨?_, by decide +kernel⟩
  unfold InPolygon
  have : ((sides [(4261, 0), (4606, 4402), (5000, 0)]).countP fun s => decide (Crosses 4473 2705 s)) = 2 := by decide +kernel
  rw [this]
  decide

/-- **C79, what holds.** If the corners of a polygon and the point are whole numbers that lie together in a
square of 4096 by 4096 positions that includes the origin, the point is contained in the polygon iff it is in it
by the even-odd rule over exact numbers. Missing: larger coordinates and fractions, where the position of a side is rounded. -/
theorem C79_polygon_partial (lo : Int) (hlo : -4095 ≤ lo ∧ lo ≤ 0) (ps : List (Flt × Flt)) (cs : List (Int × Int)) (fx fy : Flt)
    (x y : Int) (hfin : ∀ p ∈ ps, p.1.IsFinite ∧ p.2.IsFinite) (hf : fx.IsFinite ∧ fy.IsFinite)
    (hps : ps.map (fun p => (p.1.value, p.2.value)) = cs.map (fun c => ((c.1 : ℚ), (c.2 : ℚ))))
    (hp : fx.value = x ∧ fy.value = y)
    (hc : ∀ c ∈ (x, y) :: cs, lo ≤ c.1 ∧ c.1 ≤ lo + 4095 ∧ lo ≤ c.2 ∧ c.2 ≤ lo + 4095) :
    ∃ b, (Region.polygon ps).containsPoint fx fy = .ok b ∧ (b = true ↔ InPolygon cs x y) := by
  have h2 : List.Forall₂ (fun (p : Flt × Flt) (c : Int × Int) => p.1.Is c.1 ∧ p.2.Is c.2) ps cs := by
    clear hc
    induction ps generalizing cs with
    | nil =>
      cases cs with
      | nil => exact .nil
      | cons c cs => simp at hps
    | cons p ps ih =>
      cases cs with
      | nil => simp at hps
      | cons c cs =>
        rw [List.map_cons, List.map_cons, List.cons.injEq, Prod.mk.injEq] at hps
        have hp' := hfin p List.mem_cons_self
        exact .cons ⟨Flt.is_of_value hp'.1 hps.1.1, Flt.is_of_value hp'.2 hps.1.2⟩
          (ih cs (fun q hq => hfin q (List.mem_cons_of_mem _ hq)) hps.2)
  have hxy := hc _ List.mem_cons_self
  refine ⟨_, rfl, ?_⟩
  rw [pointInPolygon_eq lo hlo cs x y ps fx fy h2 (Flt.is_of_value hf.1 hp.1) (Flt.is_of_value hf.2 hp.2)
    (fun c h => hc c (List.mem_cons_of_mem _ h)) ⟨hxy.1, hxy.2.1⟩ ⟨hxy.2.2.1, hxy.2.2.2⟩, decide_eq_true_eq]

/-- A polygon with a notch: the point in the notch is outside, the one below it inside. -/
example : (Region.polygon [(.ofInt (-10), .ofInt (-10)), (.ofInt 10, .ofInt (-10)), (.ofInt 10, .ofInt 10), (.ofInt 0, .ofInt 0),
      (.ofInt (-10), .ofInt 10)]).containsPoint (.ofInt 0) (.ofInt 5) = .ok false ∧
    (Region.polygon [(.ofInt (-10), .ofInt (-10)), (.ofInt 10, .ofInt (-10)), (.ofInt 10, .ofInt 10), (.ofInt 0, .ofInt 0),
      (.ofInt (-10), .ofInt 10)]).containsPoint (.ofInt 0) (.ofInt (-5)) = .ok true := by decide +kernel

/-- The hypotheses hold for this polygon and point. -/
example : ∃ b, (Region.polygon [(.ofInt (-10), .ofInt (-10)), (.ofInt 10, .ofInt (-10)), (.ofInt 0, .ofInt 4000)]).containsPoint (.ofInt 1) (.ofInt 5)
    = .ok b ∧ (b = true ↔ InPolygon [(-10, -10), (10, -10), (0, 4000)] 1 5) := by
  have v : ∀ n : Int, |n| ≤ 2 ^ 24 → (Flt.ofInt n).IsFinite ∧ (Flt.ofInt n).value = n := fun n h =>
    ⟨(Flt.ofInt_small h).finite, (Flt.ofInt_small h).value⟩
  have v1 := v (-10) (by norm_num)
  have v2 := v 10 (by norm_num)
  have v3 := v 0 (by norm_num)
  have v4 := v 4000 (by norm_num)
  have v5 := v 1 (by norm_num)
  have v6 := v 5 (by norm_num)
  refine C79_polygon_partial (-95) (by omega) _ _ _ _ _ _ ?_ ⟨v5.1, v6.1⟩ ?_ ⟨v5.2, v6.2⟩ ?_
  · intro p hp
    simp only [List.mem_cons, List.not_mem_nil, or_false] at hp
    rcases hp with rfl | rfl | rfl
    exacts [⟨v1.1, v1.1⟩, ⟨v2.1, v1.1⟩, ⟨v3.1, v4.1⟩]
  · simp only [List.map_cons, List.map_nil, v1.2, v2.2, v3.2, v4.2]
  · decide

/-- **C79, what holds (all coordinates).** Whatever the coordinates, a polygon contains no point that is below its
lowest corner, or at or above its highest one. -/
theorem C79_outside_rows (ps : List (Flt × Flt)) (fx fy : Flt) (hfin : ∀ p ∈ ps, p.2.IsFinite) (hf : fy.IsFinite)
    (h : (∀ p ∈ ps, fy.value < p.2.value) ∨ (∀ p ∈ ps, p.2.value ≤ fy.value)) :
    (Region.polygon ps).containsPoint fx fy = .ok false := by
  have hsame : ∃ b, ∀ p ∈ ps, fy.lt p.2 = b := by
    rcases h with h | h
    · exact ⟨true, fun p hp => (Flt.lt_iff hf (hfin p hp)).mpr (h p hp)⟩
    · refine ⟨false, fun p hp => ?_⟩
      rw [← Bool.not_eq_true, Flt.lt_iff hf (hfin p hp), not_lt]
      exact h p hp
  obtain ⟨b, hb⟩ := hsame
  show Outcome.ok (Region.pointInPolygon ps fx fy) = _
  congr 1
  have hmem : ∀ e ∈ Region.edges ps, e.1 ∈ ps ∧ e.2 ∈ ps := by
    intro e he
    unfold Region.edges at he
    cases hl : ps.getLast? with
    | none => rw [hl] at he; simp at he
    | some l =>
      rw [hl] at he
      have := List.of_mem_zip (a := e.1) (b := e.2) he
      refine ⟨this.1, ?_⟩
      rcases List.mem_cons.mp this.2 with h | h
      · rw [h]; exact List.mem_of_getLast? hl
      · exact List.mem_of_mem_dropLast h
  unfold Region.pointInPolygon
  generalize Region.edges ps = es at hmem
  induction es with
  | nil => rfl
  | cons e es ih =>
    rw [List.foldl_cons]
    have := hmem e List.mem_cons_self
    obtain ⟨⟨xi, yi⟩, ⟨xj, yj⟩⟩ := e
    have e1 := hb _ this.1
    have e2 := hb _ this.2
    dsimp only at e1 e2 ⊢
    rw [e1, e2, bne_self_eq_false, Bool.false_and]
    exact ih fun e' h' => hmem e' (List.mem_cons_of_mem _ h')

example : (Region.polygon [(.ofInt 0, .ofInt 0), (.ofInt 5, .ofInt 9), (.ofInt 9, .ofInt 0)]).containsPoint (.ofInt 5) (.ofInt 9) = .ok false ∧
    (Region.polygon [(.ofInt 0, .ofInt 0), (.ofInt 5, .ofInt 9), (.ofInt 9, .ofInt 0)]).containsPoint (.ofInt 5) (.ofInt 0) = .ok true := by
  decide +kernel

end Trax
