import Verif.Lemmas.RectRaster
import Verif.Lemmas.GridFloat

/-!
# Property theorems C44, C46, C47, C73: windows of masks and rasterisation
-/

namespace Trax
open Spec Region

/-! ## C47: sorting -/

/-- **C47.** The in-place sort ends and gives the intersections of a scan line in ascending order, every one
as often as before. (It would be `ub` in the model if the loop did not end.) -/
theorem C47_sort (nodes : List Int) :
    ∃ l, sortNodes nodes = .ok l ∧ l.Pairwise (· ≤ ·) ∧ ∀ n, l.count n = nodes.count n := by
  obtain ⟨l, h1, h2, h3⟩ := sortNodes_spec nodes
  exact ⟨l, h1, h2, fun n => h3.count_eq n⟩

example : sortNodes [5, -2, 9, 5, 0] = .ok [-2, 0, 5, 5, 9] := by decide

/-! ## C44: windows of masks -/

/-- **C44 is violated** far from the origin: at the last column the end of the window is not an `int`. -/
theorem C44_window_false (legacy : Bool) :
    getMaskOffset legacy (.mask 0 0 1 1 [1]) [0] 2147483647 0 1 1 = .ub := by
  cases legacy <;> decide +kernel

/-- **C44, what holds.** Within 2^30 of the origin every pixel of the window is the value of the mask at that
image position, and 0 where the mask does not reach; the rest of the caller's buffer is not touched and
nothing is read outside the mask (it would be `ub`). Missing: positions beyond 2^30. -/
theorem C44_window_partial (legacy : Bool) (mx my x y : Int) (mw mh w h : Nat) (data buf : List UInt8)
    (hlen : data.length = mw * mh) (hms : mw * mh < 2 ^ 31) (hbuf : w * h ≤ buf.length) (hsz : w * h < 2 ^ 31)
    (hmx : -2 ^ 30 ≤ mx ∧ mx + mw < 2 ^ 30) (hmy : -2 ^ 30 ≤ my ∧ my + mh < 2 ^ 30)
    (hx : -2 ^ 30 ≤ x ∧ x + w < 2 ^ 30) (hy : -2 ^ 30 ≤ y ∧ y + h < 2 ^ 30) :
    ∃ out, getMaskOffset legacy (.mask mx my mw mh data) buf x y w h = .ok out ∧ out.length = buf.length ∧
      out.drop (w * h) = buf.drop (w * h) ∧
      ∀ i j : Nat, i < h → j < w →
        -- `(c, r)`: the pixel of the mask at the image position of the window's pixel `(j, i)`
        (∀ c r : Nat, c < mw → r < mh → mx + c = x + j → my + r = y + i → out.getD (j + i * w) 0 = data.getD (c + r * mw) 0) ∧
        ((¬ ∃ c r : Nat, c < mw ∧ r < mh ∧ mx + c = x + j ∧ my + r = y + i) → out.getD (j + i * w) 0 = 0) := by
  have h30 : (2 : Int) ^ 30 = 1073741824 := by norm_num
  rw [h30] at hmx hmy hx hy
  unfold getMaskOffset copyWindow
  simp only
  rw [chk32_ok (n := max mx x - x) (by unfold InInt32; omega), Outcome.bind_ok, chk32_ok (n := max my y - y) (by unfold InInt32; omega), Outcome.bind_ok,
    chk32_ok (n := max mx x - mx) (by unfold InInt32; omega), Outcome.bind_ok, chk32_ok (n := max my y - my) (by unfold InInt32; omega), Outcome.bind_ok,
    chk32_ok (n := x + w) (by unfold InInt32; omega), Outcome.bind_ok, chk32_ok (n := mx + mw) (by unfold InInt32; omega), Outcome.bind_ok,
    chk32_ok (n := min (x + w) (mx + mw) - max mx x) (by unfold InInt32; omega), Outcome.bind_ok,
    chk32_ok (n := y + h) (by unfold InInt32; omega), Outcome.bind_ok, chk32_ok (n := my + mh) (by unfold InInt32; omega), Outcome.bind_ok,
    chk32_ok (n := min (y + h) (my + mh) - max my y) (by unfold InInt32; omega), Outcome.bind_ok,
    memsetArea_ok buf 0 w h hbuf hsz, Outcome.bind_ok]
  obtain ⟨ox, hox⟩ : ∃ n : Nat, max mx x - x = n := ⟨(max mx x - x).toNat, by omega⟩
  obtain ⟨oy, hoy⟩ : ∃ n : Nat, max my y - y = n := ⟨(max my y - y).toNat, by omega⟩
  obtain ⟨gx, hgx⟩ : ∃ n : Nat, max mx x - mx = n := ⟨(max mx x - mx).toNat, by omega⟩
  obtain ⟨gy, hgy⟩ : ∃ n : Nat, max my y - my = n := ⟨(max my y - my).toNat, by omega⟩
  obtain ⟨tw, htw⟩ : ∃ n : Nat, (min (x + w) (mx + mw) - max mx x).toNat = n := ⟨_, rfl⟩
  obtain ⟨th, hth⟩ : ∃ n : Nat, (min (y + h) (my + mh) - max my y).toNat = n := ⟨_, rfl⟩
  rw [hox, hoy, hgx, hgy, htw, hth]
  have hl0 : (List.replicate (w * h) (0 : UInt8) ++ buf.drop (w * h)).length = buf.length := by
    rw [List.length_append, List.length_replicate, List.length_drop]; omega
  obtain ⟨out, p1, p2, p3, p4⟩ := copyLoops data (List.replicate (w * h) 0 ++ buf.drop (w * h)) mw mh w h ox oy gx gy tw th hlen hms
    (by rw [hl0]; exact hbuf) hsz (by intro h1 h2; omega)
  refine ⟨out, p1, p2.trans hl0, ?_, ?_⟩
  · apply List.ext_getElem
    · rw [List.length_drop, List.length_drop, p2, hl0]
    · intro k hk1 hk2
      rw [List.getElem_drop, List.getElem_drop]
      rw [List.length_drop] at hk1
      have hk : w * h + k < (List.replicate (w * h) (0 : UInt8) ++ buf.drop (w * h)).length := by rw [← p2]; omega
      have := p4 (w * h + k) (by
        intro i j hi hj he
        have : j + ox + (i + oy) * w < w * h := idx_lt (by omega) (by omega)
        omega)
      rw [List.getD_eq_getElem?_getD, List.getD_eq_getElem?_getD, List.getElem?_eq_getElem (by omega),
        List.getElem?_eq_getElem hk, Option.getD_some, Option.getD_some] at this
      rw [this, List.getElem_append_right (by simp)]
      simp
  · intro i j hi hj
    constructor
    · intro c r hc hr h1 h2
      have := p3 (i - oy) (j - ox) (by omega) (by omega)
      rw [show j - ox + ox + (i - oy + oy) * w = j + i * w by
          rw [show j - ox + ox = j by omega, show i - oy + oy = i by omega],
        show j - ox + gx + (i - oy + gy) * mw = c + r * mw by
          rw [show j - ox + gx = c by omega, show i - oy + gy = r by omega]] at this
      exact this
    · intro hno
      have hlt : j + i * w < w * h := idx_lt hj hi
      rw [p4 (j + i * w)]
      · rw [getD_append_left' _ _ _ (by rw [List.length_replicate]; exact hlt)]
        simp [List.getD_eq_getElem?_getD, hlt]
      · intro i' j' hi' hj' he
        obtain ⟨e1, e2⟩ := idx_inj hj (by omega) he
        exact hno ⟨j' + gx, i' + gy, by omega, by omega, by omega, by omega⟩

example : getMaskOffset false (.mask (-1) 0 2 2 [5, 6, 7, 8]) [9, 9, 9, 9, 9, 9, 9] (-2) 1 3 2 = .ok [0, 7, 8, 0, 0, 0, 9] := by
  decide +kernel

/-! ## C46: rasterisation -/

/-- **C46 is violated** for large coordinates: the intersection of an edge and a row does not fit an `int`. -/
theorem C46_raster_false :
    rasterize false [(.ofInt 0, .ofInt 0), (.ofInt 4294967296, .ofInt 0), (.ofInt 0, .ofInt 2)] [0, 0, 0, 0] 2 2 = .ub ∧
    rasterize true [(.ofInt 0, .ofInt 0), (.ofInt 4294967296, .ofInt 0), (.ofInt 0, .ofInt 2)] [0, 0, 0, 0] 2 2 = .ub := by
  decide +kernel

theorem smallCoord_of_value {x : Flt} (h1 : x.IsFloat) (h2 : x.IsFinite) (h3 : |x.value| ≤ 2 ^ 29) : SmallCoord x := by
  obtain ⟨s, m, rfl⟩ := Flt.finite_iff.mp h2
  refine ⟨s, m, rfl, h1, ?_⟩
  rw [Flt.value_fin, abs_div, abs_of_pos Flt.U_pos, div_le_iff₀ Flt.U_pos] at h3
  have e : |(Flt.signed s m : ℚ)| = (m : ℚ) := by
    have h4 := Flt.signed_natAbs s m
    have h5 : |Flt.signed s m| = (m : Int) := by rw [Int.abs_eq_natAbs, h4]
    rw [← Int.cast_abs, h5, Int.cast_natCast]
  rw [e] at h3
  have : (m : ℚ) ≤ ((2 ^ 29 * 2 ^ 149 : Nat) : ℚ) := by
    rw [Nat.cast_mul, Nat.cast_pow, Nat.cast_pow]; exact h3
  exact Nat.cast_le.mp this

/-- **C46, what holds.** In both modes, for every polygon with coordinates of at most 2^29 (of any shape and
position) and every window of less than 2^31 pixels, rasterisation is defined (every write is inside the
buffer, every conversion in range), fills the window with zeros and ones, and does not touch the rest of
the buffer. Missing: larger coordinates. -/
theorem C46_raster_partial (legacy : Bool) (ps : List (Flt × Flt)) (w h : Nat) (buf : List UInt8)
    (hps : ∀ p ∈ ps, (p.1.IsFloat ∧ p.1.IsFinite ∧ |p.1.value| ≤ 2 ^ 29) ∧ (p.2.IsFloat ∧ p.2.IsFinite ∧ |p.2.value| ≤ 2 ^ 29))
    (hbuf : w * h ≤ buf.length) (hsz : w * h < 2 ^ 31) (hh : h < 2 ^ 31) :
    ∃ out, rasterize legacy ps buf w h = .ok out ∧ out.length = buf.length ∧ out.drop (w * h) = buf.drop (w * h) ∧
      ∀ i j, i < h → j < w → out.getD (j + i * w) 0 = 0 ∨ out.getD (j + i * w) 0 = 1 := by
  classical
  have hs : ∀ p ∈ ps, SmallCoord p.1 ∧ SmallCoord p.2 := fun p hp =>
    ⟨smallCoord_of_value (hps p hp).1.1 (hps p hp).1.2.1 (hps p hp).1.2.2,
      smallCoord_of_value (hps p hp).2.1 (hps p hp).2.2.1 (hps p hp).2.2.2⟩
  have hrow : ∀ row, ∃ spans : List (Int × Int), row < h → ((∀ s ∈ spans, 0 ≤ s.1 ∧ s.2 < (w : Int)) ∧
      ∀ buf, rasterRow legacy (if legacy then ps else roundPolygon ps) w row buf =
        Outcome.forEach (fun s buf => fillSpan w row s.1 s.2 buf) spans buf) := by
    intro row
    by_cases hr : row < h
    · obtain ⟨spans, h1, h2⟩ := rasterRow_ok legacy row w (by omega) ps hs
      exact ⟨spans, fun _ => ⟨h1, h2⟩⟩
    · exact ⟨[], fun h => absurd h hr⟩
  choose spans hspans using hrow
  obtain ⟨out, h1, h2, h3, h4⟩ := rasterize_spec legacy ps w h buf hbuf hsz spans hspans
  refine ⟨out, h1, h2, h3, fun i j hi hj => ?_⟩
  by_cases hc : ∃ s ∈ spans i, s.1 ≤ (j : Int) ∧ (j : Int) ≤ s.2
  · exact .inr ((h4 i j hi hj).1 hc)
  · exact .inl ((h4 i j hi hj).2 hc)

/-- **C46 (node buffer).** For every polygon the intersections of a row are at most as many as its points, for
which there is room in the buffer of the nodes. -/
theorem C46_nodes (legacy : Bool) (ps : List (Flt × Flt)) (row : Nat) (nodes : List Int)
    (h : Outcome.forEach (if legacy then legacyNode row else node row) (edges ps) [] = .ok nodes) :
    nodes.length ≤ ps.length := by
  have step : ∀ e nodes nodes', (if legacy then legacyNode row else node row) e nodes = .ok nodes' → nodes'.length ≤ nodes.length + 1 := by
    have hmap : ∀ (o : Outcome Int) (nodes nodes' : List Int), (o.map fun n => nodes ++ [n]) = .ok nodes' → nodes'.length ≤ nodes.length + 1 := by
      intro o nodes nodes' h
      cases o with
      | ok n =>
        simp only [Outcome.map, Outcome.bind_ok, Outcome.ok.injEq] at h
        rw [← h]; simp
      | abort => simp [Outcome.map] at h
      | ub => simp [Outcome.map] at h
    intro e nodes nodes' h
    obtain ⟨⟨xi, yi⟩, ⟨xj, yj⟩⟩ := e
    cases legacy with
    | true =>
      rw [if_pos rfl] at h
      unfold legacyNode at h
      simp only at h
      split at h
      · exact hmap _ _ _ h
      · rw [Outcome.ok.injEq] at h; rw [← h]; omega
    | false =>
      rw [if_neg (by simp)] at h
      unfold node at h
      simp only at h
      cases h1 : yi.toInt with
      | abort => rw [h1] at h; simp at h
      | ub => rw [h1] at h; simp at h
      | ok a =>
        cases h2 : yj.toInt with
        | abort => rw [h1, h2] at h; simp at h
        | ub => rw [h1, h2] at h; simp at h
        | ok b =>
          rw [h1, h2, Outcome.bind_ok, Outcome.bind_ok] at h
          split at h
          · split at h
            · exact hmap _ _ _ h
            · exact hmap _ _ _ h
          · rw [Outcome.ok.injEq] at h; rw [← h]; omega
  rw [← edges_length ps]
  suffices ∀ es acc, Outcome.forEach (if legacy then legacyNode row else node row) es acc = .ok nodes → nodes.length ≤ acc.length + es.length by
    simpa using this _ _ h
  intro es
  induction es with
  | nil => intro acc h; simp only [Outcome.forEach, Outcome.ok.injEq] at h; rw [h]; simp
  | cons e es ih =>
    intro acc h
    rw [Outcome.forEach] at h
    cases hc : (if legacy then legacyNode row else node row) e acc with
    | abort => rw [hc] at h; simp at h
    | ub => rw [hc] at h; simp at h
    | ok acc' =>
      rw [hc, Outcome.bind_ok] at h
      have := ih acc' h
      have := step e acc acc' hc
      rw [List.length_cons]
      omega

example : rasterize false [(.ofInt (-1), .ofInt 0), (.ofInt 9, .ofInt 0), (.ofInt 1, .ofInt 2)] (List.replicate 10 7) 3 3 =
    .ok [1, 1, 1, 1, 1, 1, 0, 1, 0, 7] := by decide +kernel

/-! ## C73: rectangles -/

/-- **C73 is violated** in legacy mode: the pixels of a rectangle at the origin are marked one row too low, and
where the rectangle goes past the right side of the window its last column is not marked. -/
theorem C73_legacy_false :
    getMaskOffset true (.rectangle (.ofInt 0) (.ofInt 0) (.ofInt 2) (.ofInt 2)) (List.replicate 9 7) 0 0 3 3 =
      .ok [0, 0, 0, 1, 1, 0, 1, 1, 0] ∧
    getMaskOffset true (.rectangle (.ofInt 0) (.ofInt (-1)) (.ofInt 9) (.ofInt 9)) (List.replicate 4 7) 0 0 2 2 =
      .ok [1, 0, 1, 0] := by decide +kernel

theorem IsRect.of_rect {X Y W H : Flt} {x y wx wy : Int} {w h : Nat} (hX : X.Is x) (hY : Y.Is y) (hW : W.Is w) (hH : H.Is h)
    (hw : 0 < w) (hh : 0 < h)
    (hx : |x| + w ≤ 2 ^ 23) (hy : |y| + h ≤ 2 ^ 23) (hwx : |wx| ≤ 2 ^ 23) (hwy : |wy| ≤ 2 ^ 23) :
    IsRect (offsetPolygon (rectPoints false X Y W H) (.ofInt (-wx)) (.ofInt (-wy))) (x + -wx) (y + -wy) (x + w - 1 + -wx) (y + h - 1 + -wy) := by
  have h23 : (2 : Int) ^ 23 = 8388608 := by norm_num
  have h24 : (2 : Int) ^ 24 = 16777216 := by norm_num
  rw [h23] at hx hy hwx hwy
  simp only [Int.abs_eq_natAbs] at hx hy hwx hwy
  have ab : ∀ n : Int, n.natAbs ≤ 16777216 → |n| ≤ 2 ^ 24 := by
    intro n hn; rw [h24, Int.abs_eq_natAbs]; omega
  have ox : (Flt.ofInt (-wx)).Is (-wx) := Flt.ofInt_small (ab _ (by omega))
  have oy : (Flt.ofInt (-wy)).Is (-wy) := Flt.ofInt_small (ab _ (by omega))
  have r1 : ((X.addF W).subF .one).Is (x + w - 1) := (hX.add hW (ab _ (by omega))).sub Flt.one_is (ab _ (by omega))
  have r2 : ((Y.addF H).subF .one).Is (y + h - 1) := (hY.add hH (ab _ (by omega))).sub Flt.one_is (ab _ (by omega))
  refine ⟨⟨_, _, _, _, _, _, _, _, rfl, hX.add ox (ab _ (by omega)), hY.add oy (ab _ (by omega)), r1.add ox (ab _ (by omega)),
    hY.add oy (ab _ (by omega)), r1.add ox (ab _ (by omega)), r2.add oy (ab _ (by omega)), hX.add ox (ab _ (by omega)),
    r2.add oy (ab _ (by omega))⟩, ab _ (by omega), ab _ (by omega), ab _ (by omega), ab _ (by omega)⟩

/-- **C73, what holds.** In the default mode the window of a rectangle with integer position and size holds 1
at exactly the image positions inside the rectangle and 0 elsewhere. Missing: fractional rectangles,
coordinates beyond 2^23 and legacy mode. -/
theorem C73_rectangle_window_partial (X Y W H : Flt) (x y wx wy : Int) (rw rh w h : Nat) (buf : List UInt8)
    (hf : ∀ c ∈ [X, Y, W, H], c.IsFinite) (hX : X.value = x) (hY : Y.value = y) (hW : W.value = rw) (hH : H.value = rh)
    (hrw : 0 < rw) (hrh : 0 < rh) (hx : |x| + rw ≤ 2 ^ 23) (hy : |y| + rh ≤ 2 ^ 23) (hwx : |wx| ≤ 2 ^ 23) (hwy : |wy| ≤ 2 ^ 23)
    (hbuf : w * h ≤ buf.length) (hsz : w * h < 2 ^ 31) (hh : h < 2 ^ 31) :
    ∃ out, getMaskOffset false (.rectangle X Y W H) buf wx wy w h = .ok out ∧ out.length = buf.length ∧
      out.drop (w * h) = buf.drop (w * h) ∧
      ∀ i j : Nat, i < h → j < w → out.getD (j + i * w) 0 =
        if (x ≤ wx + j ∧ wx + j < x + rw) ∧ (y ≤ wy + i ∧ wy + i < y + rh) then 1 else 0 := by
  have iX : X.Is x := Flt.is_of_value (hf X (by simp)) hX
  have iY : Y.Is y := Flt.is_of_value (hf Y (by simp)) hY
  have iW : W.Is rw := Flt.is_of_value (hf W (by simp)) (by rw [hW]; norm_cast)
  have iH : H.Is rh := Flt.is_of_value (hf H (by simp)) (by rw [hH]; norm_cast)
  have hrect := IsRect.of_rect iX iY iW iH hrw hrh hx hy hwx hwy
  have h23 : (2 : Int) ^ 23 = 8388608 := by norm_num
  rw [h23, Int.abs_eq_natAbs] at hwx hwy
  obtain ⟨out, h1, h2, h3, h4⟩ := rasterize_rect hrect.round (by omega) (by omega) w h buf hbuf hsz hh
  refine ⟨out, ?_, h2, h3, fun i j hi hj => ?_⟩
  · unfold getMaskOffset
    simp only
    rw [chk32_ok (n := -wx) (by unfold InInt32; omega), Outcome.bind_ok, chk32_ok (n := -wy) (by unfold InInt32; omega), Outcome.bind_ok, h1]
  · rw [h4 i j hi hj]
    by_cases hc : (x ≤ wx + j ∧ wx + j < x + rw) ∧ (y ≤ wy + i ∧ wy + i < y + rh)
    · rw [if_pos hc, if_pos (by omega)]
    · rw [if_neg hc, if_neg (by omega)]

example : getMaskOffset false (.rectangle (.ofInt (-1)) (.ofInt 3) (.ofInt 2) (.ofInt 5)) (List.replicate 6 7) (-2) 2 3 2 =
    .ok [0, 0, 0, 0, 1, 1] := by decide +kernel

/-! ### Rectangles between pixels -/

/-- Rounding keeps the order of two numbers. -/
theorem round_mono {a e : ℚ} {l r : Int} (hae : a ≤ e)
    (a1 : 0 ≤ a → (l : ℚ) ≤ a + 1 / 2 ∧ a + 1 / 2 < l + 1) (a2 : a < 0 → (l : ℚ) - 1 < a - 1 / 2 ∧ a - 1 / 2 ≤ l)
    (e1 : 0 ≤ e → (r : ℚ) ≤ e + 1 / 2 ∧ e + 1 / 2 < r + 1) (e2 : e < 0 → (r : ℚ) - 1 < e - 1 / 2 ∧ e - 1 / 2 ≤ r) : l ≤ r := by
  have : (l : ℚ) < r + 1 := by
    rcases lt_or_ge a 0 with ha | ha
    · obtain ⟨p, q⟩ := a2 ha
      rcases lt_or_ge e 0 with he | he
      · obtain ⟨p', q'⟩ := e2 he
        linarith
      · obtain ⟨p', q'⟩ := e1 he
        have hl : (l : ℚ) < 1 := by linarith
        have hr : (-1 : ℚ) < r := by linarith
        have hl' : l < 1 := by exact_mod_cast hl
        have hr' : -1 < r := by exact_mod_cast hr
        exact_mod_cast (by omega : l < r + 1)
    · obtain ⟨p, q⟩ := a1 ha
      obtain ⟨p', q'⟩ := e1 (le_trans ha hae)
      linarith
  have h : l < r + 1 := by exact_mod_cast this
  omega

/-- The rounded left end against a pixel. -/
theorem round_left {a : ℚ} {l : Int} (j : Nat)
    (a1 : 0 ≤ a → (l : ℚ) ≤ a + 1 / 2 ∧ a + 1 / 2 < l + 1) (a2 : a < 0 → (l : ℚ) - 1 < a - 1 / 2 ∧ a - 1 / 2 ≤ l) :
    l ≤ (j : Int) ↔ a < (j : ℚ) + 1 / 2 := by
  have hj : (0 : ℚ) ≤ j := Nat.cast_nonneg _
  rcases lt_or_ge a 0 with ha | ha
  · obtain ⟨p, q⟩ := a2 ha
    have hl : (l : ℚ) < 1 := by linarith
    have hl' : l < 1 := by exact_mod_cast hl
    exact ⟨fun _ => by linarith, fun _ => by omega⟩
  · obtain ⟨p, q⟩ := a1 ha
    constructor
    · intro h
      have : (l : ℚ) ≤ j := by exact_mod_cast h
      linarith
    · intro h
      have : (l : ℚ) < (j : ℚ) + 1 := by linarith
      have : l < (j : Int) + 1 := by exact_mod_cast this
      omega

/-- The rounded right end against a pixel. -/
theorem round_right {e : ℚ} {r : Int} (j : Nat) (hne : e ≠ -(1 / 2))
    (e1 : 0 ≤ e → (r : ℚ) ≤ e + 1 / 2 ∧ e + 1 / 2 < r + 1) (e2 : e < 0 → (r : ℚ) - 1 < e - 1 / 2 ∧ e - 1 / 2 ≤ r) :
    (j : Int) ≤ r ↔ (j : ℚ) ≤ e + 1 / 2 := by
  have hj : (0 : ℚ) ≤ j := Nat.cast_nonneg _
  rcases lt_or_ge e 0 with he | he
  · obtain ⟨p, q⟩ := e2 he
    constructor
    · intro h
      have : (j : ℚ) ≤ r := by exact_mod_cast h
      linarith
    · intro h
      have hlt : -(1 / 2) < e := lt_of_le_of_ne (by linarith) (Ne.symm hne)
      have hr : (-1 : ℚ) < r := by linarith
      have hr' : -1 < r := by exact_mod_cast hr
      have hj1 : (j : ℚ) < 1 := by linarith
      have hj' : j < 1 := by exact_mod_cast hj1
      omega
  · obtain ⟨p, q⟩ := e1 he
    constructor
    · intro h
      have : (j : ℚ) ≤ r := by exact_mod_cast h
      linarith
    · intro h
      have : (j : ℚ) < (r : ℚ) + 1 := by linarith
      have : (j : Int) < r + 1 := by exact_mod_cast this
      omega

theorem round_bound {a : ℚ} {l : Int} (h : |a| ≤ 2 ^ 24)
    (a1 : 0 ≤ a → (l : ℚ) ≤ a + 1 / 2 ∧ a + 1 / 2 < l + 1) (a2 : a < 0 → (l : ℚ) - 1 < a - 1 / 2 ∧ a - 1 / 2 ≤ l) : |l| ≤ 2 ^ 24 := by
  rw [abs_le] at h ⊢
  have : (l : ℚ) < 2 ^ 24 + 1 ∧ (-2 ^ 24 - 1 : ℚ) < l := by
    rcases lt_or_ge a 0 with ha | ha
    · obtain ⟨p, q⟩ := a2 ha
      constructor <;> linarith [h.1, h.2]
    · obtain ⟨p, q⟩ := a1 ha
      constructor <;> linarith [h.1, h.2]
  have h1 : l < 2 ^ 24 + 1 := by exact_mod_cast this.1
  have h2 : -2 ^ 24 - 1 < l := by exact_mod_cast this.2
  omega

/-- One direction of a rectangle on a grid: the ends of the offset polygon after rounding. -/
theorem grid_ends {k : Nat} (hk : k ≤ 23) {X W : Flt} {x w wx : Int} (hX : X.OnGrid k x) (hW : W.OnGrid k w) (hw : 2 ^ k ≤ w)
    (hx : |x| + w ≤ 2 ^ 23) (hwx : |wx * 2 ^ k| ≤ 2 ^ 23) :
    ∃ l r : Int, (X.addF (.ofInt (-wx))).roundF.Is l ∧ (((X.addF W).subF .one).addF (.ofInt (-wx))).roundF.Is r ∧ l ≤ r ∧
      |l| ≤ 2 ^ 24 ∧ |r| ≤ 2 ^ 24 ∧ (∀ j : Nat, l ≤ (j : Int) ↔ X.value < wx + j + 1 / 2) ∧
      (X.value + W.value ≠ wx + 1 / 2 → ∀ j : Nat, (j : Int) ≤ r ↔ (wx : ℚ) + j + 1 / 2 ≤ X.value + W.value) := by
  have hK : (0 : Int) < 2 ^ k := by positivity
  have hKq : (1 : ℚ) ≤ 2 ^ k := one_le_pow₀ (by norm_num)
  have hKq0 : (0 : ℚ) < 2 ^ k := by linarith
  have hwx' : |-wx| ≤ 2 ^ 24 := by
    rw [abs_neg]
    have h1 : |wx| * 1 ≤ |wx| * 2 ^ k := mul_le_mul_of_nonneg_left (by omega) (abs_nonneg _)
    rw [abs_mul, abs_of_pos hK] at hwx
    omega
  have ox := (Flt.ofInt_small hwx').onGrid k
  have o1 := Flt.one_is.onGrid k
  rw [one_mul] at o1
  have h23 : (2 : Int) ^ 23 = 8388608 := by norm_num
  have h24 : (2 : Int) ^ 24 = 16777216 := by norm_num
  rw [neg_mul] at ox
  have hwk : wx * 2 ^ k = wx * 2 ^ k := rfl
  generalize hM : wx * 2 ^ k = M at *
  have hMq : (M : ℚ) = wx * 2 ^ k := by rw [← hM]; push_cast; rfl
  have hKi : ((2 ^ k : Int) : ℚ) = 2 ^ k := by push_cast; rfl
  generalize hKd : (2 : Int) ^ k = K at *
  rw [h23] at hx hwx
  simp only [Int.abs_eq_natAbs] at hx hwx
  have ab : ∀ n : Int, n.natAbs ≤ 16777216 → |n| ≤ 2 ^ 24 := by
    intro n hn; rw [h24, Int.abs_eq_natAbs]; omega
  have gl := hX.add (by omega) ox (ab _ (by omega))
  have gr := ((hX.add (by omega) hW (ab _ (by omega))).sub (by omega) o1 (ab _ (by omega))).add (by omega) ox (ab _ (by omega))
  obtain ⟨l, l0, l1, l2⟩ := Flt.roundF_spec gl.1
  obtain ⟨r, r0, r1, r2⟩ := Flt.roundF_spec gr.1
  have vl : (X.addF (.ofInt (-wx))).value = X.value - wx := by
    rw [gl.2, hX.2]; push_cast; rw [hMq]; field_simp; ring
  have vr : (((X.addF W).subF .one).addF (.ofInt (-wx))).value = X.value + W.value - 1 - wx := by
    rw [gr.2, hX.2, hW.2]; push_cast; rw [hMq, hKi]; field_simp; ring
  have bnd : ∀ n : Int, n.natAbs ≤ 16777216 → |(n : ℚ) / 2 ^ k| ≤ 2 ^ 24 := by
    intro n hn
    rw [abs_div, abs_of_pos hKq0, div_le_iff₀ hKq0]
    have : |(n : ℚ)| ≤ 2 ^ 24 := by exact_mod_cast ab n hn
    nlinarith
  have bl : |(X.addF (.ofInt (-wx))).value| ≤ 2 ^ 24 := by rw [gl.2]; exact bnd _ (by omega)
  have br : |(((X.addF W).subF .one).addF (.ofInt (-wx))).value| ≤ 2 ^ 24 := by rw [gr.2]; exact bnd _ (by omega)
  have hW1 : 1 ≤ W.value := by
    rw [hW.2, le_div_iff₀ hKq0, one_mul, ← hKi]
    exact_mod_cast hw
  rw [vl] at l1 l2 bl
  rw [vr] at r1 r2 br
  refine ⟨l, r, l0, r0, round_mono (by linarith) l1 l2 r1 r2, round_bound bl l1 l2, round_bound br r1 r2, fun j => ?_, fun hne j => ?_⟩
  · rw [round_left j l1 l2]
    constructor <;> intro h <;> linarith
  · rw [round_right j (fun h => hne (by linarith)) r1 r2]
    constructor <;> intro h <;> linarith

/-- **C73 for rectangles that do not fit the pixels, what holds.** In the default mode, when position and size are multiples
of `2 ^ -k`, the window of a rectangle at least one pixel wide and high holds 1 at exactly the pixels whose centre is in
the rectangle, and 0 elsewhere. A centre on the left or upper side is not inside, one on the right or lower side is.
Missing: rectangles thinner than a pixel (`C73_thin_false`), a right or lower side that goes through the centre of the
first column or row of the window (`C73_half_false`), numbers too large for their fraction. -/
theorem C73_centres_partial (k : Nat) (X Y W H : Flt) (wx wy : Int) (w h : Nat) (buf : List UInt8)
    (hf : ∀ c ∈ [X, Y, W, H], c.IsFinite ∧ ∃ n : Int, c.value = n / 2 ^ k) (hk : k ≤ 23)
    (hW : 1 ≤ W.value) (hH : 1 ≤ H.value)
    (hx : |X.value| + W.value ≤ 2 ^ 23 / 2 ^ k) (hy : |Y.value| + H.value ≤ 2 ^ 23 / 2 ^ k)
    (hwx : |(wx : ℚ)| ≤ 2 ^ 23 / 2 ^ k) (hwy : |(wy : ℚ)| ≤ 2 ^ 23 / 2 ^ k)
    (hr : X.value + W.value ≠ wx + 1 / 2) (hb : Y.value + H.value ≠ wy + 1 / 2)
    (hbuf : w * h ≤ buf.length) (hsz : w * h < 2 ^ 31) (hh : h < 2 ^ 31) :
    ∃ out, getMaskOffset false (.rectangle X Y W H) buf wx wy w h = .ok out ∧ out.length = buf.length ∧
      out.drop (w * h) = buf.drop (w * h) ∧
      ∀ i j : Nat, i < h → j < w → out.getD (j + i * w) 0 =
        if (X.value < wx + j + 1 / 2 ∧ (wx : ℚ) + j + 1 / 2 ≤ X.value + W.value) ∧
          (Y.value < wy + i + 1 / 2 ∧ (wy : ℚ) + i + 1 / 2 ≤ Y.value + H.value) then 1 else 0 := by
  have hKq0 : (0 : ℚ) < 2 ^ k := by positivity
  have side : ∀ (X W : Flt) (wx : Int), (X.IsFinite ∧ ∃ n : Int, X.value = n / 2 ^ k) → (W.IsFinite ∧ ∃ n : Int, W.value = n / 2 ^ k) →
      1 ≤ W.value → |X.value| + W.value ≤ 2 ^ 23 / 2 ^ k → |(wx : ℚ)| ≤ 2 ^ 23 / 2 ^ k →
      ∃ x v : Int, X.OnGrid k x ∧ W.OnGrid k v ∧ 2 ^ k ≤ v ∧ |x| + v ≤ 2 ^ 23 ∧ |wx * 2 ^ k| ≤ 2 ^ 23 ∧ |wx| ≤ 2 ^ 23 := by
    rintro X W wx ⟨f1, x, hx⟩ ⟨f2, v, hv⟩ h1 h2 h3
    refine ⟨x, v, ⟨f1, hx⟩, ⟨f2, hv⟩, ?_, ?_, ?_, ?_⟩
    · rw [hv, le_div_iff₀ hKq0, one_mul] at h1
      exact_mod_cast h1
    · rw [hx, hv, abs_div, abs_of_pos hKq0, ← add_div, div_le_div_iff_of_pos_right hKq0] at h2
      exact_mod_cast h2
    · rw [le_div_iff₀ hKq0] at h3
      have : |(wx : ℚ) * 2 ^ k| ≤ 2 ^ 23 := by rw [abs_mul, abs_of_pos hKq0]; exact h3
      exact_mod_cast this
    · rw [le_div_iff₀ hKq0] at h3
      have hKq : (1 : ℚ) ≤ 2 ^ k := one_le_pow₀ (by norm_num)
      have : |(wx : ℚ)| ≤ 2 ^ 23 := by nlinarith [abs_nonneg (wx : ℚ)]
      exact_mod_cast this
  obtain ⟨x, v, gX, gW, c1, c2, c3, c4⟩ := side X W wx (hf X (by simp)) (hf W (by simp)) hW hx hwx
  obtain ⟨y, u, gY, gH, d1, d2, d3, d4⟩ := side Y H wy (hf Y (by simp)) (hf H (by simp)) hH hy hwy
  obtain ⟨l, r, l0, r0, hlr, bl, br, jl, jr⟩ := grid_ends hk gX gW c1 c2 c3
  obtain ⟨t, b, t0, b0, htb, bt, bb, it, ib⟩ := grid_ends hk gY gH d1 d2 d3
  have hrect : IsRect (roundPolygon (offsetPolygon (rectPoints false X Y W H) (.ofInt (-wx)) (.ofInt (-wy)))) l t r b :=
    ⟨⟨_, _, _, _, _, _, _, _, rfl, l0, t0, r0, t0, r0, b0, l0, b0⟩, bl, bt, br, bb⟩
  have h23 : (2 : Int) ^ 23 = 8388608 := by norm_num
  rw [h23, Int.abs_eq_natAbs] at c4 d4
  obtain ⟨out, h1, h2, h3, h4⟩ := rasterize_rect hrect hlr htb w h buf hbuf hsz hh
  refine ⟨out, ?_, h2, h3, fun i j hi hj => ?_⟩
  · unfold getMaskOffset
    simp only
    rw [chk32_ok (n := -wx) (by unfold InInt32; omega), Outcome.bind_ok, chk32_ok (n := -wy) (by unfold InInt32; omega), Outcome.bind_ok, h1]
  · rw [h4 i j hi hj]
    simp only [jl, jr hr, it, ib hb]

/-- The rectangle from (0, 0) of size 1.5 by 1 and the pixel (1, 0), whose centre is on its right side: the pixel is marked
in the window that begins at (0, 0) and not in the one that begins at (1, 0). -/
theorem C73_half_false :
    (Flt.fin false (3 * 2 ^ 148)).value = 3 / 2 ∧
    getMaskOffset false (.rectangle (.ofInt 0) (.ofInt 0) (.fin false (3 * 2 ^ 148)) (.ofInt 1)) [7, 7] 0 0 2 1 = .ok [1, 1] ∧
    getMaskOffset false (.rectangle (.ofInt 0) (.ofInt 0) (.fin false (3 * 2 ^ 148)) (.ofInt 1)) [7] 1 0 1 1 = .ok [0] := by
  refine ⟨by rw [Flt.value_fin]; norm_num [Flt.signed], by decide +kernel, by decide +kernel⟩

/-- The rectangle from (0, 0) of size 0.25 by 1 holds the centre of no pixel, and the pixel (0, 0) is marked. -/
theorem C73_thin_false :
    (Flt.fin false (2 ^ 147)).value = 1 / 4 ∧
    getMaskOffset false (.rectangle (.ofInt 0) (.ofInt 0) (.fin false (2 ^ 147)) (.ofInt 1)) [7, 7] 0 0 2 1 = .ok [1, 0] := by
  refine ⟨by rw [Flt.value_fin]; norm_num [Flt.signed], by decide +kernel⟩

/-- A rectangle from (0.5, 0.25) of size 2.25 by 1.5: the hypotheses hold with `k = 2`. -/
example : (∀ c ∈ [Flt.fin false (2 ^ 148), Flt.fin false (2 ^ 147), Flt.fin false (9 * 2 ^ 147), Flt.fin false (3 * 2 ^ 148)],
      c.IsFinite ∧ ∃ n : Int, c.value = n / 2 ^ 2) ∧
    getMaskOffset false (.rectangle (.fin false (2 ^ 148)) (.fin false (2 ^ 147)) (.fin false (9 * 2 ^ 147)) (.fin false (3 * 2 ^ 148)))
      (List.replicate 12 7) 0 0 4 3 = .ok [0, 1, 1, 0, 0, 1, 1, 0, 0, 0, 0, 0] := by
  refine ⟨?_, by decide +kernel⟩
  intro c hc
  simp only [List.mem_cons, List.not_mem_nil, or_false] at hc
  rcases hc with rfl | rfl | rfl | rfl
  · exact ⟨trivial, 2, by rw [Flt.value_fin]; norm_num [Flt.signed]⟩
  · exact ⟨trivial, 1, by rw [Flt.value_fin]; norm_num [Flt.signed]⟩
  · exact ⟨trivial, 9, by rw [Flt.value_fin]; norm_num [Flt.signed]⟩
  · exact ⟨trivial, 6, by rw [Flt.value_fin]; norm_num [Flt.signed]⟩

end Trax
