import Verif.Lemmas.NccMatlab

/-!
# C171: the tracker of the tutorial for MATLAB
-/

namespace Trax.NccMatlab
open Trax.NccMatlab.Spec

/-- **C171.** With images of one size and a region in the image, the result has one row for each image: first the region, then rectangles with the size of what of the region is inside of the image (without the outermost pixels), each inside
of the image and in the window around the one before. Missing from the full claim: regions as wide or as high as the image (`C171_whole_false`) and regions with a single pixel. -/
theorem C171_search_partial (pictures : Str → Option Picture) (width height : Int) (first : Str) (rest : List Str) (hi : ∀ i ∈ first :: rest, Readable pictures width height i)
    (x y w h X Y W H : Int) (hX : X = max 1 x) (hY : Y = max 1 y) (hW : W = min (width - 1) (x + w) - X) (hH : H = min (height - 1) (y + h) - Y)
    (h1 : 0 < W) (h2 : 0 < H) (h3 : 1 < W ∨ 1 < H) (h4 : W < width - 2) (h5 : H < height - 2) :
    ∃ rows, tracker pictures (first :: rest) [x, y, w, h] = some ([x, y, w, h] :: rows) ∧ rows.length = rest.length ∧ Path W H width height X Y rows := by
  obtain ⟨p, hp, rfl, rfl, hs⟩ := hi first (by simp)
  have hin : Inside X Y W H p.width p.height := by unfold Inside; omega
  have e : start p ⟨x, y, w, h⟩ = start p ⟨X, Y, W, H⟩ := by
    unfold start
    dsimp only
    have e1 : max 1 X = max 1 x := by omega
    have e2 : max 1 Y = max 1 y := by omega
    have e3 : min (p.width - 2) (X + W - 1) = min (p.width - 2) (x + w - 1) := by omega
    have e4 : min (p.height - 2) (Y + H - 1) = min (p.height - 2) (y + h - 1) := by omega
    rw [e1, e2, e3, e4]
  obtain ⟨rows, q1, q2, q3⟩ := follow_path h1 h2 (by omega) h4 h5 rest (fun i h => hi i (by simp [h])) (start_at hin h1 h2) hin
  refine ⟨rows, ?_, q2, q3⟩
  unfold tracker
  dsimp only
  rw [hp]
  show (follow pictures rest (start p ⟨x, y, w, h⟩)).map _ = _
  rw [e, q1]
  rfl

/-- **C171 for an object that does not move.** If the region is inside of the image and does not touch the last two columns and rows, and the template is found at its place in each image, each row of the result is the region. Missing from the
full claim: regions at the right and the lower border (`C171_border_false`), and at the outermost pixels, which are cut off. -/
theorem C171_still_partial (pictures : Str → Option Picture) (width height : Int) (first : Str) (rest : List Str) (hi : ∀ i ∈ first :: rest, Readable pictures width height i) (x y w h : Int)
    (hx : 1 ≤ x) (hx' : x + w ≤ width - 2) (hy : 1 ≤ y) (hy' : y + h ≤ height - 2) (hw : 0 < w) (hh : 0 < h) (h1 : 1 < w ∨ 1 < h)
    (hs : ∀ i ∈ rest, ∀ p, pictures i = some p → Shows p x y) : tracker pictures (first :: rest) [x, y, w, h] = some (List.replicate (rest.length + 1) [x, y, w, h]) := by
  obtain ⟨p, hp, rfl, rfl, _⟩ := hi first (by simp)
  unfold tracker
  dsimp only
  rw [hp]
  show (follow pictures rest (start p ⟨x, y, w, h⟩)).map _ = _
  rw [follow_still hw hh (by omega) hx hx' hy hy' rest (fun i h => hi i (by simp [h])) hs (start_at ⟨hx, by omega, hy, by omega⟩ hw hh)]
  rfl

/-- **C171 for an object that does not move** (false). If the region ends at the last column but one, which is the last one that is used, the tracker says that the object has moved to the left, wherever the template is found: the last place is not compared
(`center = size(region) - pad - 1`). -/
theorem C171_border_false (pictures : Str → Option Picture) (width height : Int) (first second : Str) (rest : List Str) (hi : ∀ i ∈ first :: second :: rest, Readable pictures width height i) (x y w h : Int)
    (hin : Inside x y w h width height) (hx : x + w = width - 1) (hw : 0 < w) (hh : 0 < h) (h1 : 1 < w ∨ 1 < h) (h2 : w < width - 2) (h3 : h < height - 2) :
    ∃ x' y' rows, tracker pictures (first :: second :: rest) [x, y, w, h] = some ([x, y, w, h] :: [x', y', w, h] :: rows) ∧ x' < x := by
  obtain ⟨p, hp, e1, e2, _⟩ := hi first (by simp)
  obtain ⟨p2, hp2, rfl, rfl, hs2⟩ := hi second (by simp)
  have a := start_at (p := p) (by rw [e1, e2]; exact hin) hw hh
  obtain ⟨x', y', s', e, a', n, g, _⟩ := update_at a hin hw hh (by omega) h2 h3 hs2
  obtain ⟨rows, q1, _⟩ := follow_path hw hh (by omega) h2 h3 rest (fun i h => hi i (by simp [h])) a' n.inside
  refine ⟨x', y', rows, ?_, by omega⟩
  unfold tracker
  dsimp only
  rw [hp]
  show (follow pictures (second :: rest) (start p ⟨x, y, w, h⟩)).map _ = _
  rw [follow, hp2]
  show Option.map _ ((update p2 (start p ⟨x, y, w, h⟩)).bind _) = _
  rw [e]
  show Option.map _ (Option.map _ (follow pictures rest s')) = _
  rw [q1]
  rfl

/-- **C171 for a region as wide as the image** (false). The tracker ends with an error at the second image: there is no place to compare. -/
theorem C171_whole_false (pictures : Str → Option Picture) (width height : Int) (first second : Str) (rest : List Str) (hi : ∀ i ∈ [first, second], Readable pictures width height i) (y h : Int)
    (hin : Inside 1 y (width - 2) h width height) (hw : 2 < width) (hh : 0 < h) : tracker pictures (first :: second :: rest) [1, y, width - 2, h] = none := by
  obtain ⟨p, hp, e1, e2, _⟩ := hi first (by simp)
  obtain ⟨p2, hp2, rfl, rfl, _⟩ := hi second (by simp)
  obtain ⟨b1, b2, b3, b4, b5, b6, b7⟩ := start_at (p := p) (by rw [e1, e2]; exact hin) (by omega) hh
  obtain ⟨i1, i2, i3, i4⟩ := hin
  have : update p2 (start p ⟨1, y, p2.width - 2, h⟩) = none := by
    unfold update
    rw [b1, b2, b3, b4, b5, b6, b7]
    dsimp only
    have wpos : 0 < p2.width - 2 := by omega
    generalize p2.width - 2 = w at *
    have l2 := Ncc.roundHalf_lower (2 * 1 + w + max w h * 2)
    have u1 := Ncc.roundHalf_upper (2 * 1 + w - max w h * 2)
    have l4 := Ncc.roundHalf_lower (2 * y + h + max w h * 2)
    have u3 := Ncc.roundHalf_upper (2 * y + h - max w h * 2)
    generalize Ncc.roundHalf (2 * 1 + w - max w h * 2) = q1 at *
    generalize Ncc.roundHalf (2 * 1 + w + max w h * 2) = q2 at *
    generalize Ncc.roundHalf (2 * y + h - max w h * 2) = q3 at *
    generalize Ncc.roundHalf (2 * y + h + max w h * 2) = q4 at *
    have m1 : w ≤ max w h := by omega
    have m2 : h ≤ max w h := by omega
    generalize max w h = m at *
    rw [if_neg (by omega), if_neg (by omega), if_pos (by omega)]
  unfold tracker
  dsimp only
  rw [hp]
  show (follow pictures (second :: rest) (start p ⟨1, y, p2.width - 2, h⟩)).map _ = _
  rw [follow, hp2]
  show Option.map _ ((update p2 _).bind _) = _
  rw [this]
  rfl

theorem odds_numbers (l : List (Int × Int)) : odds (numbers l) = l.map (·.1) ∧ evens (numbers l) = l.map (·.2) := by
  induction l with
  | nil => exact ⟨rfl, rfl⟩
  | cons v l ih => exact ⟨congrArg (v.1 :: ·) ih.1, congrArg (v.2 :: ·) ih.2⟩

theorem least_spec (a : Int) (l : List Int) : (∀ v ∈ a :: l, least (a :: l) ≤ v) ∧ least (a :: l) ∈ a :: l := by
  show (∀ v ∈ a :: l, l.foldl min a ≤ v) ∧ l.foldl min a ∈ a :: l
  induction l generalizing a with
  | nil => simp
  | cons b l ih =>
    obtain ⟨h1, h2⟩ := ih (min a b)
    rw [List.foldl_cons]
    have h0 := h1 (min a b) (by simp)
    refine ⟨fun v hv => ?_, ?_⟩
    · rcases List.mem_cons.1 hv with rfl | hv
      · omega
      · rcases List.mem_cons.1 hv with rfl | hv
        · omega
        · exact h1 v (by simp [hv])
    · rcases List.mem_cons.1 h2 with h | h
      · rcases Int.le_total a b with h' | h'
        · rw [h, Int.min_eq_left h']; simp
        · rw [h, Int.min_eq_right h']; simp
      · simp [h]

theorem greatest_spec (a : Int) (l : List Int) : (∀ v ∈ a :: l, v ≤ greatest (a :: l)) ∧ greatest (a :: l) ∈ a :: l := by
  show (∀ v ∈ a :: l, v ≤ l.foldl max a) ∧ l.foldl max a ∈ a :: l
  induction l generalizing a with
  | nil => simp
  | cons b l ih =>
    obtain ⟨h1, h2⟩ := ih (max a b)
    rw [List.foldl_cons]
    have h0 := h1 (max a b) (by simp)
    refine ⟨fun v hv => ?_, ?_⟩
    · rcases List.mem_cons.1 hv with rfl | hv
      · omega
      · rcases List.mem_cons.1 hv with rfl | hv
        · omega
        · exact h1 v (by simp [hv])
    · rcases List.mem_cons.1 h2 with h | h
      · rcases Int.le_total a b with h' | h'
        · rw [h, Int.max_eq_right h']; simp
        · rw [h, Int.max_eq_left h']; simp
      · simp [h]

/-- **C171 for polygons.** The tracker is initialized with the smallest rectangle around a polygon with three vertices or more. -/
theorem C171_polygon (vertices : List (Int × Int)) (hv : 3 ≤ vertices.length) : ∃ b, box (numbers vertices) = some b ∧ Around vertices b := by
  have hlen : ∀ l : List (Int × Int), (numbers l).length = 2 * l.length := by
    intro l
    induction l with
    | nil => rfl
    | cons v l ih => show (numbers l).length + 2 = _; rw [ih, List.length_cons]; omega
  unfold box
  rw [if_pos (by rw [hlen]; omega)]
  refine ⟨_, rfl, ?_⟩
  rw [(odds_numbers vertices).1, (odds_numbers vertices).2]
  cases vertices with
  | nil => simp at hv
  | cons v l =>
    obtain ⟨a1, a2⟩ := least_spec v.1 (l.map (·.1))
    obtain ⟨b1, b2⟩ := greatest_spec v.1 (l.map (·.1))
    obtain ⟨c1, c2⟩ := least_spec v.2 (l.map (·.2))
    obtain ⟨d1, d2⟩ := greatest_spec v.2 (l.map (·.2))
    simp only [List.map_cons]
    have mem1 : ∀ u ∈ v :: l, u.1 ∈ v.1 :: l.map (·.1) := fun u hu => List.mem_map_of_mem (f := Prod.fst) hu
    have mem2 : ∀ u ∈ v :: l, u.2 ∈ v.2 :: l.map (·.2) := fun u hu => List.mem_map_of_mem (f := Prod.snd) hu
    have back1 : ∀ z ∈ v.1 :: l.map (·.1), ∃ u ∈ v :: l, u.1 = z := fun z hz => List.mem_map.1 (show z ∈ (v :: l).map (·.1) from hz)
    have back2 : ∀ z ∈ v.2 :: l.map (·.2), ∃ u ∈ v :: l, u.2 = z := fun z hz => List.mem_map.1 (show z ∈ (v :: l).map (·.2) from hz)
    refine ⟨⟨fun u hu => a1 _ (mem1 u hu), back1 _ a2⟩, ⟨fun u hu => ?_, ?_⟩, ⟨fun u hu => c1 _ (mem2 u hu), back2 _ c2⟩, ⟨fun u hu => ?_, ?_⟩⟩ <;> dsimp only
    · have := b1 _ (mem1 u hu); omega
    · obtain ⟨u, hu, e⟩ := back1 _ b2
      exact ⟨u, hu, by omega⟩
    · have := d1 _ (mem2 u hu); omega
    · obtain ⟨u, hu, e⟩ := back2 _ d2
      exact ⟨u, hu, by omega⟩

/-- **C171 for polygons** (false). The program ends with an error for every polygon, whatever the images are: a row of its result has room for four numbers only. -/
theorem C171_polygon_false (pictures : Str → Option Picture) (images : List Str) (vertices : List (Int × Int)) (hv : 3 ≤ vertices.length) : tracker pictures images (numbers vertices) = none := by
  have hlen : ∀ l : List (Int × Int), (numbers l).length = 2 * l.length := by
    intro l
    induction l with
    | nil => rfl
    | cons v l ih => show (numbers l).length + 2 = _; rw [ih, List.length_cons]; omega
  unfold tracker
  cases images with
  | nil => rfl
  | cons first rest =>
    dsimp only
    cases pictures first with
    | none => rfl
    | some p =>
      show (box (numbers vertices)).bind _ = _
      cases box (numbers vertices) with
      | none => rfl
      | some r =>
        show (if _ then _ else _) = _
        rw [if_neg (by rw [hlen]; omega)]

/-! ## A concrete case -/

namespace Demo

/-- An image in which the template is found at the given place, or as near to it as possible. -/
def shown (width height px py : Int) : Picture := ⟨width, height, fun x y cols rows => (max 1 (min (px - x + 1) cols), max 1 (min (py - y + 1) rows))⟩

theorem shown_sound (width height px py : Int) : Sound (shown width height px py) := by
  intro x y cols rows h1 h2
  unfold shown
  dsimp only
  omega

theorem shown_shows (width height px py : Int) : Shows (shown width height px py) px py := by
  intro x y cols rows h1 h2 h3 h4
  unfold shown
  dsimp only
  congr 1 <;> omega

end Demo

example : tracker (fun i => some (if i = b!"b" then Demo.shown 100 80 17 21 else Demo.shown 100 80 10 20)) [b!"a", b!"b", b!"c"] [10, 20, 13, 8] =
    some [[10, 20, 13, 8], [17, 21, 13, 8], [11, 20, 13, 8]] := by decide +kernel

/-- A region over the left border. -/
example : ∃ rows, tracker (fun _ => some (Demo.shown 100 80 10 20)) [b!"a", b!"b", b!"c"] [-3, 20, 13, 8] = some ([-3, 20, 13, 8] :: rows) ∧ rows.length = 2 ∧ Path 9 8 100 80 1 20 rows :=
  C171_search_partial (fun _ => some (Demo.shown 100 80 10 20)) 100 80 b!"a" [b!"b", b!"c"] (fun _ _ => ⟨_, rfl, rfl, rfl, Demo.shown_sound _ _ _ _⟩) (-3) 20 13 8 1 20 9 8 rfl rfl rfl rfl (by decide) (by decide) (by decide) (by decide) (by decide)

example : tracker (fun _ => some (Demo.shown 100 80 10 20)) [b!"a", b!"b", b!"c"] [10, 20, 13, 8] = some [[10, 20, 13, 8], [10, 20, 13, 8], [10, 20, 13, 8]] :=
  C171_still_partial (fun _ => some (Demo.shown 100 80 10 20)) 100 80 b!"a" [b!"b", b!"c"] (fun _ _ => ⟨_, rfl, rfl, rfl, Demo.shown_sound _ _ _ _⟩) 10 20 13 8
    (by decide) (by decide) (by decide) (by decide) (by decide) (by decide) (by decide) (by
      intro i _ p hp
      cases hp
      exact Demo.shown_shows 100 80 10 20)

/-- A region at the right border: the object is found at 85, not at 86. -/
example : tracker (fun _ => some (Demo.shown 100 80 86 20)) [b!"a", b!"b"] [86, 20, 13, 8] = some [[86, 20, 13, 8], [85, 20, 13, 8]] := by decide +kernel

example : ∃ x' y' rows, tracker (fun _ => some (Demo.shown 100 80 86 20)) [b!"a", b!"b"] [86, 20, 13, 8] = some ([86, 20, 13, 8] :: [x', y', 13, 8] :: rows) ∧ x' < 86 :=
  C171_border_false (fun _ => some (Demo.shown 100 80 86 20)) 100 80 b!"a" b!"b" [] (fun _ _ => ⟨_, rfl, rfl, rfl, Demo.shown_sound _ _ _ _⟩) 86 20 13 8 (by unfold Inside; decide) (by decide) (by decide) (by decide) (by decide) (by decide) (by decide)

/-- A region as wide as the image. -/
example : tracker (fun _ => some (Demo.shown 100 80 1 20)) [b!"a", b!"b"] [1, 20, 98, 8] = none :=
  C171_whole_false (fun _ => some (Demo.shown 100 80 1 20)) 100 80 b!"a" b!"b" [] (fun _ _ => ⟨_, rfl, rfl, rfl, Demo.shown_sound _ _ _ _⟩) 20 8 (by unfold Inside; decide) (by decide) (by decide)

/-- A polygon. -/
example : box (numbers [(3, 7), (-1, 2), (5, 4)]) = some ⟨-1, 2, 6, 5⟩ := by decide +kernel

example : tracker (fun _ => some (Demo.shown 100 80 1 20)) [b!"a", b!"b"] [30, 70, 10, 20, 50, 40] = none :=
  C171_polygon_false _ _ [(30, 70), (10, 20), (50, 40)] (by decide)

end Trax.NccMatlab
