import Verif.Lemmas.NccSearch
import Verif.Props.Ncc

/-!
# C170: the search of the tracker of the tutorial
-/

namespace Trax.Ncc
open Spec


/-- **C170.** With images of one size and a region that touches the image, the tracker finds a rectangle in each image: it has the size of the region, the template lies in the image there, and it lies in a window around the
rectangle before whose sides are twice the longer side of the region. -/
theorem C170_search (pictures : Str → Option Picture) (cols rows : Int) (first : Str) (rest : List Str) (r : Rect)
    (hi : ∀ i ∈ first :: rest, Readable pictures cols rows i) (ht : Touches r cols rows) :
    ∃ t found, (ncc pictures).init first r = some t ∧ Finds (ncc pictures) t rest found ∧
      Path (min (r.x + r.width) (cols - 1) - max r.x 0) (min (r.y + r.height) (rows - 1) - max r.y 0) cols rows r found := by
  obtain ⟨p, hp, h1, h2, h3⟩ := hi first (by simp)
  obtain ⟨s, e, a⟩ := init_at ht h1 h2
  obtain ⟨found, s', q1, _, _, q4⟩ := walk rest (fun i h => hi i (by simp [h])) a (init_fits ht)
  refine ⟨s, found, ?_, ?_, q1⟩
  · show (pictures first).bind _ = _
    rw [hp]; exact e
  · have := q4 [] [] .nil
    rwa [List.append_nil, List.append_nil] at this

/-- What the tracker finds if the template stays at its place. -/
theorem still {pictures : Str → Option Picture} {cols rows : Int} {first : Str} {rest : List Str} {r : Rect}
    (hi : ∀ i ∈ first :: rest, Readable pictures cols rows i) (ht : Touches r cols rows)
    (hs : ∀ i ∈ rest, ∀ p, pictures i = some p → Shows p (max r.x 0) (max r.y 0) (min (r.x + r.width) (cols - 1) - max r.x 0) (min (r.y + r.height) (rows - 1) - max r.y 0)) :
    ∃ t, (ncc pictures).init first r = some t ∧ Finds (ncc pictures) t rest (List.replicate rest.length ⟨max r.x 0, max r.y 0, r.width, r.height⟩) := by
  obtain ⟨p, hp, h1, h2, h3⟩ := hi first (by simp)
  obtain ⟨s, e, a⟩ := init_at ht h1 h2
  refine ⟨s, ?_, stay rest (fun i h => hi i (by simp [h])) hs a (init_fits ht) rfl rfl rfl rfl⟩
  show (pictures first).bind _ = _
  rw [hp]; exact e

/-- **C170 for an object that does not move.** If the region is not over the left or the upper border of the image, and what is under it is found at its place in each image, the program writes the region for each image. Missing from the full
claim: regions over these borders (`C170_border_false`). -/
theorem C170_still_partial (pictures : Str → Option Picture) (read : Str → Option Str) (cols rows : Int) (first : Str) (rest : List Str) (r : Rect) (more : Str)
    (hl : ∀ l ∈ first :: rest, Line l) (himages : read b!"images.txt" = some (ended (first :: rest))) (hr : Small r) (hreg : read b!"region.txt" = some (row r ++ b!"\n" ++ more))
    (hi : ∀ i ∈ first :: rest, Readable pictures cols rows i) (ht : Touches r cols rows) (hx : 0 ≤ r.x) (hy : 0 ≤ r.y)
    (hs : ∀ i ∈ rest, ∀ p, pictures i = some p → Shows p r.x r.y (min (r.x + r.width) (cols - 1) - r.x) (min (r.y + r.height) (rows - 1) - r.y)) :
    ∃ k, ∀ turns, k ≤ turns → main turns read true (ncc pictures) = some (.written (ended (List.replicate (rest.length + 1) (row r)))) := by
  have ex : max r.x 0 = r.x := by omega
  have ey : max r.y 0 = r.y := by omega
  obtain ⟨t, e, f⟩ := still hi ht (by rw [ex, ey]; exact hs)
  rw [ex, ey] at f
  have := (C169_result_partial (ncc pictures) read first rest r more t _ hl himages hr hreg e f).1
  have e2 : (r :: List.replicate rest.length r).map row = List.replicate (rest.length + 1) (row r) := by
    rw [List.replicate_succ, List.map_cons, List.map_replicate]
  rwa [show (⟨r.x, r.y, r.width, r.height⟩ : Rect) = r from rfl, e2] at this

/-- **C170 for an object that does not move** (false). If the region is over the left border of the image, the tracker says that the object has moved to the right, although it is found at its place: the template begins at the
border, but the result has the size of the region and begins there, too. -/
theorem C170_border_false (pictures : Str → Option Picture) (cols rows : Int) (first : Str) (rest : List Str) (r : Rect)
    (hi : ∀ i ∈ first :: rest, Readable pictures cols rows i) (ht : Touches r cols rows) (hx : r.x < 0) (hy : 0 ≤ r.y)
    (hs : ∀ i ∈ rest, ∀ p, pictures i = some p → Shows p 0 r.y (min (r.x + r.width) (cols - 1)) (min (r.y + r.height) (rows - 1) - r.y)) :
    ∃ t, (ncc pictures).init first r = some t ∧ Finds (ncc pictures) t rest (List.replicate rest.length ⟨0, r.y, r.width, r.height⟩) := by
  have ex : max r.x 0 = 0 := by omega
  have ey : max r.y 0 = r.y := by omega
  have := still hi ht (by rw [ex, ey, Int.sub_zero]; exact hs)
  rwa [ex, ey] at this

/-- **C170 for an image that is too small.** If the template does not fit into an image, the tracker gives the rectangle before once more. Missing from the full claim: a region over the left or the upper border in the first image
(`C170_small_false`). -/
theorem C170_small_partial (pictures : Str → Option Picture) (cols rows : Int) (first : Str) (rest : List Str) (r : Rect) (hi : ∀ i ∈ first :: rest, Readable pictures cols rows i) (ht : Touches r cols rows)
    (hx : 0 ≤ r.x) (hy : 0 ≤ r.y) (small : Str) (p : Picture) (hp : pictures small = some p)
    (hsmall : p.cols ≤ min (r.x + r.width) (cols - 1) - r.x ∨ p.rows ≤ min (r.y + r.height) (rows - 1) - r.y) :
    ∃ t found, (ncc pictures).init first r = some t ∧ Finds (ncc pictures) t (rest ++ [small]) (found ++ [(r :: found).getLast (by simp)]) := by
  obtain ⟨p0, hp0, h1, h2, h3⟩ := hi first (by simp)
  obtain ⟨s, e, a⟩ := init_at ht h1 h2
  have ex : max r.x 0 = r.x := by omega
  have ey : max r.y 0 = r.y := by omega
  rw [ex, ey] at a
  have hf := init_fits ht
  rw [ex, ey] at hf
  obtain ⟨found, s', q1, q2, q3, q4⟩ := walk rest (fun i h => hi i (by simp [h])) a hf
  refine ⟨s, found, ?_, q4 [small] _ (.cons (t' := s') ?_ .nil)⟩
  · show (pictures first).bind _ = _
    rw [hp0]; exact e
  · show (pictures small).bind _ = _
    rw [hp]
    show updateState p s' = _
    have size : ∀ (found : List Rect) (r0 : Rect), Path (min (r.x + r.width) (cols - 1) - r.x) (min (r.y + r.height) (rows - 1) - r.y) cols rows r0 found →
        ((r0 :: found).getLast (by simp)).width = r0.width ∧ ((r0 :: found).getLast (by simp)).height = r0.height := by
      intro found
      induction found with
      | nil => intro r0 _; exact ⟨rfl, rfl⟩
      | cons r1 found ih =>
        intro r0 h
        rw [List.getLast_cons (by simp)]
        obtain ⟨i1, i2⟩ := ih r1 h.2
        exact ⟨i1.trans h.1.size.1, i2.trans h.1.size.2⟩
    obtain ⟨w1, w2⟩ := size found r q1
    have pos : 0 ≤ ((r :: found).getLast (by simp)).x ∧ 0 ≤ ((r :: found).getLast (by simp)).y := by
      cases found with
      | nil => exact ⟨hx, hy⟩
      | cons _ _ => exact q3 (by simp)
    obtain ⟨a1, a2, _⟩ := ht
    rw [update_small q2 hsmall, half_back (by rw [w1]; omega) (.inl pos.1), half_back (by rw [w2]; omega) (.inl pos.2)]

/-- **C170 for an image that is too small** (false). If the region is over the left border of the first image and its width is odd, the tracker says that it has moved by one pixel: the half of the width is a whole number where it is subtracted,
but was not one where it was added. -/
theorem C170_small_false (pictures : Str → Option Picture) (cols rows : Int) (first : Str) (r : Rect) (hi : Readable pictures cols rows first) (ht : Touches r cols rows)
    (hx : r.x < 0) (hodd : r.width % 2 = 1) (hy : 0 ≤ r.y) (small : Str) (p : Picture) (hp : pictures small = some p) (hsmall : p.cols ≤ min (r.x + r.width) (cols - 1)) :
    ∃ t, (ncc pictures).init first r = some t ∧ Finds (ncc pictures) t [small] [⟨r.x + 1, r.y, r.width, r.height⟩] := by
  obtain ⟨p0, hp0, h1, h2, h3⟩ := hi
  obtain ⟨s, e, a⟩ := init_at ht h1 h2
  obtain ⟨a1, a2, _⟩ := ht
  refine ⟨s, ?_, .cons (t' := s) ?_ .nil⟩
  · show (pictures first).bind _ = _
    rw [hp0]; exact e
  · show (pictures small).bind _ = _
    rw [hp]
    show updateState p s = _
    rw [update_small a (by omega), half_off (by omega) hx hodd, half_back (by omega) (.inl hy)]

/-! ## A concrete case -/

namespace Demo

/-- An image in which a template is found at the given place, or as near to it as possible. -/
def shown (cols rows x y : Int) : Picture := ⟨cols, rows, fun part w h => (max 0 (min (x - part.x) (part.width - w)), max 0 (min (y - part.y) (part.height - h)))⟩

theorem shown_sound (cols rows x y : Int) : Sound (shown cols rows x y) := by
  intro part w h h1 h2 h3 h4
  unfold shown
  dsimp only
  omega

theorem shown_shows (cols rows x y w h : Int) : Shows (shown cols rows x y) x y w h := by
  intro part h1 h2 h3 h4
  unfold shown
  dsimp only
  congr 1 <;> omega

def album (name : Str) : Option Picture := if name = b!"small" then some (shown 5 5 0 0) else if name = b!"moved" then some (shown 100 80 17 21) else some (shown 100 80 10 20)

end Demo

example : (((ncc Demo.album).init b!"a" ⟨10, 20, 13, 8⟩).bind fun t => follow (ncc Demo.album) [b!"b", b!"moved", b!"small", b!"c"] t) =
    some [⟨10, 20, 13, 8⟩, ⟨17, 21, 13, 8⟩, ⟨17, 21, 13, 8⟩, ⟨11, 20, 13, 8⟩] := by decide +kernel

example : ∃ t found, (ncc Demo.album).init b!"a" ⟨10, 20, 13, 8⟩ = some t ∧ Finds (ncc Demo.album) t [b!"b", b!"moved"] found ∧ Path 13 8 100 80 ⟨10, 20, 13, 8⟩ found :=
  C170_search Demo.album 100 80 b!"a" [b!"b", b!"moved"] ⟨10, 20, 13, 8⟩
    (by
      intro i hi
      simp only [List.mem_cons, List.not_mem_nil, or_false] at hi
      rcases hi with rfl | rfl | rfl <;> exact ⟨_, rfl, rfl, rfl, Demo.shown_sound _ _ _ _⟩)
    (by unfold Touches; decide)

/-- A region over the left border. -/
example : (((ncc fun _ => some (Demo.shown 100 80 0 20)).init b!"a" ⟨-4, 20, 13, 8⟩).bind fun t => follow (ncc fun _ => some (Demo.shown 100 80 0 20)) [b!"b", b!"c"] t) =
    some [⟨0, 20, 13, 8⟩, ⟨0, 20, 13, 8⟩] := by decide +kernel

example : ∃ t, (ncc fun _ => some (Demo.shown 100 80 0 20)).init b!"a" ⟨-4, 20, 13, 8⟩ = some t ∧
    Finds (ncc fun _ => some (Demo.shown 100 80 0 20)) t [b!"b", b!"c"] [⟨0, 20, 13, 8⟩, ⟨0, 20, 13, 8⟩] :=
  C170_border_false (fun _ => some (Demo.shown 100 80 0 20)) 100 80 b!"a" [b!"b", b!"c"] ⟨-4, 20, 13, 8⟩ (fun _ _ => ⟨_, rfl, rfl, rfl, Demo.shown_sound _ _ _ _⟩) (by unfold Touches; decide) (by decide) (by decide)
    (by
      intro i _ p hp
      cases hp
      exact Demo.shown_shows 100 80 0 20 9 8)

/-- An image that is too small, and a region over the border with an odd width. -/
example : ∃ t, (ncc Demo.album).init b!"a" ⟨-2, 20, 13, 8⟩ = some t ∧ Finds (ncc Demo.album) t [b!"small"] [⟨-1, 20, 13, 8⟩] :=
  C170_small_false Demo.album 100 80 b!"a" ⟨-2, 20, 13, 8⟩ ⟨_, rfl, rfl, rfl, Demo.shown_sound _ _ _ _⟩ (by unfold Touches; decide) (by decide) (by decide) (by decide) b!"small" _ rfl (by decide)

example : ∃ t found, (ncc Demo.album).init b!"a" ⟨10, 20, 13, 8⟩ = some t ∧ Finds (ncc Demo.album) t ([b!"moved"] ++ [b!"small"]) (found ++ [((⟨10, 20, 13, 8⟩ : Rect) :: found).getLast (by simp)]) :=
  C170_small_partial Demo.album 100 80 b!"a" [b!"moved"] ⟨10, 20, 13, 8⟩
    (by
      intro i hi
      simp only [List.mem_cons, List.not_mem_nil, or_false] at hi
      rcases hi with rfl | rfl <;> exact ⟨_, rfl, rfl, rfl, Demo.shown_sound _ _ _ _⟩)
    (by unfold Touches; decide) (by decide) (by decide) b!"small" _ rfl (by decide)

/-- The whole program, with an object that does not move. -/
example : ∃ k, ∀ turns, k ≤ turns → main turns (fun name => if name = b!"images.txt" then some b!"a.jpg\nb.jpg\nc.jpg\n" else some b!"10,20,13,8\n") true (ncc Demo.album) =
    some (.written b!"10,20,13,8\n10,20,13,8\n10,20,13,8\n") :=
  C170_still_partial Demo.album _ 100 80 b!"a.jpg" [b!"b.jpg", b!"c.jpg"] ⟨10, 20, 13, 8⟩ []
    (by intro l hl; simp only [List.mem_cons, List.not_mem_nil, or_false] at hl; rcases hl with rfl | rfl | rfl <;> exact ⟨by decide, by decide⟩)
    rfl (by unfold Small InInt32; decide) rfl
    (by
      intro i hi
      simp only [List.mem_cons, List.not_mem_nil, or_false] at hi
      rcases hi with rfl | rfl | rfl <;> exact ⟨_, rfl, rfl, rfl, Demo.shown_sound _ _ _ _⟩)
    (by unfold Touches; decide) (by decide) (by decide)
    (by
      intro i hi p hp
      simp only [List.mem_cons, List.not_mem_nil, or_false] at hi
      rcases hi with rfl | rfl <;> cases hp <;> exact Demo.shown_shows 100 80 10 20 13 8)

end Trax.Ncc
