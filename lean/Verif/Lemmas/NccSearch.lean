import Verif.Spec.NccSearch
import Verif.Lemmas.Decimal

/-!
# The search of the tracker of the tutorial
-/

namespace Trax.Ncc
open Spec

theorem roundHalf_lower (n : Int) : n - 1 ≤ 2 * roundHalf n := by unfold roundHalf; split <;> omega

theorem roundHalf_upper (n : Int) : 2 * roundHalf n ≤ n + 1 := by unfold roundHalf; split <;> omega

/-- The state is that of a tracker that has found the rectangle `r` with a template of the given size, or was initialized with it. -/
structure At (r : Rect) (w h : Int) (s : State) : Prop where
  x2 : s.x2 = 2 * r.x + r.width
  y2 : s.y2 = 2 * r.y + r.height
  width : s.width = r.width
  height : s.height = r.height
  window : s.window = max r.width r.height * 2
  cols : s.templateCols = w
  rows : s.templateRows = h

/-- The template that belongs to `r` fits into the image. -/
structure Fits (r : Rect) (w h cols rows : Int) : Prop where
  pos : 0 < w ∧ 0 < h
  small : w ≤ r.width ∧ h ≤ r.height
  across : max r.x 0 + w ≤ min (r.x + r.width) (cols - 1)
  down : max r.y 0 + h ≤ min (r.y + r.height) (rows - 1)

theorem init_at {r : Rect} {cols rows : Int} (ht : Touches r cols rows) {p : Picture} (h1 : p.cols = cols) (h2 : p.rows = rows) :
    ∃ s, initState p r = some s ∧ At r (min (r.x + r.width) (cols - 1) - max r.x 0) (min (r.y + r.height) (rows - 1) - max r.y 0) s := by
  obtain ⟨x, y, w, h⟩ := r
  obtain ⟨a1, a2, a3, a4, a5, a6, a7, a8⟩ := ht
  dsimp only at *
  unfold initState cut
  rw [h1, h2]
  dsimp only
  rw [if_pos (by omega)]
  exact ⟨_, rfl, ⟨rfl, rfl, rfl, rfl, rfl, rfl, rfl⟩⟩

theorem init_fits {r : Rect} {cols rows : Int} (ht : Touches r cols rows) :
    Fits r (min (r.x + r.width) (cols - 1) - max r.x 0) (min (r.y + r.height) (rows - 1) - max r.y 0) cols rows := by
  obtain ⟨x, y, w, h⟩ := r
  obtain ⟨a1, a2, a3, a4, a5, a6, a7, a8⟩ := ht
  dsimp only at *
  refine ⟨⟨?_, ?_⟩, ⟨?_, ?_⟩, ?_, ?_⟩ <;> (try dsimp only) <;> omega

/-- The part that is searched has the template in it. -/
theorem searched_has {r : Rect} {w h cols rows : Int} {s : State} {p : Picture} (hs : At r w h s) (hf : Fits r w h cols rows) (h1 : p.cols = cols) (h2 : p.rows = rows) :
    (searched p s).x ≤ max r.x 0 ∧ max r.x 0 + w ≤ (searched p s).x + (searched p s).width ∧ (searched p s).y ≤ max r.y 0 ∧ max r.y 0 + h ≤ (searched p s).y + (searched p s).height ∧
    0 ≤ (searched p s).x ∧ (searched p s).x + (searched p s).width ≤ cols - 1 ∧ 0 ≤ (searched p s).y ∧ (searched p s).y + (searched p s).height ≤ rows - 1 ∧
    2 * r.x + r.width - 2 * max r.width r.height - 1 ≤ 2 * (searched p s).x ∧ 2 * ((searched p s).x + (searched p s).width) ≤ 2 * r.x + r.width + 2 * max r.width r.height + 1 ∧
    2 * r.y + r.height - 2 * max r.width r.height - 1 ≤ 2 * (searched p s).y ∧ 2 * ((searched p s).y + (searched p s).height) ≤ 2 * r.y + r.height + 2 * max r.width r.height + 1 := by
  obtain ⟨b1, b2, b3, b4, b5, b6, b7⟩ := hs
  obtain ⟨⟨c1, c2⟩, ⟨c3, c4⟩, c5, c6⟩ := hf
  unfold searched
  rw [b1, b2, b5, h1, h2]
  dsimp only
  have l1 := roundHalf_lower (2 * r.x + r.width - max r.width r.height * 2)
  have l2 := roundHalf_lower (2 * r.x + r.width + max r.width r.height * 2)
  have l3 := roundHalf_lower (2 * r.y + r.height - max r.width r.height * 2)
  have l4 := roundHalf_lower (2 * r.y + r.height + max r.width r.height * 2)
  have u1 := roundHalf_upper (2 * r.x + r.width - max r.width r.height * 2)
  have u2 := roundHalf_upper (2 * r.x + r.width + max r.width r.height * 2)
  have u3 := roundHalf_upper (2 * r.y + r.height - max r.width r.height * 2)
  have u4 := roundHalf_upper (2 * r.y + r.height + max r.width r.height * 2)
  generalize roundHalf (2 * r.x + r.width - max r.width r.height * 2) = q1 at *
  generalize roundHalf (2 * r.x + r.width + max r.width r.height * 2) = q2 at *
  generalize roundHalf (2 * r.y + r.height - max r.width r.height * 2) = q3 at *
  generalize roundHalf (2 * r.y + r.height + max r.width r.height * 2) = q4 at *
  have m1 : r.width ≤ max r.width r.height := by omega
  have m2 : r.height ≤ max r.width r.height := by omega
  generalize max r.width r.height = m at *
  refine ⟨?_, ?_, ?_, ?_, ?_, ?_, ?_, ?_, ?_, ?_, ?_, ?_⟩ <;> omega

theorem update_at {r : Rect} {w h cols rows : Int} {s : State} {p : Picture} (hs : At r w h s) (hf : Fits r w h cols rows) (h1 : p.cols = cols) (h2 : p.rows = rows) (hp : Sound p) :
    ∃ r' s', updateState p s = some (r', s') ∧ At r' w h s' ∧ Fits r' w h cols rows ∧ Next w h cols rows r r' ∧
      r'.x = (searched p s).x + (p.find (searched p s) w h).1 ∧ r'.y = (searched p s).y + (p.find (searched p s) w h).2 := by
  obtain ⟨d1, d2, d3, d4, d5, d6, d7, d8, d9, d10, d11, d12⟩ := searched_has hs hf h1 h2
  obtain ⟨⟨c1, c2⟩, ⟨c3, c4⟩, c5, c6⟩ := hf
  obtain ⟨f1, f2, f3, f4⟩ := hp (searched p s) w h c1 (by omega) c2 (by omega)
  obtain ⟨b1, b2, b3, b4, b5, b6, b7⟩ := hs
  unfold updateState
  rw [b6, b7]
  dsimp only
  rw [if_neg (by omega), if_neg (by omega)]
  refine ⟨_, _, rfl, ⟨?_, ?_, rfl, rfl, ?_, rfl, rfl⟩, ⟨⟨c1, c2⟩, ⟨?_, ?_⟩, ?_, ?_⟩, ⟨⟨b3, b4⟩, ⟨?_, ?_, ?_, ?_⟩, ⟨?_, ?_⟩, ?_, ?_⟩, rfl, rfl⟩ <;> dsimp only
  all_goals first
    | rw [b5, b3, b4]
    | ((first | rw [b3] | rw [b4] | skip); omega)

/-- The tracker over images of the same size. -/
theorem walk {pictures : Str → Option Picture} {w h cols rows : Int} : ∀ (rest : List Str) (_ : ∀ i ∈ rest, Readable pictures cols rows i) {r : Rect} {s : State}, At r w h s → Fits r w h cols rows →
    ∃ found s', Path w h cols rows r found ∧ At ((r :: found).getLast (by simp)) w h s' ∧ (found ≠ [] → 0 ≤ ((r :: found).getLast (by simp)).x ∧ 0 ≤ ((r :: found).getLast (by simp)).y) ∧
      ∀ tail rs, Finds (ncc pictures) s' tail rs → Finds (ncc pictures) s (rest ++ tail) (found ++ rs) := by
  intro rest
  induction rest with
  | nil => intro _ r s hs _; exact ⟨[], s, trivial, hs, fun h => absurd rfl h, fun _ _ h => h⟩
  | cons i rest ih =>
    intro hr r s hs hf
    obtain ⟨p, hp, h1, h2, h3⟩ := hr i (by simp)
    obtain ⟨r', s1, e, a, f, n, _⟩ := update_at hs hf h1 h2 h3
    obtain ⟨found, s', q1, q2, q3, q4⟩ := ih (fun i hi => hr i (by simp [hi])) a f
    refine ⟨r' :: found, s', ⟨n, q1⟩, ?_, ?_, ?_⟩
    · rw [List.getLast_cons (by simp)]; exact q2
    · intro _
      rw [List.getLast_cons (by simp)]
      cases found with
      | nil => exact ⟨n.inside.1, n.inside.2.2.1⟩
      | cons _ _ => exact q3 (by simp)
    · intro tail rs hrs
      refine .cons (t' := s1) ?_ (q4 tail rs hrs)
      show (pictures i).bind _ = _
      rw [hp]
      exact e

/-- The tracker over images in which the template stays at its place. -/
theorem stay {pictures : Str → Option Picture} {w h cols rows : Int} {r : Rect} : ∀ (rest : List Str) (_ : ∀ i ∈ rest, Readable pictures cols rows i)
    (_ : ∀ i ∈ rest, ∀ p, pictures i = some p → Shows p (max r.x 0) (max r.y 0) w h) {r0 : Rect} {s : State}, At r0 w h s → Fits r0 w h cols rows → max r0.x 0 = max r.x 0 → max r0.y 0 = max r.y 0 →
    r0.width = r.width → r0.height = r.height → Finds (ncc pictures) s rest (List.replicate rest.length ⟨max r.x 0, max r.y 0, r.width, r.height⟩) := by
  intro rest
  induction rest with
  | nil => intros; exact .nil
  | cons i rest ih =>
    intro hr hsh r0 s hs hf hx hy hw hh
    obtain ⟨p, hp, h1, h2, h3⟩ := hr i (by simp)
    obtain ⟨d1, d2, d3, d4, _⟩ := searched_has hs hf h1 h2
    obtain ⟨r', s1, e, a, f, n, g1, g2⟩ := update_at hs hf h1 h2 h3
    have := hsh i (by simp) p hp (searched p s) (by omega) (by omega) (by omega) (by omega)
    rw [this] at g1 g2
    dsimp only at g1 g2
    have er : r' = ⟨max r.x 0, max r.y 0, r.width, r.height⟩ := by
      obtain ⟨x', y', w', h'⟩ := r'
      obtain ⟨n1, n2⟩ := n.size
      dsimp only at g1 g2 n1 n2
      rw [n1, n2, hw, hh, g1, g2]
      congr 1 <;> omega
    subst er
    refine .cons (t' := s1) ?_ (ih (fun i hi => hr i (by simp [hi])) (fun i hi => hsh i (by simp [hi])) a f (by dsimp only; omega) (by dsimp only; omega) rfl rfl)
    show (pictures i).bind _ = _
    rw [hp]
    exact e

/-- An image that is too small for the search. -/
theorem update_small {r : Rect} {w h : Int} {s : State} {p : Picture} (hs : At r w h s) (hp : p.cols ≤ w ∨ p.rows ≤ h) :
    updateState p s = some (⟨(2 * r.x + r.width - 2 * r.width.tdiv 2).tdiv 2, (2 * r.y + r.height - 2 * r.height.tdiv 2).tdiv 2, r.width, r.height⟩, s) := by
  obtain ⟨b1, b2, b3, b4, b5, b6, b7⟩ := hs
  unfold updateState
  dsimp only
  rw [if_pos (by
    rw [b6, b7]
    unfold searched
    dsimp only
    omega), b1, b2, b3, b4]

theorem half_back {x w : Int} (hw : 0 ≤ w) (h : 0 ≤ x ∨ w % 2 = 0) : (2 * x + w - 2 * w.tdiv 2).tdiv 2 = x := by
  rw [Int.tdiv_eq_ediv_of_nonneg hw]
  rcases h with h | h
  · rw [Int.tdiv_eq_ediv_of_nonneg (by omega)]; omega
  · rw [show 2 * x + w - 2 * (w / 2) = 2 * x by omega, Int.mul_tdiv_cancel_left _ (by decide)]

theorem half_off {x w : Int} (hw : 0 ≤ w) (h : x < 0) (ho : w % 2 = 1) : (2 * x + w - 2 * w.tdiv 2).tdiv 2 = x + 1 := by
  rw [Int.tdiv_eq_ediv_of_nonneg hw, show 2 * x + w - 2 * (w / 2) = -(-2 * x - 1) by omega, Int.neg_tdiv, Int.tdiv_eq_ediv_of_nonneg (by omega)]
  omega

end Trax.Ncc
