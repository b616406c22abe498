import Verif.Spec.NccMatlab
import Verif.Lemmas.NccSearch

/-!
# The search of the tracker of the tutorial for MATLAB
-/

namespace Trax.NccMatlab
open Trax.NccMatlab.Spec

/-- The state of a tracker whose template, of the size `w`, `h`, was found at `x`, `y`. -/
structure At (x y w h : Int) (s : State) : Prop where
  x2 : s.x2 = 2 * x + w
  y2 : s.y2 = 2 * y + h
  width : s.width = w
  height : s.height = h
  window : s.window = max w h * 2
  templateWidth : s.templateWidth = w
  templateHeight : s.templateHeight = h

theorem start_at {p : Picture} {x y w h : Int} (hi : Inside x y w h p.width p.height) (hw : 0 < w) (hh : 0 < h) : At x y w h (start p ⟨x, y, w, h⟩) := by
  obtain ⟨a1, a2, a3, a4⟩ := hi
  have e1 : max 1 x = x := by omega
  have e2 : max 1 y = y := by omega
  have e3 : min (p.width - 2) (x + w - 1) = x + w - 1 := by omega
  have e4 : min (p.height - 2) (y + h - 1) = y + h - 1 := by omega
  have e5 : x + w - 1 - x + 1 = w := by omega
  have e6 : y + h - 1 - y + 1 = h := by omega
  unfold start
  dsimp only
  rw [e1, e2, e3, e4, e5, e6]
  exact ⟨by dsimp only; omega, by dsimp only; omega, rfl, rfl, rfl, by dsimp only; omega, by dsimp only; omega⟩

theorem location_at {x y w h : Int} {s : State} (hs : At x y w h s) : location s = ⟨x, y, w, h⟩ := by
  obtain ⟨b1, b2, b3, b4, _⟩ := hs
  unfold location
  rw [b1, b2, b3, b4]
  congr 1 <;> omega

/-- The corner of the part that is searched, and the number of places, for one direction. -/
theorem places {x w reach width : Int} (h1 : 1 ≤ x) (h2 : x + w ≤ width - 1) (hw : 0 < w) (hr : w ≤ reach) (h3 : 2 ≤ reach) (h4 : w < width - 2) :
    let a := max 1 (Ncc.roundHalf (2 * x + w - reach * 2))
    let b := min (width - 2) (Ncc.roundHalf (2 * x + w + reach * 2))
    a ≤ x ∧ max (b - a + 1) 0 = b - a + 1 ∧ w + 1 ≤ b - a + 1 ∧ 1 ≤ a ∧ b ≤ width - 2 ∧ (x + w ≤ width - 2 → x + w ≤ b) ∧ 2 * x + w - 2 * reach - 1 ≤ 2 * a ∧ 2 * b ≤ 2 * x + w + 2 * reach + 1 := by
  dsimp only
  have l1 := Ncc.roundHalf_lower (2 * x + w - reach * 2)
  have l2 := Ncc.roundHalf_lower (2 * x + w + reach * 2)
  have u1 := Ncc.roundHalf_upper (2 * x + w - reach * 2)
  have u2 := Ncc.roundHalf_upper (2 * x + w + reach * 2)
  generalize Ncc.roundHalf (2 * x + w - reach * 2) = q1 at *
  generalize Ncc.roundHalf (2 * x + w + reach * 2) = q2 at *
  refine ⟨?_, ?_, ?_, ?_, ?_, ?_, ?_, ?_⟩ <;> omega

/-- One update. -/
theorem update_at {p : Picture} {x y w h : Int} {s : State} (hs : At x y w h s) (hi : Inside x y w h p.width p.height) (hw : 0 < w) (hh : 0 < h) (hm : 2 ≤ max w h) (hw' : w < p.width - 2) (hh' : h < p.height - 2) (hp : Sound p) :
    ∃ x' y' s', update p s = some (⟨x', y', w, h⟩, s') ∧ At x' y' w h s' ∧ Next w h p.width p.height x y x' y' ∧ x' + w ≤ p.width - 2 ∧ y' + h ≤ p.height - 2 ∧
      ∀ px py, Shows p px py → px = x → py = y → x + w ≤ p.width - 2 → y + h ≤ p.height - 2 → x' = x ∧ y' = y := by
  obtain ⟨i1, i2, i3, i4⟩ := hi
  have m1 : w ≤ max w h := by omega
  have m2 : h ≤ max w h := by omega
  have p1 := places i1 i2 hw m1 hm hw'
  have p2 := places i3 i4 hh m2 hm hh'
  obtain ⟨b1, b2, b3, b4, b5, b6, b7⟩ := hs
  unfold update
  rw [b1, b2, b3, b4, b5, b6, b7]
  dsimp only at p1 p2 ⊢
  generalize max 1 (Ncc.roundHalf (2 * x + w - max w h * 2)) = x1 at *
  generalize max 1 (Ncc.roundHalf (2 * y + h - max w h * 2)) = y1 at *
  generalize min (p.width - 2) (Ncc.roundHalf (2 * x + w + max w h * 2)) = x2 at *
  generalize min (p.height - 2) (Ncc.roundHalf (2 * y + h + max w h * 2)) = y2 at *
  obtain ⟨c1, c2, c3, c4, c5, c6, c7, c8⟩ := p1
  obtain ⟨d1, d2, d3, d4, d5, d6, d7, d8⟩ := p2
  rw [c2, d2, if_neg (by omega), if_neg (by omega), if_neg (by omega)]
  obtain ⟨f1, f2, f3, f4⟩ := hp x1 y1 (x2 - x1 + 1 - (w - 1) - 1) (y2 - y1 + 1 - (h - 1) - 1) (by omega) (by omega)
  have hfind : ∀ px py, Shows p px py → px = x → py = y → x + w ≤ p.width - 2 → y + h ≤ p.height - 2 →
      p.find x1 y1 (x2 - x1 + 1 - (w - 1) - 1) (y2 - y1 + 1 - (h - 1) - 1) = (x - x1 + 1, y - y1 + 1) := by
    rintro px py hshow rfl rfl q1 q2
    have := c6 q1
    have := d6 q2
    exact hshow _ _ _ _ (by omega) (by omega) (by omega) (by omega)
  generalize p.find x1 y1 (x2 - x1 + 1 - (w - 1) - 1) (y2 - y1 + 1 - (h - 1) - 1) = m at *
  obtain ⟨mx, my⟩ := m
  dsimp only at f1 f2 f3 f4 ⊢
  have a : At (x1 + mx - 1) (y1 + my - 1) w h { s with x2 := 2 * (x1 + (w - 1) + mx) - w, y2 := 2 * (y1 + (h - 1) + my) - h, width := w, height := h, window := max w h * 2, templateWidth := w, templateHeight := h } :=
    ⟨by dsimp only; omega, by dsimp only; omega, rfl, rfl, rfl, rfl, rfl⟩
  refine ⟨x1 + mx - 1, y1 + my - 1, _, ?_, a, ⟨⟨?_, ?_, ?_, ?_⟩, ⟨?_, ?_⟩, ?_, ?_⟩, ?_, ?_, ?_⟩
  · rw [location_at a]
  · omega
  · omega
  · omega
  · omega
  · omega
  · omega
  · omega
  · omega
  · omega
  · omega
  · intro px py hshow e1 e2 q1 q2
    have := hfind px py hshow e1 e2 q1 q2
    cases this
    constructor <;> omega

theorem follow_path {pictures : Str → Option Picture} {w h width height : Int} (hw : 0 < w) (hh : 0 < h) (hm : 2 ≤ max w h) (hw' : w < width - 2) (hh' : h < height - 2) :
    ∀ (rest : List Str) (_ : ∀ i ∈ rest, Readable pictures width height i) {x y : Int} {s : State}, At x y w h s → Inside x y w h width height →
      ∃ rows, follow pictures rest s = some rows ∧ rows.length = rest.length ∧ Path w h width height x y rows := by
  intro rest
  induction rest with
  | nil => intro _ x y s _ _; exact ⟨[], rfl, rfl, .nil⟩
  | cons i rest ih =>
    intro hr x y s hs hi
    obtain ⟨p, hp, rfl, rfl, h3⟩ := hr i (by simp)
    obtain ⟨x', y', s', e, a, n, _⟩ := update_at hs hi hw hh hm hw' hh' h3
    obtain ⟨rows, q1, q2, q3⟩ := ih (fun i hi => hr i (by simp [hi])) a n.inside
    refine ⟨[x', y', w, h] :: rows, ?_, by simp [q2], .cons n q3⟩
    rw [follow, hp]
    show (update p s).bind _ = _
    rw [e]
    show (follow pictures rest s').map _ = _
    rw [q1]
    rfl

theorem follow_still {pictures : Str → Option Picture} {x y w h width height : Int} (hw : 0 < w) (hh : 0 < h) (hm : 2 ≤ max w h) (h1 : 1 ≤ x) (h2 : x + w ≤ width - 2) (h3 : 1 ≤ y) (h4 : y + h ≤ height - 2) :
    ∀ (rest : List Str) (_ : ∀ i ∈ rest, Readable pictures width height i) (_ : ∀ i ∈ rest, ∀ p, pictures i = some p → Shows p x y) {s : State}, At x y w h s →
      follow pictures rest s = some (List.replicate rest.length [x, y, w, h]) := by
  intro rest
  induction rest with
  | nil => intro _ _ s _; rfl
  | cons i rest ih =>
    intro hr hsh s hs
    obtain ⟨p, hp, rfl, rfl, q⟩ := hr i (by simp)
    obtain ⟨x', y', s', e, a, _, _, _, g⟩ := update_at hs ⟨h1, by omega, h3, by omega⟩ hw hh hm (by omega) (by omega) q
    obtain ⟨rfl, rfl⟩ := g x y (hsh i (by simp) p hp) rfl rfl h2 h4
    rw [follow, hp]
    show (update p s).bind _ = _
    rw [e]
    show (follow pictures rest s').map _ = _
    rw [ih (fun i hi => hr i (by simp [hi])) (fun i hi => hsh i (by simp [hi])) a]
    rfl

end Trax.NccMatlab
