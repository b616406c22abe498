import Verif.Lemmas.Jaccard
import Verif.Lemmas.Bounds
import Verif.Props.PolygonRaster
import Verif.Props.Geometry
import Mathlib.Data.Int.Interval

/-!
# Property theorems C48, C49: overlap of regions
-/

namespace Trax
open Spec Region

/-! ## C48: a symmetric ratio -/

theorem clipped_noNan {legacy : Bool} {r : Region} {bounds b : Bounds} (hb : bounds.NoNan) (h : clipped legacy r bounds = .ok b) : b.NoNan := by
  unfold clipped at h
  obtain ⟨c, _, h2⟩ := Outcome.map_eq_ok h
  rw [← h2]
  split <;> exact Bounds.inter_noNan _ hb

theorem countP_swap (m1 m2 : List UInt8) :
    (m2.zip m1).countP (fun p => p.1 ≠ 0 ∧ p.2 ≠ 0) = (m1.zip m2).countP (fun p => p.1 ≠ 0 ∧ p.2 ≠ 0) ∧
    (m2.zip m1).countP (fun p => p.1 ≠ 0 ∧ p.2 = 0) = (m1.zip m2).countP (fun p => p.1 = 0 ∧ p.2 ≠ 0) ∧
    (m2.zip m1).countP (fun p => p.1 = 0 ∧ p.2 ≠ 0) = (m1.zip m2).countP (fun p => p.1 ≠ 0 ∧ p.2 = 0) := by
  have hz : m2.zip m1 = (m1.zip m2).map Prod.swap := (List.zip_swap m1 m2).symm
  refine ⟨?_, ?_, ?_⟩ <;>
  · rw [hz, List.countP_map]
    refine List.countP_congr fun p _ => ?_
    simp [and_comm]

/-- **C48 (symmetry).** In both modes, for all regions and all bounds without a NaN: when the overlap is
computed, swapping the regions gives the same overlap and swaps the exclusive parts. -/
theorem C48_symmetric (legacy : Bool) (fresh : Nat → List UInt8) (ra rb : Region) (bounds : Bounds) (o : Overlap)
    (hb : bounds.top ≠ .nan ∧ bounds.bottom ≠ .nan ∧ bounds.left ≠ .nan ∧ bounds.right ≠ .nan)
    (h : computeOverlap legacy fresh ra rb bounds = .ok o) :
    computeOverlap legacy fresh rb ra bounds = .ok ⟨o.overlap, o.only2, o.only1⟩ := by
  unfold computeOverlap at h ⊢
  obtain ⟨b1, c1, h⟩ := Outcome.bind_eq_ok h
  obtain ⟨b2, c2, h⟩ := Outcome.bind_eq_ok h
  obtain ⟨x, cx, h⟩ := Outcome.bind_eq_ok h
  obtain ⟨y, cy, h⟩ := Outcome.bind_eq_ok h
  obtain ⟨w, cw, h⟩ := Outcome.bind_eq_ok h
  obtain ⟨ht, ch, h⟩ := Outcome.bind_eq_ok h
  have n1 := clipped_noNan hb c1
  have n2 := clipped_noNan hb c2
  rw [c2, Outcome.bind_ok, c1, Outcome.bind_ok, Flt.toInt_same (Flt.minF_comm n2.2.2.1 n1.2.2.1), cx, Outcome.bind_ok,
    Flt.toInt_same (Flt.minF_comm n2.1 n1.1), cy, Outcome.bind_ok,
    Flt.toInt_same (Flt.subF_same (Flt.maxF_comm n2.2.2.2 n1.2.2.2) (.refl (Flt.ofInt x))), cw, Outcome.bind_ok,
    Flt.toInt_same (Flt.subF_same (Flt.maxF_comm n2.2.1 n1.2.1) (.refl (Flt.ofInt y))), ch, Outcome.bind_ok]
  simp only at h ⊢
  rw [Bool.or_comm ((b2.area.widen.divD b1.area.widen).lt tiny)]
  split at h
  · rename_i hc
    rw [if_pos hc]
    simp only [Outcome.ok.injEq] at h ⊢
    rw [← h]
  · rename_i hc
    rw [if_neg hc, Flt.feq_same (Bounds.overlap_comm n2 n1) (.refl _)]
    split at h
    · rename_i hc2
      rw [if_pos hc2]
      unfold disjointOverlap at h ⊢
      simp only at h ⊢
      obtain ⟨x1, e1, h⟩ := Outcome.bind_eq_ok h
      obtain ⟨y1, e2, h⟩ := Outcome.bind_eq_ok h
      obtain ⟨w1, e3, h⟩ := Outcome.bind_eq_ok h
      obtain ⟨h1, e4, h⟩ := Outcome.bind_eq_ok h
      obtain ⟨_, e5, h⟩ := Outcome.bind_eq_ok h
      obtain ⟨x2, f1, h⟩ := Outcome.bind_eq_ok h
      obtain ⟨y2, f2, h⟩ := Outcome.bind_eq_ok h
      obtain ⟨w2, f3, h⟩ := Outcome.bind_eq_ok h
      obtain ⟨h2, f4, h⟩ := Outcome.bind_eq_ok h
      obtain ⟨_, f5, h⟩ := Outcome.bind_eq_ok h
      obtain ⟨m1, g1, h⟩ := Outcome.bind_eq_ok h
      obtain ⟨m2, g2, h⟩ := Outcome.bind_eq_ok h
      obtain ⟨v1, g3, h⟩ := Outcome.bind_eq_ok h
      obtain ⟨v2, g4, h⟩ := Outcome.bind_eq_ok h
      obtain ⟨_, g5, h⟩ := Outcome.bind_eq_ok h
      rw [add_comm] at g5
      rw [f1, Outcome.bind_ok, f2, Outcome.bind_ok, f3, Outcome.bind_ok, f4, Outcome.bind_ok, f5, Outcome.bind_ok,
        e1, Outcome.bind_ok, e2, Outcome.bind_ok, e3, Outcome.bind_ok, e4, Outcome.bind_ok, e5, Outcome.bind_ok,
        g2, Outcome.bind_ok, g1, Outcome.bind_ok, g4, Outcome.bind_ok, g3, Outcome.bind_ok, g5, Outcome.bind_ok]
      simp only [Outcome.ok.injEq] at h ⊢
      rw [← h, Nat.add_comm v2 v1]
    · rename_i hc2
      rw [if_neg hc2]
      unfold commonOverlap at h ⊢
      obtain ⟨_, e1, h⟩ := Outcome.bind_eq_ok h
      obtain ⟨m1, e2, h⟩ := Outcome.bind_eq_ok h
      obtain ⟨m2, e3, h⟩ := Outcome.bind_eq_ok h
      rw [e1, Outcome.bind_ok, e3, Outcome.bind_ok, e2, Outcome.bind_ok]
      simp only [Outcome.ok.injEq] at h ⊢
      rw [← h]
      obtain ⟨k1, k2, k3⟩ := countP_swap m1 m2
      rw [k1, k2, k3, Nat.add_comm ((m1.zip m2).countP (fun p => p.1 = 0 ∧ p.2 ≠ 0))]

example : computeOverlap false (fun n => List.replicate n 7) (.rectangle (.ofInt 0) (.ofInt 0) (.ofInt 4) (.ofInt 2)) (.mask 2 0 3 2 [1, 1, 1, 0, 1, 0]) Bounds.none =
    .ok ⟨ratio 3 9, ratio 5 9, ratio 1 9⟩ := by decide +kernel

/-- **C48 is violated (range)**: when both regions have no pixel inside the bounds the ratios are NaN. -/
theorem C48_range_false :
    computeOverlap false (fun n => List.replicate n 7) (.mask 0 0 4 4 [1, 0, 0, 0, 0, 0, 0, 0, 0, 0, 0, 0, 0, 0, 0, 1])
      (.mask 0 0 4 4 [1, 0, 0, 0, 0, 0, 0, 0, 0, 0, 0, 0, 0, 0, 0, 1]) ⟨.ofInt 1, .ofInt 2, .ofInt 1, .ofInt 2⟩ =
      .ok ⟨.nan, .nan, .nan⟩ := by decide +kernel

/-- The shape of a result: three fractions of one total number of pixels. -/
def Spec.Fractions (o : Overlap) : Prop :=
  ∃ I A B : Nat, 0 < I + A + B ∧ I + A + B < 2 ^ 31 ∧
    (I + A + B ≤ 2 ^ 24 → Nearest ((I : ℚ) / (I + A + B : Nat)) o.overlap ∧ Nearest ((A : ℚ) / (I + A + B : Nat)) o.only1 ∧
      Nearest ((B : ℚ) / (I + A + B : Nat)) o.only2)

theorem zero_nearest : Nearest 0 Flt.zero := by
  refine ⟨by decide, trivial, fun z _ _ => ?_⟩
  rw [Flt.zero_is.value]
  simp

theorem fractions_of (I A B : Nat) (o : Overlap) (h0 : 0 < I + A + B) (hb : I + A + B < 2 ^ 31)
    (h1 : o.overlap = ratio I (I + A + B) ∨ (I = 0 ∧ o.overlap = .zero)) (h2 : o.only1 = ratio A (I + A + B)) (h3 : o.only2 = ratio B (I + A + B)) :
    (∀ v ∈ [o.overlap, o.only1, o.only2], v.IsFinite ∧ 0 ≤ v.value ∧ v.value ≤ 1) ∧ Fractions o := by
  constructor
  · intro v hv
    simp only [List.mem_cons, List.not_mem_nil, or_false] at hv
    rcases hv with rfl | rfl | rfl
    · rcases h1 with h1 | ⟨_, h1⟩
      · rw [h1]; exact ratio_range I _ h0 (by omega) (by omega)
      · rw [h1]; exact ⟨trivial, by rw [Flt.zero_is.value]; norm_num, by rw [Flt.zero_is.value]; norm_num⟩
    · rw [h2]; exact ratio_range A _ h0 (by omega) (by omega)
    · rw [h3]; exact ratio_range B _ h0 (by omega) (by omega)
  · refine ⟨I, A, B, h0, hb, fun hs => ⟨?_, ?_, ?_⟩⟩
    · rcases h1 with h1 | ⟨hI, h1⟩
      · rw [h1]; exact ratio_nearest I _ h0 (by omega) hs
      · rw [h1, hI]; simpa using zero_nearest
    · rw [h2]; exact ratio_nearest A _ h0 (by omega) hs
    · rw [h3]; exact ratio_nearest B _ h0 (by omega) hs

theorem countP_three (l : List (UInt8 × UInt8)) :
    l.countP (fun p => p.1 ≠ 0 ∧ p.2 ≠ 0) + l.countP (fun p => p.1 ≠ 0 ∧ p.2 = 0) + l.countP (fun p => p.1 = 0 ∧ p.2 ≠ 0) ≤ l.length := by
  induction l with
  | nil => simp
  | cons a l ih =>
    simp only [List.countP_cons, List.length_cons]
    by_cases h1 : a.1 = 0 <;> by_cases h2 : a.2 = 0 <;> simp [h1, h2] at ih ⊢ <;> omega

/-- **C48, what holds (range).** When the overlap is computed, it is either the result without overlap
(three zeros), or the two regions have no pixels in the bounds (the exclusive parts are NaN), or all
three numbers lie in [0, 1] and are the fractions `I/U`, `A/U`, `B/U` of a total `U = I + A + B`, each rounded
to the nearest `float` (for up to 2^24 pixels), so that they add to 1 up to rounding. Missing: the case
without pixels. -/
theorem C48_range_partial (legacy : Bool) (fresh : Nat → List UInt8) (hfresh : ∀ n, (fresh n).length = n) (ra rb : Region) (bounds : Bounds)
    (o : Overlap) (h : computeOverlap legacy fresh ra rb bounds = .ok o) :
    o = ⟨.zero, .zero, .zero⟩ ∨ (o.only1 = .nan ∧ o.only2 = .nan ∧ (o.overlap = .nan ∨ o.overlap = .zero)) ∨
      ((∀ v ∈ [o.overlap, o.only1, o.only2], v.IsFinite ∧ 0 ≤ v.value ∧ v.value ≤ 1) ∧ Fractions o) := by
  have h31 : (2 : Nat) ^ 31 = 2147483648 := by norm_num
  have hnan : ratio 0 0 = .nan := by decide
  unfold computeOverlap at h
  obtain ⟨b1, c1, h⟩ := Outcome.bind_eq_ok h
  obtain ⟨b2, c2, h⟩ := Outcome.bind_eq_ok h
  obtain ⟨x, cx, h⟩ := Outcome.bind_eq_ok h
  obtain ⟨y, cy, h⟩ := Outcome.bind_eq_ok h
  obtain ⟨w, cw, h⟩ := Outcome.bind_eq_ok h
  obtain ⟨ht, ch, h⟩ := Outcome.bind_eq_ok h
  simp only at h
  split at h
  · simp only [Outcome.ok.injEq] at h
    exact .inl h.symm
  · split at h
    · unfold disjointOverlap at h
      simp only at h
      obtain ⟨x1, e1, h⟩ := Outcome.bind_eq_ok h
      obtain ⟨y1, e2, h⟩ := Outcome.bind_eq_ok h
      obtain ⟨w1, e3, h⟩ := Outcome.bind_eq_ok h
      obtain ⟨h1, e4, h⟩ := Outcome.bind_eq_ok h
      obtain ⟨_, e5, h⟩ := Outcome.bind_eq_ok h
      obtain ⟨x2, f1, h⟩ := Outcome.bind_eq_ok h
      obtain ⟨y2, f2, h⟩ := Outcome.bind_eq_ok h
      obtain ⟨w2, f3, h⟩ := Outcome.bind_eq_ok h
      obtain ⟨h2, f4, h⟩ := Outcome.bind_eq_ok h
      obtain ⟨_, f5, h⟩ := Outcome.bind_eq_ok h
      obtain ⟨m1, g1, h⟩ := Outcome.bind_eq_ok h
      obtain ⟨m2, g2, h⟩ := Outcome.bind_eq_ok h
      obtain ⟨v1, g3, h⟩ := Outcome.bind_eq_ok h
      obtain ⟨v2, g4, h⟩ := Outcome.bind_eq_ok h
      obtain ⟨_, g5, h⟩ := Outcome.bind_eq_ok h
      simp only [Outcome.ok.injEq] at h
      have hlt : v1 + v2 < 2 ^ 31 := by
        unfold chk32 at g5
        by_contra hc
        rw [if_neg (by unfold InInt32; omega)] at g5
        cases g5
      by_cases h0 : v1 + v2 = 0
      · have hv1 : v1 = 0 := by omega
        have hv2 : v2 = 0 := by omega
        subst hv1 hv2
        right; left
        rw [← h]
        exact ⟨hnan, hnan, .inr rfl⟩
      · right; right
        refine fractions_of 0 v1 v2 o (by omega) (by omega) (.inr ⟨rfl, by rw [← h]⟩) ?_ ?_
        · rw [← h, Nat.zero_add]
        · rw [← h, Nat.zero_add]
    · unfold commonOverlap at h
      obtain ⟨_, e1, h⟩ := Outcome.bind_eq_ok h
      obtain ⟨m1, e2, h⟩ := Outcome.bind_eq_ok h
      obtain ⟨m2, e3, h⟩ := Outcome.bind_eq_ok h
      simp only [Outcome.ok.injEq] at h
      have hl : m1.length = (w * ht).toNat := (getMaskOffset_length e2).trans (hfresh _)
      have ha := getMaskOffset_area e2
      have hle := countP_three (m1.zip m2)
      have hzl : (m1.zip m2).length ≤ m1.length := by rw [List.length_zip]; omega
      unfold InInt32 at ha
      generalize (m1.zip m2).countP (fun p => p.1 ≠ 0 ∧ p.2 ≠ 0) = I at *
      generalize (m1.zip m2).countP (fun p => p.1 ≠ 0 ∧ p.2 = 0) = A at *
      generalize (m1.zip m2).countP (fun p => p.1 = 0 ∧ p.2 ≠ 0) = B at *
      have hlt : I + A + B < 2 ^ 31 := by omega
      have hr : A + B + I = I + A + B := by omega
      rw [hr] at h
      by_cases h0 : I + A + B = 0
      · right; left
        have : I = 0 ∧ A = 0 ∧ B = 0 := by omega
        obtain ⟨rfl, rfl, rfl⟩ := this
        rw [← h]
        exact ⟨hnan, hnan, .inl hnan⟩
      · right; right
        exact fractions_of I A B o (by omega) hlt (.inl (by rw [← h])) (by rw [← h]) (by rw [← h])

/-! ## C49: the Jaccard index of the pixels -/

namespace Spec

/-- The image positions that a mask, a rectangle or a convex polygon covers. -/
def Pixels : Region → Set (Int × Int)
  | .mask x y w h data => {p | ∃ c r : Nat, (c : Int) < w ∧ (r : Int) < h ∧ p = (x + c, y + r) ∧ data.getD (c + r * w.toNat) 0 ≠ 0}
  | .rectangle x y w h => {p | (x.value ≤ p.1 ∧ (p.1 : ℚ) < x.value + w.value) ∧ (y.value ≤ p.2 ∧ (p.2 : ℚ) < y.value + h.value)}
  | .polygon ps => {p | ∃ cs, Corners ps cs ∧ MeetsPixel cs p.1 p.2}
  | _ => ∅

/-- `l t r b` are the sides of the bounding box of the positions in `S`. -/
def Box (S : Set (Int × Int)) (l t r b : Int) : Prop :=
  (∀ p ∈ S, (l ≤ p.1 ∧ p.1 ≤ r) ∧ (t ≤ p.2 ∧ p.2 ≤ b)) ∧ (∃ p ∈ S, p.1 = l) ∧ (∃ p ∈ S, p.1 = r) ∧ (∃ p ∈ S, p.2 = t) ∧ (∃ p ∈ S, p.2 = b)

/-- A well-formed mask, a rectangle with integer position and positive integer size, or a convex polygon with integer corners
none of whose slanted sides meets a row in an integer between its ends, not further than 2^22 from the origin. -/
def Simple : Region → Prop
  | .mask x y w h data => 0 ≤ w ∧ 0 ≤ h ∧ (data.length : Int) = w * h ∧ w * h < 2 ^ 31 ∧ |x| + w ≤ 2 ^ 22 ∧ |y| + h ≤ 2 ^ 22
  | .rectangle x y w h => (∀ c ∈ [x, y, w, h], c.IsFinite) ∧ ∃ a b c d : Int, x.value = a ∧ y.value = b ∧ w.value = c ∧ h.value = d ∧
      0 < c ∧ 0 < d ∧ |a| + c ≤ 2 ^ 22 ∧ |b| + d ≤ 2 ^ 22
  | .polygon ps => ∃ cs, Corners ps cs ∧ Convex cs ∧ (∀ y, OffGrid cs y) ∧ ∀ c ∈ cs, |c.1| ≤ 2 ^ 22 ∧ |c.2| ≤ 2 ^ 22
  | _ => False

end Spec

/-- What is drawn of a region in any window is its pixels. -/
def Drawn (R : Region) : Prop :=
  ∀ (buf : List UInt8) (wx wy : Int) (w h : Nat), |wx| ≤ 2 ^ 22 → |wy| ≤ 2 ^ 22 → w ≤ 2 ^ 24 → h ≤ 2 ^ 24 →
    buf.length = w * h → w * h ≤ 2 ^ 24 → ∃ out, getMaskOffset false R buf wx wy w h = .ok out ∧ out.length = w * h ∧
    ∀ i j : Nat, i < h → j < w → (out.getD (j + i * w) 0 ≠ 0 ↔ (wx + j, wy + i) ∈ Pixels R)

theorem drawn_rectangle {X Y W H : Flt} (hs : Simple (.rectangle X Y W H)) : Drawn (.rectangle X Y W H) := by
  obtain ⟨hf, x, y, w', h', hX, hY, hW, hH, hw, hh, hx, hy⟩ := hs
  obtain ⟨w, rfl⟩ : ∃ w : Nat, w' = w := ⟨w'.toNat, by omega⟩
  obtain ⟨h, rfl⟩ : ∃ h : Nat, h' = h := ⟨h'.toNat, by omega⟩
  have hmem : ∀ p : Int × Int, p ∈ Pixels (.rectangle X Y W H) ↔ (x ≤ p.1 ∧ p.1 < x + w) ∧ (y ≤ p.2 ∧ p.2 < y + h) := by
    intro p
    unfold Pixels
    simp only [Set.mem_ofPred_eq, hX, hY, hW, hH]
    norm_cast
  intro buf wx wy ww wh hwx hwy hww hwh hbuf hsz
  obtain ⟨out, o1, o2, _, o4⟩ := C73_rectangle_window_partial X Y W H x y wx wy w h ww wh buf hf hX hY (by rw [hW]; norm_cast) (by rw [hH]; norm_cast)
    (by omega) (by omega) (le_trans hx (by norm_num)) (le_trans hy (by norm_num)) (le_trans hwx (by norm_num)) (le_trans hwy (by norm_num)) (le_of_eq hbuf.symm) (lt_of_le_of_lt hsz (by norm_num)) (lt_of_le_of_lt hwh (by norm_num))
  refine ⟨out, o1, o2.trans hbuf, fun i j hi hj => ?_⟩
  rw [o4 i j hi hj, hmem]
  simp only
  split <;> simp_all

theorem drawn_mask {x y w' h' : Int} {data : List UInt8} (hs : Simple (.mask x y w' h' data)) : Drawn (.mask x y w' h' data) := by
  obtain ⟨hw, hh, hlen, hsz, hx, hy⟩ := hs
  obtain ⟨w, rfl⟩ : ∃ w : Nat, w' = w := ⟨w'.toNat, by omega⟩
  obtain ⟨h, rfl⟩ : ∃ h : Nat, h' = h := ⟨h'.toNat, by omega⟩
  have h22 : (2 : Int) ^ 22 = 4194304 := by norm_num
  have hlen' : data.length = w * h := by exact_mod_cast hlen
  have hsz' : w * h < 2 ^ 31 := by exact_mod_cast hsz
  have hmem : ∀ c r : Nat, ((x + c, y + r) : Int × Int) ∈ Pixels (.mask x y w h data) ↔ (c, r) ∈ Bounds.foreground w h data := by
    intro c r
    rw [mem_foreground]
    unfold Pixels
    simp only [Set.mem_ofPred_eq, Int.toNat_natCast]
    constructor
    · rintro ⟨c', r', h1, h2, h3, h4⟩
      rw [Prod.mk.injEq] at h3
      have e1 : c = c' := by omega
      have e2 : r = r' := by omega
      rw [e1, e2]
      exact ⟨by omega, by omega, h4⟩
    · rintro ⟨h1, h2, h3⟩
      exact ⟨c, r, by omega, by omega, rfl, h3⟩
  have hform : ∀ p ∈ Pixels (.mask x y w h data), ∃ c r : Nat, p = (x + c, y + r) ∧ c < w ∧ r < h := by
    rintro p ⟨c, r, h1, h2, h3, _⟩
    exact ⟨c, r, h3, by omega, by omega⟩
  have hx' := hx
  have hy' := hy
  rw [h22, Int.abs_eq_natAbs] at hx' hy'
  intro buf wx wy ww wh hwx hwy hww hwh hbuf hwsz
  have h24 : (2 : Nat) ^ 24 = 16777216 := by norm_num
  rw [h22, Int.abs_eq_natAbs] at hwx hwy
  have h30 : (2 : Int) ^ 30 = 1073741824 := by norm_num
  obtain ⟨out, o1, o2, _, o4⟩ := C44_window_partial false x y wx wy w h ww wh data buf hlen' hsz' (le_of_eq hbuf.symm) (lt_of_le_of_lt hwsz (by norm_num))
    (by rw [h30]; omega) (by rw [h30]; omega) (by rw [h30]; omega) (by rw [h30]; omega)
  refine ⟨out, o1, o2.trans hbuf, fun i j hi hj => ?_⟩
  obtain ⟨p1, p2⟩ := o4 i j hi hj
  by_cases hc : ∃ c r : Nat, c < w ∧ r < h ∧ x + (c : Int) = wx + j ∧ y + (r : Int) = wy + i
  · obtain ⟨c, r, hc, hr, hxc, hyr⟩ := hc
    rw [p1 c r hc hr hxc hyr, ← hxc, ← hyr, hmem, mem_foreground]
    simp [hc, hr]
  · rw [p2 hc]
    simp only [ne_eq, not_true_eq_false, false_iff]
    intro hm
    obtain ⟨c, r, e, hc', hr'⟩ := hform _ hm
    rw [Prod.mk.injEq] at e
    exact hc ⟨c, r, hc', hr', by omega, by omega⟩

/-- The window of a rectangle and the bounds of a rectangle, for the computation of the overlap. -/
theorem shape_rectangle {X Y W H : Flt} {l t r b : Int} (hs : Simple (.rectangle X Y W H)) (hb : Box (Pixels (.rectangle X Y W H)) l t r b) :
    Shape (.rectangle X Y W H) (Pixels (.rectangle X Y W H)) l t r b := by
  have hd := drawn_rectangle hs
  obtain ⟨hf, x, y, w', h', hX, hY, hW, hH, hw, hh, hx, hy⟩ := hs
  obtain ⟨w, rfl⟩ : ∃ w : Nat, w' = w := ⟨w'.toNat, by omega⟩
  obtain ⟨h, rfl⟩ : ∃ h : Nat, h' = h := ⟨h'.toNat, by omega⟩
  have h22 : (2 : Int) ^ 22 = 4194304 := by norm_num
  have h23 : (2 : Int) ^ 23 = 8388608 := by norm_num
  have h24 : (2 : Int) ^ 24 = 16777216 := by norm_num
  have hmem : ∀ p : Int × Int, p ∈ Pixels (.rectangle X Y W H) ↔ (x ≤ p.1 ∧ p.1 < x + w) ∧ (y ≤ p.2 ∧ p.2 < y + h) := by
    intro p
    unfold Pixels
    simp only [Set.mem_ofPred_eq, hX, hY, hW, hH]
    norm_cast
  have iX : X.Is x := Flt.is_of_value (hf X (by simp)) hX
  have iY : Y.Is y := Flt.is_of_value (hf Y (by simp)) hY
  have iW : W.Is w := Flt.is_of_value (hf W (by simp)) hW
  have iH : H.Is h := Flt.is_of_value (hf H (by simp)) hH
  obtain ⟨hin, ⟨pl, ml, el⟩, ⟨pr, mr, er⟩, ⟨pt, mt, et⟩, ⟨pb, mb, eb⟩⟩ := hb
  have hx' := hx
  have hy' := hy
  rw [h22, Int.abs_eq_natAbs] at hx' hy'
  have ab : ∀ n : Int, n.natAbs ≤ 16777216 → |n| ≤ 2 ^ 24 := by
    intro n hn; rw [h24, Int.abs_eq_natAbs]; omega
  have corner1 := hin (x, y) ((hmem _).mpr (by simp only; omega))
  have corner2 := hin (x + w - 1, y + h - 1) ((hmem _).mpr (by simp only; omega))
  simp only at corner1 corner2
  have q1 := (hmem pl).mp ml
  have q2 := (hmem pr).mp mr
  have q3 := (hmem pt).mp mt
  have q4 := (hmem pb).mp mb
  have hl : l = x := by omega
  have ht : t = y := by omega
  have hr : r = x + w - 1 := by omega
  have hbb : b = y + h - 1 := by omega
  refine ⟨⟨_, rfl, ?_, ?_, ?_, ?_⟩, ?_, hin⟩
  · rw [hl]; exact iX
  · rw [hr]; exact (iX.add iW (ab _ (by omega))).sub Flt.one_is (ab _ (by omega))
  · rw [ht]; exact iY
  · rw [hbb]; exact (iY.add iH (ab _ (by omega))).sub Flt.one_is (ab _ (by omega))
  · exact fun buf wx wy ww wh _ => hd buf wx wy ww wh

theorem shape_mask {x y w' h' : Int} {data : List UInt8} {l t r b : Int} (hs : Simple (.mask x y w' h' data)) (hb : Box (Pixels (.mask x y w' h' data)) l t r b) :
    Shape (.mask x y w' h' data) (Pixels (.mask x y w' h' data)) l t r b := by
  have hd := drawn_mask hs
  obtain ⟨hw, hh, hlen, hsz, hx, hy⟩ := hs
  obtain ⟨w, rfl⟩ : ∃ w : Nat, w' = w := ⟨w'.toNat, by omega⟩
  obtain ⟨h, rfl⟩ : ∃ h : Nat, h' = h := ⟨h'.toNat, by omega⟩
  have h22 : (2 : Int) ^ 22 = 4194304 := by norm_num
  have h23 : (2 : Int) ^ 23 = 8388608 := by norm_num
  have hlen' : data.length = w * h := by exact_mod_cast hlen
  have hsz' : w * h < 2 ^ 31 := by exact_mod_cast hsz
  have hmem : ∀ c r : Nat, ((x + c, y + r) : Int × Int) ∈ Pixels (.mask x y w h data) ↔ (c, r) ∈ Bounds.foreground w h data := by
    intro c r
    rw [mem_foreground]
    unfold Pixels
    simp only [Set.mem_ofPred_eq, Int.toNat_natCast]
    constructor
    · rintro ⟨c', r', h1, h2, h3, h4⟩
      rw [Prod.mk.injEq] at h3
      have e1 : c = c' := by omega
      have e2 : r = r' := by omega
      rw [e1, e2]
      exact ⟨by omega, by omega, h4⟩
    · rintro ⟨h1, h2, h3⟩
      exact ⟨c, r, by omega, by omega, rfl, h3⟩
  have hform : ∀ p ∈ Pixels (.mask x y w h data), ∃ c r : Nat, p = (x + c, y + r) ∧ c < w ∧ r < h := by
    rintro p ⟨c, r, h1, h2, h3, _⟩
    exact ⟨c, r, h3, by omega, by omega⟩
  obtain ⟨hin, ⟨pl, ml, el⟩, ⟨pr, mr, er⟩, ⟨pt, mt, et⟩, ⟨pb, mb, eb⟩⟩ := hb
  have hx' := hx
  have hy' := hy
  rw [h22, Int.abs_eq_natAbs] at hx' hy'
  refine ⟨?_, ?_, hin⟩
  · obtain ⟨cl, rl, rfl, hcl, hrl⟩ := hform pl ml
    obtain ⟨cr, rr, rfl, hcr, hrr⟩ := hform pr mr
    obtain ⟨ct, rt, rfl, hct, hrt⟩ := hform pt mt
    obtain ⟨cb, rb, rfl, hcb, hrb⟩ := hform pb mb
    obtain ⟨B, L, R, T, Bo, e1, e2, e3, e4, e5, e6, ⟨⟨u1, v1⟩, f1, g1⟩, ⟨⟨u2, v2⟩, f2, g2⟩, ⟨⟨u3, v3⟩, f3, g3⟩, ⟨⟨u4, v4⟩, f4, g4⟩⟩ :=
      ofMask_spec x y w h data (by omega) (by omega) (le_of_eq hlen'.symm) (le_of_lt hsz') (le_trans hx (by norm_num)) (le_trans hy (by norm_num))
        (List.ne_nil_of_mem ((hmem cl rl).mp ml))
    have k1 := e6 _ ((hmem cl rl).mp ml)
    have k2 := e6 _ ((hmem cr rr).mp mr)
    have k3 := e6 _ ((hmem ct rt).mp mt)
    have k4 := e6 _ ((hmem cb rb).mp mb)
    have n1 := hin _ ((hmem u1 v1).mpr f1)
    have n2 := hin _ ((hmem u2 v2).mpr f2)
    have n3 := hin _ ((hmem u3 v3).mpr f3)
    have n4 := hin _ ((hmem u4 v4).mpr f4)
    simp only at el er et eb k1 k2 k3 k4 n1 n2 n3 n4 g1 g2 g3 g4
    refine ⟨B, e1, ?_, ?_, ?_, ?_⟩
    · rwa [show l = x + L by omega]
    · rwa [show r = x + R by omega]
    · rwa [show t = y + T by omega]
    · rwa [show b = y + Bo by omega]
  · exact fun buf wx wy ww wh _ => hd buf wx wy ww wh

theorem corners_unique {ps : List (Flt × Flt)} {cs cs' : List (Int × Int)} (h : Corners ps cs) (h' : Corners ps cs') : cs = cs' := by
  unfold Corners at h h'
  induction h generalizing cs' with
  | nil => cases h'; rfl
  | @cons p c ps cs hpc _ ih =>
    cases h' with
    | cons hpc' ht =>
      rw [ih ht]
      have e1 : (c.1 : ℚ) = _ := hpc.2.2.1.symm.trans hpc'.2.2.1
      have e2 : (c.2 : ℚ) = _ := hpc.2.2.2.symm.trans hpc'.2.2.2
      congr 1
      exact Prod.ext (by exact_mod_cast e1) (by exact_mod_cast e2)

theorem Corners.mem_left {ps : List (Flt × Flt)} {cs : List (Int × Int)} (h : Corners ps cs) : ∀ p ∈ ps, ∃ c ∈ cs, p.1.Is c.1 ∧ p.2.Is c.2 := by
  unfold Corners at h
  induction h with
  | nil => simp
  | @cons p c ps cs hpc _ ih =>
    intro q hq
    rcases List.mem_cons.mp hq with rfl | hq
    · exact ⟨c, List.mem_cons_self, Flt.is_of_value hpc.1 hpc.2.2.1, Flt.is_of_value hpc.2.1 hpc.2.2.2⟩
    · obtain ⟨d, hd, h⟩ := ih q hq
      exact ⟨d, List.mem_cons_of_mem _ hd, h⟩

theorem Corners.mem_right {ps : List (Flt × Flt)} {cs : List (Int × Int)} (h : Corners ps cs) : ∀ c ∈ cs, ∃ p ∈ ps, p.1.Is c.1 ∧ p.2.Is c.2 := by
  unfold Corners at h
  induction h with
  | nil => simp
  | @cons p c ps cs hpc _ ih =>
    intro q hq
    rcases List.mem_cons.mp hq with rfl | hq
    · exact ⟨p, List.mem_cons_self, Flt.is_of_value hpc.1 hpc.2.2.1, Flt.is_of_value hpc.2.1 hpc.2.2.2⟩
    · obtain ⟨d, hd, h⟩ := ih q hq
      exact ⟨d, List.mem_cons_of_mem _ hd, h⟩

theorem sidesFrom_end {cs : List (Int × Int)} {c : Int × Int} (prev : Int × Int) (hc : c ∈ cs) : ∃ s ∈ sidesFrom prev cs, s.2 = c := by
  induction cs generalizing prev with
  | nil => cases hc
  | cons d cs ih =>
    rw [sidesFrom]
    rcases List.mem_cons.mp hc with rfl | hc
    · exact ⟨_, List.mem_cons_self, rfl⟩
    · obtain ⟨s, hs, e⟩ := ih d hc
      exact ⟨s, List.mem_cons_of_mem _ hs, e⟩

/-- A corner is on the outline. -/
theorem corner_outline {cs : List (Int × Int)} {c : Int × Int} (hc : c ∈ cs) : OnOutline cs c.1 c.2 := by
  obtain ⟨s, hs, e⟩ : ∃ s ∈ sides cs, s.2 = c := by
    unfold sides
    cases hl : cs.getLast? with
    | none => rw [List.getLast?_eq_none_iff] at hl; subst hl; cases hc
    | some l => exact sidesFrom_end l hc
  exact ⟨s, hs, 1, by norm_num, le_refl _, by rw [e]; ring, by rw [e]; ring⟩

/-- Points of the outline lie in the bounding box of the corners. -/
theorem outline_box {cs : List (Int × Int)} {x y : ℚ} (h : OnOutline cs x y) {L R T B : Int}
    (hb : ∀ c ∈ cs, (L ≤ c.1 ∧ c.1 ≤ R) ∧ (T ≤ c.2 ∧ c.2 ≤ B)) : ((L : ℚ) ≤ x ∧ x ≤ R) ∧ ((T : ℚ) ≤ y ∧ y ≤ B) := by
  obtain ⟨s, hs, t, t0, t1, hx, hy⟩ := h
  obtain ⟨m1, m2⟩ := mem_sides hs
  have b1 := hb _ m1
  have b2 := hb _ m2
  have key : ∀ a b l r : Int, l ≤ a → a ≤ r → l ≤ b → b ≤ r → (l : ℚ) ≤ a + t * (b - a) ∧ (a : ℚ) + t * (b - a) ≤ r := by
    intro a b l r h1 h2 h3 h4
    have h1 : (l : ℚ) ≤ a := by exact_mod_cast h1
    have h2 : (a : ℚ) ≤ r := by exact_mod_cast h2
    have h3 : (l : ℚ) ≤ b := by exact_mod_cast h3
    have h4 : (b : ℚ) ≤ r := by exact_mod_cast h4
    constructor <;> nlinarith
  rw [hx, hy]
  exact ⟨key _ _ _ _ b1.1.1 b1.1.2 b2.1.1 b2.1.2, key _ _ _ _ b1.2.1 b1.2.2 b2.2.1 b2.2.2⟩

theorem shape_polygon {ps : List (Flt × Flt)} {l t r b : Int} (hs : Simple (.polygon ps)) (hb : Box (Pixels (.polygon ps)) l t r b) :
    Shape (.polygon ps) (Pixels (.polygon ps)) l t r b := by
  obtain ⟨cs, hps, hconv, hgrid, hlim⟩ := hs
  have hmem : ∀ p : Int × Int, p ∈ Pixels (.polygon ps) ↔ MeetsPixel cs p.1 p.2 := by
    intro p
    unfold Pixels
    simp only [Set.mem_ofPred_eq]
    constructor
    · rintro ⟨cs', h1, h2⟩
      rwa [corners_unique hps h1]
    · exact fun h => ⟨cs, hps, h⟩
  obtain ⟨hin, ⟨pl, ml, el⟩, ⟨pr, mr, er⟩, ⟨pt, mt, et⟩, ⟨pb, mb, eb⟩⟩ := hb
  have hcor : ∀ c ∈ cs, (l ≤ c.1 ∧ c.1 ≤ r) ∧ (t ≤ c.2 ∧ c.2 ≤ b) := by
    intro c hc
    exact hin c ((hmem c).mpr ⟨c.1, c.1, c.1, corner_outline hc, corner_outline hc, le_refl _, le_refl _, le_refl _, by linarith⟩)
  -- the limits of the corners
  have hbox : ∀ {L R T B : Int}, (∀ c ∈ cs, (L ≤ c.1 ∧ c.1 ≤ R) ∧ (T ≤ c.2 ∧ c.2 ≤ B)) → ∀ p ∈ Pixels (.polygon ps), (L ≤ p.1 ∧ p.1 ≤ R) ∧ (T ≤ p.2 ∧ p.2 ≤ B) := by
    intro L R T B hc p hp
    obtain ⟨a, u, c, h1, h2, h3, h4, h5, h6⟩ := (hmem p).mp hp
    obtain ⟨⟨k1, -⟩, k3, k4⟩ := outline_box h1 hc
    obtain ⟨⟨-, k2⟩, -, -⟩ := outline_box h2 hc
    have j1 : (L : ℚ) < ((p.1 + 1 : Int) : ℚ) := by push_cast; linarith
    have j2 : (p.1 : ℚ) ≤ R := by linarith
    have j1 : L < p.1 + 1 := by exact_mod_cast j1
    have j2 : p.1 ≤ R := by exact_mod_cast j2
    have j3 : T ≤ p.2 := by exact_mod_cast k3
    have j4 : p.2 ≤ B := by exact_mod_cast k4
    omega
  have hne : ps ≠ [] := by
    rintro rfl
    have : cs = [] := by unfold Corners at hps; cases hps; rfl
    subst this
    obtain ⟨a, u, c, ⟨s, hs, _⟩, _⟩ := (hmem pl).mp ml
    simp [sides] at hs
  have lim : ∀ {n : Int}, |n| ≤ 2 ^ 22 → |n| ≤ 2 ^ 24 := fun h => le_trans h (by norm_num)
  have hfl : ∀ p ∈ ps, (p.1.IsFloat ∧ p.1.IsFinite) ∧ (p.2.IsFloat ∧ p.2.IsFinite) := by
    intro p hp
    obtain ⟨c, hc, i1, i2⟩ := hps.mem_left p hp
    obtain ⟨b1, b2⟩ := hlim c hc
    exact ⟨⟨i1.isFloat (Flt.rep24_small (lim b1)).1 (Flt.rep24_small (lim b1)).2, i1.finite⟩,
      i2.isFloat (Flt.rep24_small (lim b2)).1 (Flt.rep24_small (lim b2)).2, i2.finite⟩
  refine ⟨?_, ?_, hin⟩
  · obtain ⟨B, e0, ⟨l1, pL, hpL, l2⟩, ⟨r1, pR, hpR, r2⟩, ⟨t1, pT, hpT, t2⟩, ⟨b1, pB, hpB, b2⟩⟩ := C40_polygon_bounds false ps hne hfl
    have hB : B = Bounds.ofPolygon ps := by
      unfold computeBounds at e0
      injection e0 with e0
      exact e0.symm
    have h1 : ∀ x ∈ ps.map (·.1), x.IsFinite := by
      intro x hx; obtain ⟨p, hp, rfl⟩ := List.mem_map.mp hx; exact (hfl p hp).1.2
    have h2 : ∀ x ∈ ps.map (·.2), x.IsFinite := by
      intro x hx; obtain ⟨p, hp, rfl⟩ := List.mem_map.mp hx; exact (hfl p hp).2.2
    have hn := Flt.neg_finite Flt.fltMax_finite
    unfold Bounds.ofPolygon at hB
    rw [foldl_extend] at hB
    have fl : B.left.IsFinite := by rw [hB]; exact (foldl_minF _ _ Flt.fltMax_finite h1).1
    have fr : B.right.IsFinite := by rw [hB]; exact (foldl_maxF _ _ hn h1).1
    have ft : B.top.IsFinite := by rw [hB]; exact (foldl_minF _ _ Flt.fltMax_finite h2).1
    have fb : B.bottom.IsFinite := by rw [hB]; exact (foldl_maxF _ _ hn h2).1
    obtain ⟨cL, mL, iL, -⟩ := hps.mem_left pL hpL
    obtain ⟨cR, mR, iR, -⟩ := hps.mem_left pR hpR
    obtain ⟨cT, mT, -, iT⟩ := hps.mem_left pT hpT
    obtain ⟨cB, mB, -, iB⟩ := hps.mem_left pB hpB
    beta_reduce at l2 r2 t2 b2
    rw [iL.value] at l2
    rw [iR.value] at r2
    rw [iT.value] at t2
    rw [iB.value] at b2
    have hlims : ∀ c ∈ cs, (cL.1 ≤ c.1 ∧ c.1 ≤ cR.1) ∧ (cT.2 ≤ c.2 ∧ c.2 ≤ cB.2) := by
      intro c hc
      obtain ⟨p, hp, i1, i2⟩ := hps.mem_right c hc
      have k1 := l1 p hp
      have k2 := r1 p hp
      have k3 := t1 p hp
      have k4 := b1 p hp
      simp only [i1.value, i2.value, ← l2, ← r2, ← t2, ← b2] at k1 k2 k3 k4
      exact ⟨⟨by exact_mod_cast k1, by exact_mod_cast k2⟩, by exact_mod_cast k3, by exact_mod_cast k4⟩
    have k1 := hbox hlims pl ml
    have k2 := hbox hlims pr mr
    have k3 := hbox hlims pt mt
    have k4 := hbox hlims pb mb
    have g1 := hcor cL mL
    have g2 := hcor cR mR
    have g3 := hcor cT mT
    have g4 := hcor cB mB
    refine ⟨B, e0, Flt.is_of_value fl ?_, Flt.is_of_value fr ?_, Flt.is_of_value ft ?_, Flt.is_of_value fb ?_⟩
    · rw [← l2, show l = cL.1 by omega]
    · rw [← r2, show r = cR.1 by omega]
    · rw [← t2, show t = cT.2 by omega]
    · rw [← b2, show b = cB.2 by omega]
  · intro buf wx wy w h hwl hwx hwy hw hh hbuf hsz
    have h24 : (2 : Nat) ^ 24 = 16777216 := by norm_num
    obtain ⟨out, o1, o2, _, o4⟩ := C143_convex_partial ps cs hps hconv wx wy w h buf hlim hwx hwy (le_of_eq hbuf.symm) (by omega) (by omega)
    refine ⟨out, o1, o2.trans hbuf, fun i j hi hj => ?_⟩
    obtain ⟨q1, q2⟩ := o4 i j hi hj (hgrid _) (.inr fun c hc => le_trans hwl (hcor c hc).1.1)
    rw [hmem]
    by_cases hm : MeetsPixel cs (wx + j) (wy + i)
    · rw [q1 hm]; simp [hm]
    · rw [q2 hm]; simp [hm]

theorem shape_simple {R : Region} {l t r b : Int} (hs : Simple R) (hb : Box (Pixels R) l t r b) : Shape R (Pixels R) l t r b := by
  cases R with
  | mask => exact shape_mask hs hb
  | rectangle => exact shape_rectangle hs hb
  | polygon => exact shape_polygon hs hb
  | special => exact absurd hs (by simp [Simple])

/-- **C49 is violated**: two rectangles that share one column of pixels are reported to have no overlap (their
Jaccard index is 4/28), and a region of one row (of area 0 for the code) has no overlap with itself. -/
theorem C49_jaccard_false :
    computeOverlap false (fun n => List.replicate n 7) (.rectangle (.ofInt 0) (.ofInt 0) (.ofInt 4) (.ofInt 4))
      (.rectangle (.ofInt 3) (.ofInt 0) (.ofInt 4) (.ofInt 4)) Bounds.none = .ok ⟨.zero, ratio 1 2, ratio 1 2⟩ ∧
    computeOverlap false (fun n => List.replicate n 7) (.mask 0 0 2 1 [1, 1]) (.mask 0 0 2 2 [1, 1, 1, 1]) Bounds.none = .ok ⟨.zero, .zero, .zero⟩ := by
  decide +kernel

/-- Shares of the pixels of two sets in a frame are rounded to the nearest number. -/
theorem shares_nearest {A B : Set (Int × Int)} {fx fy : Int} {fw fh : Nat} (hfs : fw * fh ≤ 2 ^ 23)
    (hframe : ∀ p ∈ A ∪ B, (fx ≤ p.1 ∧ p.1 < fx + fw) ∧ (fy ≤ p.2 ∧ p.2 < fy + fh)) (hne : (A ∪ B).Nonempty) {o : Overlap}
    (e2 : o.overlap = ratio (A ∩ B).ncard ((A \ B).ncard + (B \ A).ncard + (A ∩ B).ncard) ∨ (A ∩ B = ∅ ∧ o.overlap = .zero))
    (e3 : o.only1 = ratio (A \ B).ncard ((A \ B).ncard + (B \ A).ncard + (A ∩ B).ncard))
    (e4 : o.only2 = ratio (B \ A).ncard ((A \ B).ncard + (B \ A).ncard + (A ∩ B).ncard)) :
    Nearest ((A ∩ B).ncard / (A ∪ B).ncard) o.overlap ∧ Nearest ((A \ B).ncard / (A ∪ B).ncard) o.only1 ∧
      Nearest ((B \ A).ncard / (A ∪ B).ncard) o.only2 := by
  -- the sets are finite
  have hfinite : (A ∪ B).Finite := by
    refine Set.Finite.subset (Set.Finite.prod (Set.finite_Ico fx (fx + fw)) (Set.finite_Ico fy (fy + fh))) ?_
    intro p hp
    have := hframe p hp
    exact ⟨⟨this.1.1, this.1.2⟩, ⟨this.2.1, this.2.2⟩⟩
  have fA : A.Finite := hfinite.subset Set.subset_union_left
  have fB : B.Finite := hfinite.subset Set.subset_union_right
  have hcard : (A \ B).ncard + (B \ A).ncard + (A ∩ B).ncard = (A ∪ B).ncard := by
    have u1 := Set.ncard_inter_add_ncard_sdiff_eq_ncard A B fA
    have u2 : (B \ A).ncard + A.ncard = (A ∪ B).ncard := by
      rw [Set.union_comm]; exact Set.ncard_sdiff_add_ncard B A fB fA
    omega
  rw [hcard] at e2 e3 e4
  have hpos : 0 < (A ∪ B).ncard := by
    exact (Set.ncard_pos (s := A ∪ B) hfinite).mpr hne
  have hle : (A ∪ B).ncard ≤ 2 ^ 24 := by
    have : (A ∪ B).ncard ≤ (Set.Ico fx (fx + fw) ×ˢ Set.Ico fy (fy + fh)).ncard := by
      refine Set.ncard_le_ncard ?_ (Set.Finite.prod (Set.finite_Ico fx (fx + fw)) (Set.finite_Ico fy (fy + fh)))
      intro p hp
      have := hframe p hp
      exact ⟨⟨this.1.1, this.1.2⟩, ⟨this.2.1, this.2.2⟩⟩
    have hico : ∀ (a : Int) (n : Nat), (Set.Ico a (a + n)).ncard = n := by
      intro a n
      rw [← Finset.coe_Ico, Set.ncard_coe_finset, Int.card_Ico]
      omega
    rw [Set.ncard_prod, hico, hico] at this
    exact le_trans this (le_trans hfs (by norm_num))
  refine ⟨?_, ?_, ?_⟩
  · rcases e2 with e2 | ⟨e0, e2⟩
    · rw [e2]
      exact ratio_nearest _ _ hpos (Set.ncard_le_ncard (Set.inter_subset_left.trans Set.subset_union_left) hfinite) hle
    · rw [e2, e0, Set.ncard_empty]
      simpa using zero_nearest
  · rw [e3]
    exact ratio_nearest _ _ hpos (Set.ncard_le_ncard (Set.sdiff_subset.trans Set.subset_union_left) hfinite) hle
  · rw [e4]
    exact ratio_nearest _ _ hpos (Set.ncard_le_ncard (Set.sdiff_subset.trans Set.subset_union_right) hfinite) hle

/-- **C49, what holds.** For masks, integer rectangles and convex polygons with integer corners inside a frame of at most 2^23 pixels which the
bounds contain, in the default mode, each with at least two columns and two rows of pixels between its first
and last: if the bounding boxes have two columns and two rows in common, or the regions have no pixel in
common, the overlap is the number of pixels in both over the number of pixels in either, rounded to the
nearest `float`, and the exclusive parts are the fractions of pixels in only one of them. Missing: polygons
that are not convex, have fractional corners or a slanted side through a whole position (C143 is violated there), fractional rectangles, legacy mode, bounds that cut the regions
(see `C49_bounded_partial`), and the violated case of boxes that share
one column or one row. -/
theorem C49_jaccard_partial (fresh : Nat → List UInt8) (hfresh : ∀ n, (fresh n).length = n) (ra rb : Region) (bounds : Bounds)
    (ha : Simple ra) (hb : Simple rb) (fx fy : Int) (fw fh : Nat) (l1 t1 r1 b1 l2 t2 r2 b2 : Int)
    (box1 : Box (Pixels ra) l1 t1 r1 b1) (box2 : Box (Pixels rb) l2 t2 r2 b2)
    (hfin : bounds.left.IsFinite ∧ bounds.right.IsFinite ∧ bounds.top.IsFinite ∧ bounds.bottom.IsFinite)
    (hbnd : bounds.left.value ≤ fx ∧ ((fx + fw - 1 : Int) : ℚ) ≤ bounds.right.value ∧ bounds.top.value ≤ fy ∧ ((fy + fh - 1 : Int) : ℚ) ≤ bounds.bottom.value)
    (hfx : |fx| + fw ≤ 2 ^ 22) (hfy : |fy| + fh ≤ 2 ^ 22) (hfs : fw * fh ≤ 2 ^ 23)
    (hframe : ∀ p ∈ Pixels ra ∪ Pixels rb, (fx ≤ p.1 ∧ p.1 < fx + fw) ∧ (fy ≤ p.2 ∧ p.2 < fy + fh))
    (h1 : l1 < r1 ∧ t1 < b1) (h2 : l2 < r2 ∧ t2 < b2)
    (hov : (max l1 l2 < min r1 r2 ∧ max t1 t2 < min b1 b2) ∨ Pixels ra ∩ Pixels rb = ∅) :
    ∃ o, computeOverlap false fresh ra rb bounds = .ok o ∧
      Nearest ((Pixels ra ∩ Pixels rb).ncard / (Pixels ra ∪ Pixels rb).ncard) o.overlap ∧
      Nearest ((Pixels ra \ Pixels rb).ncard / (Pixels ra ∪ Pixels rb).ncard) o.only1 ∧
      Nearest ((Pixels rb \ Pixels ra).ncard / (Pixels ra ∪ Pixels rb).ncard) o.only2 := by
  have h22 : (2 : Int) ^ 22 = 4194304 := by norm_num
  have hfs' : (fw : Int) * fh ≤ 8388608 := by
    have : ((fw * fh : Nat) : Int) ≤ ((2 ^ 23 : Nat) : Int) := by exact_mod_cast hfs
    rw [Int.natCast_mul] at this
    exact le_trans this (by norm_num)
  rw [h22, Int.abs_eq_natAbs] at hfx hfy
  have inf : ∀ {S : Set (Int × Int)} {l t r b : Int}, S ⊆ Pixels ra ∪ Pixels rb → Box S l t r b → l < r ∧ t < b → InFrame fx fy fw fh l t r b := by
    rintro S l t r b hS ⟨_, ⟨pl, ml, el⟩, ⟨pr, mr, er⟩, ⟨pt, mt, et⟩, ⟨pb, mb, eb⟩⟩ ⟨hlr, htb⟩
    have q1 := hframe pl (hS ml)
    have q2 := hframe pr (hS mr)
    have q3 := hframe pt (hS mt)
    have q4 := hframe pb (hS mb)
    refine ⟨hlr, htb, ?_, ?_, ?_, ?_, by omega, by omega, by omega, by omega⟩ <;> rw [h22, Int.abs_eq_natAbs] <;> omega
  have hf1 := inf Set.subset_union_left box1 h1
  have hf2 := inf Set.subset_union_right box2 h2
  have qle : ∀ {a b : Int} {c : ℚ}, a ≤ b → (b : ℚ) ≤ c → (a : ℚ) ≤ c := fun h h' => le_trans (by exact_mod_cast h) h'
  have qge : ∀ {a b : Int} {c : ℚ}, a ≤ b → c ≤ (a : ℚ) → c ≤ (b : ℚ) := fun h h' => le_trans h' (by exact_mod_cast h)
  have bn : ∀ {l t r b : Int}, InFrame fx fy fw fh l t r b →
      bounds.left.value ≤ l ∧ (r : ℚ) ≤ bounds.right.value ∧ bounds.top.value ≤ t ∧ (b : ℚ) ≤ bounds.bottom.value := fun h =>
    ⟨qge h.fl hbnd.1, qle (by have := h.fr; omega) hbnd.2.1, qge h.ft hbnd.2.2.1, qle (by have := h.fb; omega) hbnd.2.2.2⟩
  obtain ⟨o, e1, e2, e3, e4⟩ := shape_overlap ((shape_simple ha box1).seen bounds hfin (bn hf1) fx fy fw fh) ((shape_simple hb box2).seen bounds hfin (bn hf2) fx fy fw fh) fresh hfresh hf1 hf2 hfs' hov
  exact ⟨o, e1, shares_nearest hfs hframe (let ⟨p, hp, _⟩ := box1.2.1; ⟨p, .inl hp⟩) e2 e3 e4⟩

namespace Spec

/-- The pixels of a set in the columns `x0` to `x1` and the rows `y0` to `y1`. -/
def Within (S : Set (Int × Int)) (x0 y0 x1 y1 : Int) : Set (Int × Int) :=
  {p | p ∈ S ∧ (x0 ≤ p.1 ∧ p.1 ≤ x1) ∧ (y0 ≤ p.2 ∧ p.2 ≤ y1)}

end Spec

theorem drawn_simple {R : Region} (hs : Simple R) (h : ∀ ps, R ≠ .polygon ps) : Drawn R := by
  cases R with
  | mask => exact drawn_mask hs
  | rectangle => exact drawn_rectangle hs
  | polygon ps => exact absurd rfl (h ps)
  | special => exact absurd hs (by simp [Simple])

theorem within_frame (S : Set (Int × Int)) {x0 y0 x1 y1 : Int} {fw fh : Nat} (hfw : x1 - x0 + 1 = fw) (hfh : y1 - y0 + 1 = fh) :
    Within S x0 y0 x1 y1 = {p | p ∈ S ∧ (x0 ≤ p.1 ∧ p.1 < x0 + fw) ∧ (y0 ≤ p.2 ∧ p.2 < y0 + fh)} := by
  ext p
  simp only [Within, Set.mem_ofPred_eq]
  constructor
  · rintro ⟨hS, h⟩; exact ⟨hS, by omega⟩
  · rintro ⟨hS, h⟩; exact ⟨hS, by omega⟩

/-- What whole bounds leave of a simple region. -/
theorem seen_simple {R : Region} {l t r b : Int} (hR : Simple R) (hbox : Box (Pixels R) l t r b) {bounds : Bounds} {x0 y0 x1 y1 : Int} {fw fh : Nat}
    (hfin : bounds.left.IsFinite ∧ bounds.right.IsFinite ∧ bounds.top.IsFinite ∧ bounds.bottom.IsFinite)
    (hbnd : bounds.left.value = x0 ∧ bounds.right.value = x1 ∧ bounds.top.value = y0 ∧ bounds.bottom.value = y1)
    (hfw : x1 - x0 + 1 = fw) (hfh : y1 - y0 + 1 = fh) (hp : ∀ ps, R = .polygon ps → x0 ≤ l) :
    Seen bounds R (Within (Pixels R) x0 y0 x1 y1) x0 y0 fw fh (max l x0) (max t y0) (min r x1) (min b y1) := by
  have ex : x1 = x0 + fw - 1 := by omega
  have ey : y1 = y0 + fh - 1 := by omega
  rw [within_frame _ hfw hfh]
  subst ex ey
  refine (shape_simple hR hbox).cut bounds x0 y0 fw fh (Flt.is_of_value hfin.1 hbnd.1) (Flt.is_of_value hfin.2.1 hbnd.2.1)
    (Flt.is_of_value hfin.2.2.1 hbnd.2.2.1) (Flt.is_of_value hfin.2.2.2 hbnd.2.2.2) ?_
  by_cases hq : ∃ ps, R = .polygon ps
  · obtain ⟨ps, hq⟩ := hq
    exact .inl (hp ps hq)
  · exact .inr (drawn_simple hR fun ps h => hq ⟨ps, h⟩)

theorem inFrame_cut {x0 y0 x1 y1 l t r b : Int} {fw fh : Nat} (hlim : ∀ c ∈ [x0, y0, x1, y1], |c| ≤ 2 ^ 22) (hfw : x1 - x0 + 1 = fw) (hfh : y1 - y0 + 1 = fh)
    (h : max l x0 < min r x1 ∧ max t y0 < min b y1) : InFrame x0 y0 fw fh (max l x0) (max t y0) (min r x1) (min b y1) := by
  have h22 : (2 : Int) ^ 22 = 4194304 := by norm_num
  have lim : ∀ c ∈ [x0, y0, x1, y1], -4194304 ≤ c ∧ c ≤ 4194304 := by
    intro c hc
    have := hlim c hc
    rw [h22, Int.abs_eq_natAbs] at this
    omega
  have k1 := lim x0 (by simp)
  have k2 := lim y0 (by simp)
  have k3 := lim x1 (by simp)
  have k4 := lim y1 (by simp)
  refine ⟨h.1, h.2, ?_, ?_, ?_, ?_, le_max_right _ _, ?_, le_max_right _ _, ?_⟩
  · rw [h22, Int.abs_eq_natAbs]; omega
  · rw [h22, Int.abs_eq_natAbs]; omega
  · rw [h22, Int.abs_eq_natAbs]; omega
  · rw [h22, Int.abs_eq_natAbs]; omega
  · exact lt_of_le_of_lt (min_le_right r x1) (by clear h; omega)
  · exact lt_of_le_of_lt (min_le_right b y1) (by clear h; omega)

theorem cut_lt {l1 l2 x0 r1 r2 x1 : Int} (h : max l1 (max l2 x0) < min r1 (min r2 x1)) : max (max l1 x0) (max l2 x0) < min (min r1 x1) (min r2 x1) := by
  omega

/-- **C49 (bounds), what holds.** Bounds at whole positions restrict the comparison to the pixels inside of them, borders included: for masks,
integer rectangles and convex polygons with integer corners, wherever they lie, whose boxes have at least two columns and two rows inside the bounds, the
overlap is the number of pixels inside the bounds in both over the number of pixels inside the bounds in either, rounded to the nearest
`float`, and the exclusive parts are the fractions of pixels in only one of them, if these parts of the boxes have two columns and two rows in common
or the regions have no pixel in common inside the bounds. Missing: polygons which the bounds cut at their left end (`C49_cut_false`), regions with less inside the bounds
(`C49_outside_false`), bounds between pixels, and what is missing in `C49_jaccard_partial`. -/
theorem C49_bounded_partial (fresh : Nat → List UInt8) (hfresh : ∀ n, (fresh n).length = n) (ra rb : Region) (bounds : Bounds)
    (ha : Simple ra) (hb : Simple rb) (x0 y0 x1 y1 l1 t1 r1 b1 l2 t2 r2 b2 : Int)
    (box1 : Box (Pixels ra) l1 t1 r1 b1) (box2 : Box (Pixels rb) l2 t2 r2 b2)
    (hfin : bounds.left.IsFinite ∧ bounds.right.IsFinite ∧ bounds.top.IsFinite ∧ bounds.bottom.IsFinite)
    (hbnd : bounds.left.value = x0 ∧ bounds.right.value = x1 ∧ bounds.top.value = y0 ∧ bounds.bottom.value = y1)
    (hlim : ∀ c ∈ [x0, y0, x1, y1], |c| ≤ 2 ^ 22) (hsize : (x1 - x0 + 1) * (y1 - y0 + 1) ≤ 2 ^ 23)
    (h1 : max l1 x0 < min r1 x1 ∧ max t1 y0 < min b1 y1) (h2 : max l2 x0 < min r2 x1 ∧ max t2 y0 < min b2 y1)
    (hp1 : ∀ ps, ra = .polygon ps → x0 ≤ l1) (hp2 : ∀ ps, rb = .polygon ps → x0 ≤ l2)
    (hne : (Within (Pixels ra) x0 y0 x1 y1 ∪ Within (Pixels rb) x0 y0 x1 y1).Nonempty)
    (hov : (max l1 (max l2 x0) < min r1 (min r2 x1) ∧ max t1 (max t2 y0) < min b1 (min b2 y1)) ∨
      Within (Pixels ra) x0 y0 x1 y1 ∩ Within (Pixels rb) x0 y0 x1 y1 = ∅) :
    ∃ o, computeOverlap false fresh ra rb bounds = .ok o ∧
      Nearest ((Within (Pixels ra) x0 y0 x1 y1 ∩ Within (Pixels rb) x0 y0 x1 y1).ncard /
        (Within (Pixels ra) x0 y0 x1 y1 ∪ Within (Pixels rb) x0 y0 x1 y1).ncard) o.overlap ∧
      Nearest ((Within (Pixels ra) x0 y0 x1 y1 \ Within (Pixels rb) x0 y0 x1 y1).ncard /
        (Within (Pixels ra) x0 y0 x1 y1 ∪ Within (Pixels rb) x0 y0 x1 y1).ncard) o.only1 ∧
      Nearest ((Within (Pixels rb) x0 y0 x1 y1 \ Within (Pixels ra) x0 y0 x1 y1).ncard /
        (Within (Pixels ra) x0 y0 x1 y1 ∪ Within (Pixels rb) x0 y0 x1 y1).ncard) o.only2 := by
  have o1 : x0 < x1 := lt_of_le_of_lt (le_max_right l1 x0) (lt_of_lt_of_le h1.1 (min_le_right r1 x1))
  have o2 : y0 < y1 := lt_of_le_of_lt (le_max_right t1 y0) (lt_of_lt_of_le h1.2 (min_le_right b1 y1))
  obtain ⟨fw, hfw⟩ : ∃ w : Nat, x1 - x0 + 1 = w := ⟨(x1 - x0 + 1).toNat, by clear h1 h2 hov; omega⟩
  obtain ⟨fh, hfh⟩ : ∃ w : Nat, y1 - y0 + 1 = w := ⟨(y1 - y0 + 1).toNat, by clear h1 h2 hov; omega⟩
  rw [hfw, hfh] at hsize
  have hfs' : (fw : Int) * fh ≤ 8388608 := le_trans hsize (by norm_num)
  have hfs'' : fw * fh ≤ 8388608 := by exact_mod_cast hfs'
  have hfs : fw * fh ≤ 2 ^ 23 := le_trans hfs'' (by norm_num)
  obtain ⟨o, e1, e2, e3, e4⟩ := shape_overlap (seen_simple ha box1 hfin hbnd hfw hfh hp1) (seen_simple hb box2 hfin hbnd hfw hfh hp2) fresh hfresh (inFrame_cut hlim hfw hfh h1) (inFrame_cut hlim hfw hfh h2) hfs'
    (hov.imp_left fun h => ⟨cut_lt h.1, cut_lt h.2⟩)
  have hframe : ∀ p ∈ Within (Pixels ra) x0 y0 x1 y1 ∪ Within (Pixels rb) x0 y0 x1 y1, (x0 ≤ p.1 ∧ p.1 < x0 + fw) ∧ (y0 ≤ p.2 ∧ p.2 < y0 + fh) := by
    rw [within_frame _ hfw hfh, within_frame _ hfw hfh]
    rintro p (hp | hp)
    · exact hp.2
    · exact hp.2
  exact ⟨o, e1, shares_nearest hfs hframe hne e2 e3 e4⟩

/-- **C49 is violated** for a convex polygon which the bounds cut at its left end: a pixel of the first column inside the bounds is counted that the
polygon does not meet. Inside the bounds the polygon has no pixel above row 2, and so at most the five pixels of row 2; six of the 15 pixels of the rectangle are reported. -/
theorem C49_cut_false :
    computeOverlap false (fun n => List.replicate n 7) (poly [(0, 0), (9, 2), (0, 2)]) (.rectangle (.ofInt 5) (.ofInt 0) (.ofInt 5) (.ofInt 3))
      { left := .ofInt 5, top := .ofInt 0, right := .ofInt 9, bottom := .ofInt 9 } = .ok ⟨ratio 6 15, .zero, ratio 9 15⟩ ∧
    ∀ p ∈ Within (Pixels (poly [(0, 0), (9, 2), (0, 2)])) 5 0 9 9, p.2 = 2 := by
  refine ⟨by decide +kernel, ?_⟩
  rintro p ⟨⟨cs, h, a, u, c, h1, h2, h3, h4, h5, h6⟩, h7, h8⟩
  have hlim : ∀ c ∈ [((0 : Int), (0 : Int)), (9, 2), (0, 2)], |c.1| ≤ 2 ^ 22 ∧ |c.2| ≤ 2 ^ 22 := by decide
  rw [corners_unique h (corners_poly _ hlim)] at h1 h2
  obtain ⟨-, -, k4⟩ := outline_box h2 (L := 0) (R := 9) (T := 0) (B := 2) (by decide)
  have hx : (5 : ℚ) ≤ p.1 := by exact_mod_cast h7.1
  have hy : (p.2 : ℚ) ≤ 2 := by exact_mod_cast k4
  obtain ⟨s, hs, l, l0, l1, g1, g2⟩ := h2
  have hlt : (1 : ℚ) < p.2 := by
    simp only [sides, sidesFrom, List.getLast?, List.mem_cons, List.not_mem_nil, or_false] at hs
    simp at hs
    rcases hs with rfl | rfl | rfl <;> push_cast at g1 g2 <;> linarith
  have hlt : 1 < p.2 := by exact_mod_cast hlt
  have hy : p.2 ≤ 2 := by exact_mod_cast hy
  omega

/-- **C49 is violated** for a region that lies outside of the bounds on two sides: a rectangle above and to the left of the bounds, compared with a
rectangle inside of them, ends the program. The two have no pixel in common, so that the overlap should be 0. -/
theorem C49_outside_false :
    computeOverlap false (fun n => List.replicate n 7) (.rectangle (.ofInt (-20)) (.ofInt (-20)) (.ofInt 5) (.ofInt 5))
      (.rectangle (.ofInt 10) (.ofInt 10) (.ofInt 21) (.ofInt 21)) ⟨.ofInt 0, .ofInt 99, .ofInt 0, .ofInt 99⟩ = .abort := by
  decide +kernel

theorem nearest_one {y : Flt} (h : Nearest 1 y) : y.value = 1 := by
  have := h.2.2 .one (by decide) trivial
  rw [Flt.one_is.value] at this
  have h0 : |y.value - 1| ≤ 0 := le_trans this (by simp)
  have := abs_nonpos_iff.mp h0
  linarith

theorem nearest_zero {y : Flt} (h : Nearest 0 y) : y.value = 0 := by
  have := h.2.2 .zero (by decide) trivial
  rw [Flt.zero_is.value] at this
  have h0 : |y.value - 0| ≤ 0 := le_trans this (by simp)
  have := abs_nonpos_iff.mp h0
  linarith

/-- **C49 (identical regions), what holds.** In the same range the overlap of regions with the same pixels is 1,
with empty exclusive parts. -/
theorem C49_identical_partial (fresh : Nat → List UInt8) (hfresh : ∀ n, (fresh n).length = n) (ra rb : Region) (bounds : Bounds)
    (ha : Simple ra) (hb : Simple rb) (fx fy : Int) (fw fh : Nat) (l t r b : Int)
    (hsame : Pixels ra = Pixels rb) (box : Box (Pixels ra) l t r b)
    (hfin : bounds.left.IsFinite ∧ bounds.right.IsFinite ∧ bounds.top.IsFinite ∧ bounds.bottom.IsFinite)
    (hbnd : bounds.left.value ≤ fx ∧ ((fx + fw - 1 : Int) : ℚ) ≤ bounds.right.value ∧ bounds.top.value ≤ fy ∧ ((fy + fh - 1 : Int) : ℚ) ≤ bounds.bottom.value)
    (hfx : |fx| + fw ≤ 2 ^ 22) (hfy : |fy| + fh ≤ 2 ^ 22) (hfs : fw * fh ≤ 2 ^ 23)
    (hframe : ∀ p ∈ Pixels ra, (fx ≤ p.1 ∧ p.1 < fx + fw) ∧ (fy ≤ p.2 ∧ p.2 < fy + fh)) (h1 : l < r ∧ t < b) :
    ∃ o, computeOverlap false fresh ra rb bounds = .ok o ∧ o.overlap.value = 1 ∧ o.only1.value = 0 ∧ o.only2.value = 0 := by
  obtain ⟨o, e1, e2, e3, e4⟩ := C49_jaccard_partial fresh hfresh ra rb bounds ha hb fx fy fw fh l t r b l t r b box (hsame ▸ box) hfin hbnd hfx hfy hfs
    (by rw [← hsame, Set.union_self]; exact hframe) h1 h1 (.inl (by simpa using h1))
  rw [← hsame, Set.inter_self, Set.union_self] at e2
  rw [← hsame, sdiff_self, Set.bot_eq_empty, Set.ncard_empty, Nat.cast_zero, zero_div] at e3 e4
  have hfinite : (Pixels ra).Finite := by
    refine Set.Finite.subset (Set.Finite.prod (Set.finite_Ico fx (fx + fw)) (Set.finite_Ico fy (fy + fh))) ?_
    intro p hp
    have := hframe p hp
    exact ⟨⟨this.1.1, this.1.2⟩, ⟨this.2.1, this.2.2⟩⟩
  have hpos : 0 < (Pixels ra).ncard := by
    obtain ⟨p, hp, _⟩ := box.2.1
    exact (Set.ncard_pos (s := Pixels ra) hfinite).mpr ⟨p, hp⟩
  rw [div_self (by exact_mod_cast (Nat.pos_iff_ne_zero.mp hpos))] at e2
  exact ⟨o, e1, nearest_one e2, nearest_zero e3, nearest_zero e4⟩

theorem ofInt_value {n : Int} (h : |n| ≤ 2 ^ 24) : (Flt.ofInt n).IsFinite ∧ (Flt.ofInt n).value = n :=
  ⟨(Flt.ofInt_small h).finite, (Flt.ofInt_small h).value⟩

/-- The hypotheses of the theorems hold of a rectangle of 3 by 3 pixels and one shifted by a pixel. -/
example : ∃ o, computeOverlap false (fun n => List.replicate n 7) (.rectangle (.ofInt 0) (.ofInt 0) (.ofInt 3) (.ofInt 3))
    (.rectangle (.ofInt 1) (.ofInt 1) (.ofInt 3) (.ofInt 3)) ⟨.ofInt 0, .ofInt 9, .ofInt 0, .ofInt 9⟩ = .ok o ∧
      Nearest ((Pixels (.rectangle (.ofInt 0) (.ofInt 0) (.ofInt 3) (.ofInt 3)) ∩ Pixels (.rectangle (.ofInt 1) (.ofInt 1) (.ofInt 3) (.ofInt 3))).ncard /
        (Pixels (.rectangle (.ofInt 0) (.ofInt 0) (.ofInt 3) (.ofInt 3)) ∪ Pixels (.rectangle (.ofInt 1) (.ofInt 1) (.ofInt 3) (.ofInt 3))).ncard) o.overlap := by
  obtain ⟨f0, v0⟩ := ofInt_value (n := 0) (by norm_num)
  obtain ⟨f1, v1⟩ := ofInt_value (n := 1) (by norm_num)
  obtain ⟨f3, v3⟩ := ofInt_value (n := 3) (by norm_num)
  obtain ⟨f9, v9⟩ := ofInt_value (n := 9) (by norm_num)
  have m1 : ∀ p : Int × Int, p ∈ Pixels (.rectangle (.ofInt 0) (.ofInt 0) (.ofInt 3) (.ofInt 3)) ↔ (0 ≤ p.1 ∧ p.1 < 0 + 3) ∧ (0 ≤ p.2 ∧ p.2 < 0 + 3) := by
    intro p; unfold Pixels; simp only [Set.mem_ofPred_eq, v0, v3]; norm_cast
  have m2 : ∀ p : Int × Int, p ∈ Pixels (.rectangle (.ofInt 1) (.ofInt 1) (.ofInt 3) (.ofInt 3)) ↔ (1 ≤ p.1 ∧ p.1 < 1 + 3) ∧ (1 ≤ p.2 ∧ p.2 < 1 + 3) := by
    intro p; unfold Pixels; simp only [Set.mem_ofPred_eq, v1, v3]; norm_cast
  obtain ⟨o, e1, e2, _⟩ := C49_jaccard_partial (fun n => List.replicate n 7) (by simp) (.rectangle (.ofInt 0) (.ofInt 0) (.ofInt 3) (.ofInt 3))
    (.rectangle (.ofInt 1) (.ofInt 1) (.ofInt 3) (.ofInt 3)) ⟨.ofInt 0, .ofInt 9, .ofInt 0, .ofInt 9⟩
    ⟨by simp [f0, f3], 0, 0, 3, 3, v0, v0, v3, v3, by norm_num⟩ ⟨by simp [f1, f3], 1, 1, 3, 3, v1, v1, v3, v3, by norm_num⟩ 0 0 4 4 0 0 2 2 1 1 3 3
    ⟨fun p hp => by have := (m1 p).mp hp; omega, ⟨(0, 0), (m1 _).mpr (by norm_num), rfl⟩, ⟨(2, 0), (m1 _).mpr (by norm_num), rfl⟩,
      ⟨(0, 0), (m1 _).mpr (by norm_num), rfl⟩, ⟨(0, 2), (m1 _).mpr (by norm_num), rfl⟩⟩
    ⟨fun p hp => by have := (m2 p).mp hp; omega, ⟨(1, 1), (m2 _).mpr (by norm_num), rfl⟩, ⟨(3, 1), (m2 _).mpr (by norm_num), rfl⟩,
      ⟨(1, 1), (m2 _).mpr (by norm_num), rfl⟩, ⟨(1, 3), (m2 _).mpr (by norm_num), rfl⟩⟩
    ⟨f0, f9, f0, f9⟩ (by simp only [v0, v9]; norm_num) (by norm_num) (by norm_num) (by norm_num)
    (by rintro p (hp | hp)
        · have := (m1 p).mp hp; push_cast; omega
        · have := (m2 p).mp hp; push_cast; omega) (by norm_num) (by norm_num) (.inl (by norm_num))
  exact ⟨o, e1, e2⟩

/-- The hypotheses of `C49_bounded_partial` hold of two rectangles of 3 by 3 and 4 by 4 pixels which the bounds cut to 2 by 2 and 3 by 3 pixels. -/
example : ∃ o, computeOverlap false (fun n => List.replicate n 7) (.rectangle (.ofInt 0) (.ofInt 0) (.ofInt 3) (.ofInt 3))
    (.rectangle (.ofInt 0) (.ofInt 0) (.ofInt 4) (.ofInt 4)) ⟨.ofInt 1, .ofInt 9, .ofInt 1, .ofInt 9⟩ = .ok o ∧
      Nearest ((Within (Pixels (.rectangle (.ofInt 0) (.ofInt 0) (.ofInt 3) (.ofInt 3))) 1 1 9 9 ∩ Within (Pixels (.rectangle (.ofInt 0) (.ofInt 0) (.ofInt 4) (.ofInt 4))) 1 1 9 9).ncard /
        (Within (Pixels (.rectangle (.ofInt 0) (.ofInt 0) (.ofInt 3) (.ofInt 3))) 1 1 9 9 ∪ Within (Pixels (.rectangle (.ofInt 0) (.ofInt 0) (.ofInt 4) (.ofInt 4))) 1 1 9 9).ncard) o.overlap := by
  obtain ⟨f0, v0⟩ := ofInt_value (n := 0) (by norm_num)
  obtain ⟨f1, v1⟩ := ofInt_value (n := 1) (by norm_num)
  obtain ⟨f3, v3⟩ := ofInt_value (n := 3) (by norm_num)
  obtain ⟨f4, v4⟩ := ofInt_value (n := 4) (by norm_num)
  obtain ⟨f9, v9⟩ := ofInt_value (n := 9) (by norm_num)
  have m1 : ∀ p : Int × Int, p ∈ Pixels (.rectangle (.ofInt 0) (.ofInt 0) (.ofInt 3) (.ofInt 3)) ↔ (0 ≤ p.1 ∧ p.1 < 0 + 3) ∧ (0 ≤ p.2 ∧ p.2 < 0 + 3) := by
    intro p; unfold Pixels; simp only [Set.mem_ofPred_eq, v0, v3]; norm_cast
  have m2 : ∀ p : Int × Int, p ∈ Pixels (.rectangle (.ofInt 0) (.ofInt 0) (.ofInt 4) (.ofInt 4)) ↔ (0 ≤ p.1 ∧ p.1 < 0 + 4) ∧ (0 ≤ p.2 ∧ p.2 < 0 + 4) := by
    intro p; unfold Pixels; simp only [Set.mem_ofPred_eq, v0, v4]; norm_cast
  obtain ⟨o, e1, e2, _⟩ := C49_bounded_partial (fun n => List.replicate n 7) (by simp) (.rectangle (.ofInt 0) (.ofInt 0) (.ofInt 3) (.ofInt 3))
    (.rectangle (.ofInt 0) (.ofInt 0) (.ofInt 4) (.ofInt 4)) ⟨.ofInt 1, .ofInt 9, .ofInt 1, .ofInt 9⟩
    ⟨by simp [f0, f3], 0, 0, 3, 3, v0, v0, v3, v3, by norm_num⟩ ⟨by simp [f0, f4], 0, 0, 4, 4, v0, v0, v4, v4, by norm_num⟩ 1 1 9 9 0 0 2 2 0 0 3 3
    ⟨fun p hp => by have := (m1 p).mp hp; omega, ⟨(0, 0), (m1 _).mpr (by norm_num), rfl⟩, ⟨(2, 0), (m1 _).mpr (by norm_num), rfl⟩,
      ⟨(0, 0), (m1 _).mpr (by norm_num), rfl⟩, ⟨(0, 2), (m1 _).mpr (by norm_num), rfl⟩⟩
    ⟨fun p hp => by have := (m2 p).mp hp; omega, ⟨(0, 0), (m2 _).mpr (by norm_num), rfl⟩, ⟨(3, 0), (m2 _).mpr (by norm_num), rfl⟩,
      ⟨(0, 0), (m2 _).mpr (by norm_num), rfl⟩, ⟨(0, 3), (m2 _).mpr (by norm_num), rfl⟩⟩
    ⟨f1, f9, f1, f9⟩ (by simp only [v1, v9]; norm_num) (by decide) (by norm_num) (by norm_num) (by norm_num) (by simp) (by simp)
    ⟨(1, 1), .inl ⟨(m1 _).mpr (by norm_num), by norm_num⟩⟩ (.inl (by norm_num))
  exact ⟨o, e1, e2⟩

/-- The hypotheses on a region hold of a convex polygon of four corners. Its overlap with a rectangle of 3 by 3 pixels inside of it: the
polygon has 24 pixels. -/
example : Simple (poly [(1, 0), (5, 3), (2, 5), (-2, 4)]) ∧ Box (Pixels (poly [(1, 0), (5, 3), (2, 5), (-2, 4)])) (-2) 0 5 5 ∧
    computeOverlap false (fun n => List.replicate n 7) (poly [(1, 0), (5, 3), (2, 5), (-2, 4)]) (.rectangle (.ofInt 0) (.ofInt 2) (.ofInt 3) (.ofInt 3)) Bounds.none =
      .ok ⟨ratio 9 24, ratio 15 24, .zero⟩ := by
  have hlim : ∀ c ∈ [((1 : Int), (0 : Int)), (5, 3), (2, 5), (-2, 4)], |c.1| ≤ 2 ^ 22 ∧ |c.2| ≤ 2 ^ 22 := by decide
  have hc := corners_poly _ hlim
  have hgrid : ∀ y, OffGrid [(1, 0), (5, 3), (2, 5), (-2, 4)] y := by
    intro y
    have hin : ∀ y ∈ [(0 : Int), 1, 2, 3, 4, 5], ∀ s ∈ sides [(1, 0), (5, 3), (2, 5), (-2, 4)], s.1.1 ≠ s.2.1 → Straddles y s → (meets s y).den ≠ 1 := by
      decide +kernel
    have hin2 : ∀ s ∈ sides [(1, 0), (5, 3), (2, 5), (-2, 4)], (0 ≤ s.1.2 ∧ s.1.2 ≤ 5) ∧ 0 ≤ s.2.2 ∧ s.2.2 ≤ 5 := by decide +kernel
    by_cases hy : 0 ≤ y ∧ y ≤ 5
    · exact offGrid_of_den (hin y (by simp only [List.mem_cons, List.not_mem_nil, or_false]; omega))
    · intro s hs _ hst
      have := hin2 s hs
      unfold Straddles at hst
      omega
  have hpix : ∀ c ∈ [((1 : Int), (0 : Int)), (5, 3), (2, 5), (-2, 4)], c ∈ Pixels (poly [(1, 0), (5, 3), (2, 5), (-2, 4)]) := fun c hm =>
    ⟨_, hc, c.1, c.1, c.1, corner_outline hm, corner_outline hm, le_refl _, le_refl _, le_refl _, by linarith⟩
  refine ⟨⟨_, hc, ⟨.inl (by decide), by decide⟩, hgrid, hlim⟩, ⟨?_, ⟨(-2, 4), hpix _ (by simp), rfl⟩, ⟨(5, 3), hpix _ (by simp), rfl⟩,
    ⟨(1, 0), hpix _ (by simp), rfl⟩, ⟨(2, 5), hpix _ (by simp), rfl⟩⟩, by decide +kernel⟩
  rintro p ⟨cs, h, a, u, c, h1, h2, h3, h4, h5, h6⟩
  rw [corners_unique h hc] at h1 h2
  obtain ⟨⟨k1, -⟩, k3, k4⟩ := outline_box h1 (L := -2) (R := 5) (T := 0) (B := 5) (by decide)
  obtain ⟨⟨-, k2⟩, -, -⟩ := outline_box h2 (L := -2) (R := 5) (T := 0) (B := 5) (by decide)
  have j1 : ((-2 : Int) : ℚ) < ((p.1 + 1 : Int) : ℚ) := by push_cast at k1 ⊢; linarith
  have j2 : (p.1 : ℚ) ≤ ((5 : Int) : ℚ) := by linarith
  have j1 : -2 < p.1 + 1 := by exact_mod_cast j1
  have j2 : p.1 ≤ 5 := by exact_mod_cast j2
  have j3 : 0 ≤ p.2 := by exact_mod_cast k3
  have j4 : p.2 ≤ 5 := by exact_mod_cast k4
  omega

end Trax
