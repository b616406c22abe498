import Verif.Lemmas.Overlap
import Verif.Props.Raster
import Mathlib.Data.Set.Card

/-!
# Lemmas about the overlap of regions with integer bounds
-/

namespace Trax
open Region

namespace Flt

theorem Is.floor {x : Flt} {n : Int} (h : x.Is n) : x.floorF.Is n := by
  obtain ⟨s, rfl, h1, h2⟩ := h
  refine ⟨s, ?_, h1, h2⟩
  have e1 : (n.natAbs * 2 ^ 149 + (2 ^ 149 - 1)) / 2 ^ 149 = n.natAbs := by
    rw [Nat.mul_comm n.natAbs, Nat.mul_add_div (Nat.two_pow_pos _), Nat.div_eq_of_lt (Nat.sub_lt (Nat.two_pow_pos _) Nat.one_pos),
      Nat.add_zero]
  have e2 : n.natAbs * 2 ^ 149 / 2 ^ 149 = n.natAbs := Nat.mul_div_cancel _ (Nat.two_pow_pos _)
  unfold floorF
  simp only
  rw [e1, e2, ite_self]

theorem Is.ceil {x : Flt} {n : Int} (h : x.Is n) : x.ceilF.Is n := by
  obtain ⟨s, rfl, h1, h2⟩ := h
  refine ⟨s, ?_, h1, h2⟩
  have e1 : (n.natAbs * 2 ^ 149 + (2 ^ 149 - 1)) / 2 ^ 149 = n.natAbs := by
    rw [Nat.mul_comm n.natAbs, Nat.mul_add_div (Nat.two_pow_pos _), Nat.div_eq_of_lt (Nat.sub_lt (Nat.two_pow_pos _) Nat.one_pos),
      Nat.add_zero]
  have e2 : n.natAbs * 2 ^ 149 / 2 ^ 149 = n.natAbs := Nat.mul_div_cancel _ (Nat.two_pow_pos _)
  unfold ceilF
  simp only
  rw [e1, e2, ite_self]

theorem Is.maxLeft {x b : Flt} {n : Int} (h : x.Is n) (hf : b.IsFinite) (hb : b.value ≤ n) : (x.maxF b).Is n := by
  refine is_of_value (maxF_finite h.finite hf) ?_
  rw [maxF_value h.finite hf, h.value, max_eq_left hb]

theorem Is.minLeft {x b : Flt} {n : Int} (h : x.Is n) (hf : b.IsFinite) (hb : (n : ℚ) ≤ b.value) : (x.minF b).Is n := by
  refine is_of_value (minF_finite h.finite hf) ?_
  rw [minF_value h.finite hf, h.value, min_eq_left hb]

theorem Is.max {x y : Flt} {m n : Int} (hx : x.Is m) (hy : y.Is n) : (x.maxF y).Is (max m n) := by
  refine is_of_value (maxF_finite hx.finite hy.finite) ?_
  rw [maxF_value hx.finite hy.finite, hx.value, hy.value, Int.cast_max]

theorem Is.min {x y : Flt} {m n : Int} (hx : x.Is m) (hy : y.Is n) : (x.minF y).Is (min m n) := by
  refine is_of_value (minF_finite hx.finite hy.finite) ?_
  rw [minF_value hx.finite hy.finite, hx.value, hy.value, Int.cast_min]

theorem Is.mul {x y : Flt} {m n : Int} (hx : x.Is m) (hy : y.Is n) (h : |m * n| ≤ 2 ^ 24) : (x.mulF y).Is (m * n) := by
  obtain ⟨s, rfl, s1, s2⟩ := hx
  obtain ⟨t, rfl, t1, t2⟩ := hy
  obtain ⟨h1, h2⟩ := rep24_small h
  refine ⟨s != t, ?_, ?_, ?_⟩
  · unfold mulF mulWith
    simp only
    have e : ∀ a b U : Nat, a * U * (b * U) = a * b * U * U := by intros; ring
    rw [e, ← Int.natAbs_mul]
    exact mkFloat_exact (Nat.two_pow_pos _) (Rep32.int h1 h2)
  · intro hneg
    rcases lt_trichotomy m 0 with hm | hm | hm
    · rcases lt_trichotomy n 0 with hn | hn | hn
      · nlinarith
      · subst hn; simp at hneg
      · rw [s1 hm, t2 hn]; rfl
    · subst hm; simp at hneg
    · rcases lt_trichotomy n 0 with hn | hn | hn
      · rw [s2 hm, t1 hn]; rfl
      · subst hn; simp at hneg
      · nlinarith
  · intro hpos
    rcases lt_trichotomy m 0 with hm | hm | hm
    · rcases lt_trichotomy n 0 with hn | hn | hn
      · rw [s1 hm, t1 hn]; rfl
      · subst hn; simp at hpos
      · nlinarith
    · subst hm; simp at hpos
    · rcases lt_trichotomy n 0 with hn | hn | hn
      · nlinarith
      · subst hn; simp at hpos
      · rw [s2 hm, t2 hn]; rfl

theorem Is.pos {x : Flt} {n : Int} (h : x.Is n) (hn : 0 < n) : x = .fin false (n.natAbs * 2 ^ 149) := by
  obtain ⟨s, rfl, _, h2⟩ := h
  rw [h2 hn]

theorem tiny_eq : tiny = .fin false (fround 53 (2 ^ 1074) (10 ^ 10)) := by
  have h : fround 53 (2 ^ 1074) (10 ^ 10) ≤ 2 ^ 1074 :=
    fround_le_rep _ _ _ (by omega) (by norm_num) ((rep_of_lt (m := 1) (by norm_num)).scale (p' := 53) (k := 1074) (Nat.le_refl _) |> fun h => by
      rwa [Nat.one_mul] at h) (Nat.le_mul_of_pos_right _ (by norm_num))
  unfold tiny mkDouble
  simp only
  rw [if_neg]
  intro hc
  have := Nat.pow_lt_pow_right (a := 2) (by omega) (show 1074 < 2098 by omega)
  omega

theorem not_tiny {x y : Flt} {p q : Int} (hx : x.Is p) (hy : y.Is q) (hp : 0 < p) (hq : 0 < q) (hq2 : q ≤ 2 ^ 24) :
    (x.widen.divD y.widen).lt tiny = false := by
  rw [hx.pos hp, hy.pos hq, tiny_eq]
  unfold widen divD divWith
  simp only
  have hpos : 0 < q.natAbs * 2 ^ 149 * 2 ^ 925 := Nat.mul_pos (Nat.mul_pos (by omega) (Nat.two_pow_pos _)) (Nat.two_pow_pos _)
  rw [if_neg (by omega)]
  have hm : fround 53 (2 ^ 1074) (10 ^ 10) ≤ fround 53 (p.natAbs * 2 ^ 149 * 2 ^ 925 * 2 ^ 1074) (q.natAbs * 2 ^ 149 * 2 ^ 925) := by
    refine fround_mono _ _ _ _ (by omega) (by norm_num) hpos ?_
    have hpq : q.natAbs ≤ p.natAbs * 10 ^ 10 := by
      have : (2 : Int) ^ 24 = 16777216 := by norm_num
      omega
    generalize (2 : Nat) ^ 149 = U
    generalize (2 : Nat) ^ 925 = V
    generalize (2 : Nat) ^ 1074 = T
    calc T * (q.natAbs * U * V) = q.natAbs * (U * V * T) := by ring
      _ ≤ p.natAbs * 10 ^ 10 * (U * V * T) := Nat.mul_le_mul_right _ hpq
      _ = p.natAbs * U * V * T * 10 ^ 10 := by ring
  generalize fround 53 (2 ^ 1074) (10 ^ 10) = t at *
  unfold mkDouble
  simp only
  generalize fround 53 (p.natAbs * 2 ^ 149 * 2 ^ 925 * 2 ^ 1074) (q.natAbs * 2 ^ 149 * 2 ^ 925) = u at *
  split
  · rfl
  · unfold lt signed
    simp only [bne_self_eq_false, Bool.false_eq_true, if_false, decide_eq_false_iff_not, not_lt]
    exact_mod_cast hm

theorem div_pos {x y : Flt} {p q : Int} (hx : x.Is p) (hy : y.Is q) (hp : 0 < p) (hq : 0 < q) (hq2 : q ≤ 2 ^ 24) :
    (x.divF y).lt .zero = false ∧ (x.divF y).feq .zero = false := by
  rw [hx.pos hp, hy.pos hq]
  unfold divF divWith
  simp only
  have hpos : 0 < q.natAbs * 2 ^ 149 := Nat.mul_pos (by omega) (Nat.two_pow_pos _)
  rw [if_neg (by omega)]
  have hm : 1 ≤ fround 24 (p.natAbs * 2 ^ 149 * 2 ^ 149) (q.natAbs * 2 ^ 149) := by
    refine rep_le_fround _ _ 1 (by omega) hpos (rep_of_lt (by norm_num)) ?_
    have hq3 : q.natAbs ≤ 2 ^ 149 := by
      have h1 : q.natAbs ≤ 2 ^ 24 := by
        have : (2 : Int) ^ 24 = 16777216 := by norm_num
        have : (2 : Nat) ^ 24 = 16777216 := by norm_num
        omega
      exact le_trans h1 (Nat.pow_le_pow_right (by omega) (by omega))
    have hp3 : 1 ≤ p.natAbs := by omega
    generalize (2 : Nat) ^ 149 = U at *
    rw [Nat.one_mul]
    refine Nat.mul_le_mul_right _ ?_
    nlinarith
  unfold mkFloat zero
  simp only
  generalize fround 24 (p.natAbs * 2 ^ 149 * 2 ^ 149) (q.natAbs * 2 ^ 149) = u at *
  split
  · exact ⟨rfl, rfl⟩
  · constructor
    · simp [lt, signed]
    · simp [feq, signed]; omega

end Flt

/-! ## Counting pixels -/

theorem list_eq_map_range (l : List α) (d : α) : l = (List.range l.length).map fun k => l.getD k d := by
  apply List.ext_getElem
  · simp
  · intro n h1 h2
    simp [List.getD_eq_getElem?_getD, h1]

theorem countP_eq_ncard (l : List α) (d : α) (P : α → Bool) (x y : Int) (w h : Nat) (hl : l.length = w * h) :
    l.countP P = Set.ncard {p : Int × Int | ∃ i j : Nat, i < h ∧ j < w ∧ p = (x + j, y + i) ∧ P (l.getD (j + i * w) d) = true} := by
  have h1 : l.countP P = ((Finset.range (w * h)).filter fun k => P (l.getD k d) = true).card := by
    conv_lhs => rw [list_eq_map_range l d, hl, List.countP_map]
    rw [List.countP_eq_length_filter, Finset.card_def, Finset.filter_val, Finset.range_val, Multiset.range, Multiset.filter_coe, Multiset.coe_card]
    congr 2
    funext k
    simp
  rw [h1, ← Set.ncard_coe_finset]
  have hinj : Set.InjOn (fun k : Nat => ((x + (k % w : Nat), y + (k / w : Nat)) : Int × Int)) ((Finset.range (w * h)).filter fun k => P (l.getD k d) = true : Finset Nat) := by
    intro a _ b _ hab
    simp only [Prod.mk.injEq] at hab
    have e1 : a % w = b % w := by omega
    have e2 : a / w = b / w := by omega
    rw [← Nat.div_add_mod a w, ← Nat.div_add_mod b w, e1, e2]
  rw [← hinj.ncard_image]
  congr 1
  ext p
  simp only [Set.mem_image, Finset.coe_filter, Finset.mem_range, Set.mem_ofPred_eq]
  constructor
  · rintro ⟨k, ⟨hk, hP⟩, rfl⟩
    have hw : 0 < w := Nat.pos_of_ne_zero (by rintro rfl; simp at hk)
    refine ⟨k / w, k % w, Nat.div_lt_of_lt_mul hk, Nat.mod_lt _ hw, rfl, ?_⟩
    rw [Nat.mul_comm, Nat.mod_add_div]; exact hP
  · rintro ⟨i, j, hi, hj, rfl, hP⟩
    have hw : 0 < w := by omega
    refine ⟨j + i * w, ⟨idx_lt hj hi, hP⟩, ?_⟩
    rw [Nat.add_mul_mod_self_right, Nat.mod_eq_of_lt hj, Nat.add_mul_div_right _ _ hw, Nat.div_eq_of_lt hj, Nat.zero_add]

/-- The counting loop with a `float` limit counts every element as long as the numbers are exact. -/
theorem countFloat_eq (limit : Flt) (l : List UInt8) (i : Nat) (h : limit.Is ((i + l.length : Nat) : Int)) (hb : i + l.length ≤ 2 ^ 24) :
    countFloat limit i l = .ok (l.countP fun v => v ≠ 0) := by
  have hlt : ∀ k : Nat, k ≤ 2 ^ 24 → ((Flt.ofInt k).lt limit = true ↔ k < i + l.length) := by
    intro k hk
    have hk' : (Flt.ofInt (k : Int)).Is k := Flt.ofInt_small (by
      rw [Int.abs_eq_natAbs, Int.natAbs_natCast]; exact_mod_cast hk)
    rw [Flt.lt_iff hk'.finite h.finite, hk'.value, h.value]
    norm_cast
  induction l generalizing i with
  | nil =>
    unfold countFloat
    rw [if_neg]
    · simp
    · rw [hlt i (by simpa using hb)]; simp
  | cons v vs ih =>
    unfold countFloat
    rw [if_pos ((hlt i (by omega)).mpr (by simp))]
    have e : i + (v :: vs).length = (i + 1) + vs.length := by rw [List.length_cons]; omega
    rw [e] at h hb
    rw [ih (i + 1) h hb (by rw [← e]; exact hlt)]
    rw [List.countP_cons]
    by_cases hv : v = 0 <;> simp [hv, Outcome.map]

/-- What the computation needs to know of a region: integer bounds, and windows with the pixels of a set. -/
structure Shape (R : Region) (S : Set (Int × Int)) (l t r b : Int) : Prop where
  bounds : ∃ B, computeBounds false R = .ok B ∧ B.left.Is l ∧ B.right.Is r ∧ B.top.Is t ∧ B.bottom.Is b
  window : ∀ (buf : List UInt8) (wx wy : Int) (w h : Nat), wx ≤ l → |wx| ≤ 2 ^ 22 → |wy| ≤ 2 ^ 22 → w ≤ 2 ^ 24 → h ≤ 2 ^ 24 → buf.length = w * h →
    w * h ≤ 2 ^ 24 → ∃ out, getMaskOffset false R buf wx wy w h = .ok out ∧ out.length = w * h ∧
      ∀ i j : Nat, i < h → j < w → (out.getD (j + i * w) 0 ≠ 0 ↔ (wx + j, wy + i) ∈ S)
  inside : ∀ p ∈ S, (l ≤ p.1 ∧ p.1 ≤ r) ∧ (t ≤ p.2 ∧ p.2 ≤ b)

theorem Shape.clipped {R : Region} {S : Set (Int × Int)} {l t r b : Int} (h : Shape R S l t r b) (B : Bounds)
    (hf : B.left.IsFinite ∧ B.right.IsFinite ∧ B.top.IsFinite ∧ B.bottom.IsFinite)
    (hb : B.left.value ≤ l ∧ (r : ℚ) ≤ B.right.value ∧ B.top.value ≤ t ∧ (b : ℚ) ≤ B.bottom.value) :
    ∃ C, clipped false R B = .ok C ∧ C.left.Is l ∧ C.right.Is r ∧ C.top.Is t ∧ C.bottom.Is b := by
  obtain ⟨D, h1, h2, h3, h4, h5⟩ := h.bounds
  refine ⟨_, by unfold Region.clipped; rw [h1]; rfl, ?_, ?_, ?_, ?_⟩
  · exact h2.floor.maxLeft hf.1 hb.1
  · exact h3.ceil.minLeft hf.2.1 hb.2.1
  · exact h4.floor.maxLeft hf.2.2.1 hb.2.2.1
  · exact h5.ceil.minLeft hf.2.2.2 hb.2.2.2

/-- The part of a region inside the bounds given to the computation: the box that is left of its bounds, and the pixels found in the
windows inside a frame. -/
structure Seen (bounds : Bounds) (R : Region) (S : Set (Int × Int)) (fx fy : Int) (fw fh : Nat) (l t r b : Int) : Prop where
  clipped : ∃ C, clipped false R bounds = .ok C ∧ C.left.Is l ∧ C.right.Is r ∧ C.top.Is t ∧ C.bottom.Is b
  window : ∀ (buf : List UInt8) (wx wy : Int) (w h : Nat), wx ≤ l → (fx ≤ wx ∧ wx + w ≤ fx + fw ∧ fy ≤ wy ∧ wy + h ≤ fy + fh) →
    |wx| ≤ 2 ^ 22 → |wy| ≤ 2 ^ 22 → w ≤ 2 ^ 24 → h ≤ 2 ^ 24 → buf.length = w * h →
    w * h ≤ 2 ^ 24 → ∃ out, getMaskOffset false R buf wx wy w h = .ok out ∧ out.length = w * h ∧
      ∀ i j : Nat, i < h → j < w → (out.getD (j + i * w) 0 ≠ 0 ↔ (wx + j, wy + i) ∈ S)
  inside : ∀ p ∈ S, (l ≤ p.1 ∧ p.1 ≤ r) ∧ (t ≤ p.2 ∧ p.2 ≤ b)

/-- Bounds that contain a region leave all of it. -/
theorem Shape.seen {R : Region} {S : Set (Int × Int)} {l t r b : Int} (h : Shape R S l t r b) (B : Bounds)
    (hf : B.left.IsFinite ∧ B.right.IsFinite ∧ B.top.IsFinite ∧ B.bottom.IsFinite)
    (hb : B.left.value ≤ l ∧ (r : ℚ) ≤ B.right.value ∧ B.top.value ≤ t ∧ (b : ℚ) ≤ B.bottom.value) (fx fy : Int) (fw fh : Nat) :
    Seen B R S fx fy fw fh l t r b :=
  ⟨h.clipped B hf hb, fun buf wx wy w h' h1 _ => h.window buf wx wy w h' h1, h.inside⟩

/-- Whole bounds cut a region to a frame; what is drawn inside the frame must not depend on the left end of the window when the cut is there. -/
theorem Shape.cut {R : Region} {S : Set (Int × Int)} {l t r b : Int} (hs : Shape R S l t r b) (B : Bounds) (fx fy : Int) (fw fh : Nat)
    (hl : B.left.Is fx) (hr : B.right.Is (fx + fw - 1)) (ht : B.top.Is fy) (hb : B.bottom.Is (fy + fh - 1))
    (hany : fx ≤ l ∨ ∀ (buf : List UInt8) (wx wy : Int) (w h : Nat), |wx| ≤ 2 ^ 22 → |wy| ≤ 2 ^ 22 → w ≤ 2 ^ 24 → h ≤ 2 ^ 24 →
      buf.length = w * h → w * h ≤ 2 ^ 24 → ∃ out, getMaskOffset false R buf wx wy w h = .ok out ∧ out.length = w * h ∧
      ∀ i j : Nat, i < h → j < w → (out.getD (j + i * w) 0 ≠ 0 ↔ (wx + j, wy + i) ∈ S)) :
    Seen B R {p | p ∈ S ∧ (fx ≤ p.1 ∧ p.1 < fx + fw) ∧ (fy ≤ p.2 ∧ p.2 < fy + fh)} fx fy fw fh (max l fx) (max t fy) (min r (fx + fw - 1)) (min b (fy + fh - 1)) := by
  obtain ⟨D, h1, h2, h3, h4, h5⟩ := hs.bounds
  refine ⟨⟨_, by unfold Region.clipped; rw [h1]; rfl, h2.floor.max hl, h3.ceil.min hr, h4.floor.max ht, h5.ceil.min hb⟩, ?_, ?_⟩
  · intro buf wx wy w h hwl hfr hwx hwy hw hh hbuf hsz
    obtain ⟨out, o1, o2, o3⟩ : ∃ out, getMaskOffset false R buf wx wy w h = .ok out ∧ out.length = w * h ∧
        ∀ i j : Nat, i < h → j < w → (out.getD (j + i * w) 0 ≠ 0 ↔ (wx + j, wy + i) ∈ S) := by
      rcases hany with hany | hany
      · exact hs.window buf wx wy w h (by omega) hwx hwy hw hh hbuf hsz
      · exact hany buf wx wy w h hwx hwy hw hh hbuf hsz
    refine ⟨out, o1, o2, fun i j hi hj => ?_⟩
    rw [o3 i j hi hj]
    simp only [Set.mem_ofPred_eq]
    exact ⟨fun h => ⟨h, by omega⟩, fun h => h.1⟩
  · rintro p ⟨hp, hq⟩
    have := hs.inside p hp
    omega

theorem getD_zip (m1 m2 : List UInt8) (k : Nat) (h : m1.length = m2.length) : (m1.zip m2).getD k (0, 0) = (m1.getD k 0, m2.getD k 0) := by
  simp only [List.getD_eq_getElem?_getD]
  have hz : (m1.zip m2).length = m1.length := by rw [List.length_zip]; omega
  by_cases hk : k < m1.length
  · have h1 : k < m2.length := by omega
    have h2 : k < (m1.zip m2).length := by omega
    rw [List.getElem?_eq_getElem h2, List.getElem?_eq_getElem hk, List.getElem?_eq_getElem h1]
    simp
  · have h1 : m2.length ≤ k := by omega
    have h2 : (m1.zip m2).length ≤ k := by omega
    rw [List.getElem?_eq_none h2, List.getElem?_eq_none h1, List.getElem?_eq_none (by omega)]
    rfl

/-- Both regions in a window that holds them: the numbers are the sizes of the pixel sets. -/
theorem commonOverlap_eq {ra rb : Region} {A B : Set (Int × Int)} {l1 t1 r1 b1 l2 t2 r2 b2 : Int} {bounds : Bounds} {fx fy : Int} {fw fh : Nat}
    (ha : Seen bounds ra A fx fy fw fh l1 t1 r1 b1) (hb : Seen bounds rb B fx fy fw fh l2 t2 r2 b2) (fresh : Nat → List UInt8) (hfresh : ∀ n, (fresh n).length = n)
    (x y : Int) (w h : Nat) (hfr : fx ≤ x ∧ x + w ≤ fx + fw ∧ fy ≤ y ∧ y + h ≤ fy + fh) (hl1 : x ≤ l1) (hl2 : x ≤ l2) (hx : |x| ≤ 2 ^ 22) (hy : |y| ≤ 2 ^ 22) (hw : 0 < w) (hh : 0 < h) (hsz : w * h ≤ 2 ^ 24)
    (hin : ∀ p ∈ A ∪ B, (x ≤ p.1 ∧ p.1 < x + w) ∧ (y ≤ p.2 ∧ p.2 < y + h)) :
    commonOverlap false fresh ra rb x y w h =
      .ok ⟨ratio (A ∩ B).ncard ((A \ B).ncard + (B \ A).ncard + (A ∩ B).ncard),
        ratio (A \ B).ncard ((A \ B).ncard + (B \ A).ncard + (A ∩ B).ncard),
        ratio (B \ A).ncard ((A \ B).ncard + (B \ A).ncard + (A ∩ B).ncard)⟩ := by
  have hw2 : w ≤ 2 ^ 24 := le_trans (Nat.le_mul_of_pos_right _ hh) hsz
  have hh2 : h ≤ 2 ^ 24 := le_trans (Nat.le_mul_of_pos_left _ hw) hsz
  have hn : ((w : Int) * h).toNat = w * h := by rw [← Int.natCast_mul, Int.toNat_natCast]
  obtain ⟨m1, g1, n1, p1⟩ := ha.window (fresh (w * h)) x y w h hl1 hfr hx hy hw2 hh2 (hfresh _) hsz
  obtain ⟨m2, g2, n2, p2⟩ := hb.window (fresh (w * h)) x y w h hl2 hfr hx hy hw2 hh2 (hfresh _) hsz
  have hc : ∀ (P : UInt8 × UInt8 → Bool) (S : Set (Int × Int)), S ⊆ A ∪ B →
      (∀ u v : UInt8, ∀ p : Int × Int, (u ≠ 0 ↔ p ∈ A) → (v ≠ 0 ↔ p ∈ B) → (P (u, v) = true ↔ p ∈ S)) → (m1.zip m2).countP P = S.ncard := by
    intro P S hS hP
    rw [countP_eq_ncard (m1.zip m2) (0, 0) P x y w h (by rw [List.length_zip, n1, n2]; exact min_self _)]
    congr 1
    ext p
    simp only [Set.mem_ofPred_eq]
    constructor
    · rintro ⟨i, j, hi, hj, rfl, hp⟩
      rw [getD_zip _ _ _ (n1.trans n2.symm)] at hp
      exact (hP _ _ _ (p1 i j hi hj) (p2 i j hi hj)).mp hp
    · intro hp
      have := hin p (hS hp)
      obtain ⟨p1', p2'⟩ := p
      simp only at this
      have e : ((x + ((p1' - x).toNat : Int), y + ((p2' - y).toNat : Int)) : Int × Int) = (p1', p2') := by
        rw [Prod.mk.injEq]; omega
      refine ⟨(p2' - y).toNat, (p1' - x).toNat, by omega, by omega, e.symm, ?_⟩
      rw [getD_zip _ _ _ (n1.trans n2.symm)]
      have q1 := p1 (p2' - y).toNat (p1' - x).toNat (by omega) (by omega)
      have q2 := p2 (p2' - y).toNat (p1' - x).toNat (by omega) (by omega)
      rw [e] at q1 q2
      exact (hP _ _ _ q1 q2).mpr hp
  unfold commonOverlap createMask
  rw [if_pos ⟨by omega, by omega⟩, Outcome.bind_ok, hn, g1, Outcome.bind_ok, g2, Outcome.bind_ok]
  simp only
  rw [hc _ (A ∩ B) (fun p hp => .inl hp.1), hc _ (A \ B) (fun p hp => .inl hp.1), hc _ (B \ A) (fun p hp => .inr hp.1)]
  · intro u v p h1 h2
    rw [decide_eq_true_iff, Set.mem_sdiff, ← h1, ← h2]; tauto
  · intro u v p h1 h2
    rw [decide_eq_true_iff, Set.mem_sdiff, ← h1, ← h2]; tauto
  · intro u v p h1 h2
    rw [decide_eq_true_iff, Set.mem_inter_iff, ← h1, ← h2]

/-- A region in the window of its bounds: the number is the size of the pixel set. -/
theorem Seen.count {R : Region} {S : Set (Int × Int)} {l t r b : Int} {bounds : Bounds} {fx fy : Int} {fw fh : Nat} (hs : Seen bounds R S fx fy fw fh l t r b) (fresh : Nat → List UInt8)
    (hfresh : ∀ n, (fresh n).length = n) (hl : |l| ≤ 2 ^ 22) (ht : |t| ≤ 2 ^ 22) (w h : Nat) (hw : r - l + 1 = w) (hh : b - t + 1 = h)
    (hw0 : 0 < w) (hh0 : 0 < h) (hsz : w * h ≤ 2 ^ 24) (hfr : fx ≤ l ∧ l + w ≤ fx + fw ∧ fy ≤ t ∧ t + h ≤ fy + fh) :
    ∃ out, getMaskOffset false R (fresh (w * h)) l t w h = .ok out ∧ out.length = w * h ∧ out.countP (fun v => v ≠ 0) = S.ncard := by
  have hw2 : w ≤ 2 ^ 24 := le_trans (Nat.le_mul_of_pos_right _ hh0) hsz
  have hh2 : h ≤ 2 ^ 24 := le_trans (Nat.le_mul_of_pos_left _ hw0) hsz
  obtain ⟨m, g, n, p⟩ := hs.window (fresh (w * h)) l t w h le_rfl hfr hl ht hw2 hh2 (hfresh _) hsz
  refine ⟨m, g, n, ?_⟩
  rw [countP_eq_ncard m 0 _ l t w h n]
  congr 1
  ext q
  simp only [Set.mem_ofPred_eq]
  constructor
  · rintro ⟨i, j, hi, hj, rfl, hp⟩
    exact (p i j hi hj).mp (by simpa using hp)
  · intro hq
    have := hs.inside q hq
    obtain ⟨a, c⟩ := q
    simp only at this
    have e : ((l + ((a - l).toNat : Int), t + ((c - t).toNat : Int)) : Int × Int) = (a, c) := by
      rw [Prod.mk.injEq]; omega
    refine ⟨(c - t).toNat, (a - l).toNat, by omega, by omega, e.symm, ?_⟩
    have q1 := p (c - t).toNat (a - l).toNat (by omega) (by omega)
    rw [e] at q1
    simpa using q1.mpr hq

theorem mul_le_frame {a b c d : Int} (ha : 0 ≤ a) (hb : 0 ≤ b) (hac : a ≤ c) (hbd : b ≤ d) : a * b ≤ c * d :=
  Int.mul_le_mul hac hbd hb (le_trans ha hac)

theorem Bounds.area_is {C : Bounds} {l r t b : Int} (c2 : C.left.Is l) (c3 : C.right.Is r) (c4 : C.top.Is t) (c5 : C.bottom.Is b)
    (hl : |l| ≤ 2 ^ 22) (hr : |r| ≤ 2 ^ 22) (ht : |t| ≤ 2 ^ 22) (hb : |b| ≤ 2 ^ 22) (h : |(r - l) * (b - t)| ≤ 2 ^ 24) :
    C.area.Is ((r - l) * (b - t)) := by
  have h22 : (2 : Int) ^ 22 = 4194304 := by norm_num
  have h24 : (2 : Int) ^ 24 = 16777216 := by norm_num
  rw [h22, Int.abs_eq_natAbs] at hl hr ht hb
  exact (c3.sub c2 (by rw [h24, Int.abs_eq_natAbs]; omega)).mul (c5.sub c4 (by rw [h24, Int.abs_eq_natAbs]; omega)) h

/-- The limits of a box in a frame of at most 2^23 pixels. -/
structure InFrame (fx fy : Int) (fw fh : Nat) (l t r b : Int) : Prop where
  lr : l < r
  tb : t < b
  l22 : |l| ≤ 2 ^ 22
  r22 : |r| ≤ 2 ^ 22
  t22 : |t| ≤ 2 ^ 22
  b22 : |b| ≤ 2 ^ 22
  fl : fx ≤ l
  fr : r < fx + fw
  ft : fy ≤ t
  fb : b < fy + fh

theorem small24 {n : Int} (h0 : 0 ≤ n) (h : n ≤ 16777216) : |n| ≤ 2 ^ 24 := by
  rw [abs_of_nonneg h0]
  exact le_trans h (by norm_num)

theorem diff24 {a b : Int} (h1 : |a| ≤ 2 ^ 22) (h2 : |b| ≤ 2 ^ 22) : |a - b| ≤ 2 ^ 24 ∧ |a - b + 1| ≤ 2 ^ 24 := by
  have h22 : (2 : Int) ^ 22 = 4194304 := by norm_num
  have h24 : (2 : Int) ^ 24 = 16777216 := by norm_num
  rw [h22, Int.abs_eq_natAbs] at h1 h2
  rw [h24, Int.abs_eq_natAbs, Int.abs_eq_natAbs]
  omega

theorem int32_of22 {a : Int} (h1 : |a| ≤ 2 ^ 22) : InInt32 a := by
  have h22 : (2 : Int) ^ 22 = 4194304 := by norm_num
  rw [h22, Int.abs_eq_natAbs] at h1
  unfold InInt32
  omega

theorem int32_of24 {a : Int} (h1 : |a| ≤ 2 ^ 24) : InInt32 a := by
  have h22 : (2 : Int) ^ 24 = 16777216 := by norm_num
  rw [h22, Int.abs_eq_natAbs] at h1
  unfold InInt32
  omega

theorem max22 {a b : Int} (h1 : |a| ≤ 2 ^ 22) (h2 : |b| ≤ 2 ^ 22) : |max a b| ≤ 2 ^ 22 := by
  rcases max_choice a b with h | h <;> rw [h] <;> assumption

theorem min22 {a b : Int} (h1 : |a| ≤ 2 ^ 22) (h2 : |b| ≤ 2 ^ 22) : |min a b| ≤ 2 ^ 22 := by
  rcases min_choice a b with h | h <;> rw [h] <;> assumption

theorem to24 {a : Int} (h1 : |a| ≤ 2 ^ 22) : |a| ≤ 2 ^ 24 := le_trans h1 (by norm_num)

theorem InFrame.area {fx fy : Int} {fw fh : Nat} {l t r b : Int} (h : InFrame fx fy fw fh l t r b) (hs : (fw : Int) * fh ≤ 8388608) :
    0 < (r - l) * (b - t) ∧ (r - l) * (b - t) ≤ 8388608 := by
  obtain ⟨lr, tb, -, -, -, -, fl, fr, ft, fb⟩ := h
  exact ⟨Int.mul_pos (by omega) (by omega), le_trans (mul_le_frame (by omega) (by omega) (by omega) (by omega)) hs⟩

theorem InFrame.areaIs {fx fy : Int} {fw fh : Nat} {l t r b : Int} (h : InFrame fx fy fw fh l t r b) (hs : (fw : Int) * fh ≤ 8388608)
    {C : Bounds} (c2 : C.left.Is l) (c3 : C.right.Is r) (c4 : C.top.Is t) (c5 : C.bottom.Is b) :
    C.area.Is ((r - l) * (b - t)) :=
  Bounds.area_is c2 c3 c4 c5 h.l22 h.r22 h.t22 h.b22 (small24 (le_of_lt (h.area hs).1) (le_trans (h.area hs).2 (by norm_num)))

/-- The window of one region in the branch for disjoint bounds. -/
theorem Seen.disjointCount {R : Region} {S : Set (Int × Int)} {l t r b : Int} {bounds : Bounds} {fx fy : Int} {fw fh : Nat} (hs : Seen bounds R S fx fy fw fh l t r b) (fresh : Nat → List UInt8)
    (hfresh : ∀ n, (fresh n).length = n) (hf : InFrame fx fy fw fh l t r b) (hfs : (fw : Int) * fh ≤ 8388608)
    {C : Bounds} (c2 : C.left.Is l) (c3 : C.right.Is r) (c4 : C.top.Is t) (c5 : C.bottom.Is b) :
    ∃ (w h : Nat) (m : List UInt8), C.left.toInt = .ok l ∧ C.top.toInt = .ok t ∧ ((C.right.subF C.left).addF .one).toInt = .ok (w : Int) ∧
      ((C.bottom.subF C.top).addF .one).toInt = .ok (h : Int) ∧ (0 : Int) < w ∧ (0 : Int) < h ∧
      getMaskOffset false R (fresh (((w : Int) * h).toNat)) l t w h = .ok m ∧
      countFloat (((C.right.subF C.left).addF .one).mulF ((C.bottom.subF C.top).addF .one)) 0 m = .ok S.ncard ∧ S.ncard ≤ 8388608 := by
  obtain ⟨w, hw⟩ : ∃ w : Nat, r - l + 1 = w := ⟨(r - l + 1).toNat, by have := hf.lr; omega⟩
  obtain ⟨h, hh⟩ : ∃ w : Nat, b - t + 1 = w := ⟨(b - t + 1).toNat, by have := hf.tb; omega⟩
  have hlr := hf.lr
  have htb := hf.tb
  have si : (w : Int) * h ≤ 8388608 := by
    obtain ⟨-, -, -, -, -, -, fl, fr, ft, fb⟩ := hf
    exact le_trans (mul_le_frame (by omega) (by omega) (by omega) (by omega)) hfs
  have s : w * h ≤ 8388608 := by exact_mod_cast si
  have s24 : w * h ≤ 2 ^ 24 := le_trans s (by norm_num)
  obtain ⟨m, g, n, v⟩ := hs.count fresh hfresh hf.l22 hf.t22 w h hw hh (by omega) (by omega) s24
    (by obtain ⟨-, -, -, -, -, -, fl, fr, ft, fb⟩ := hf; omega)
  have fw1 : ((C.right.subF C.left).addF .one).Is w := by
    rw [← hw]; exact (c3.sub c2 (diff24 hf.r22 hf.l22).1).add Flt.one_is (diff24 hf.r22 hf.l22).2
  have fh1 : ((C.bottom.subF C.top).addF .one).Is h := by
    rw [← hh]; exact (c5.sub c4 (diff24 hf.b22 hf.t22).1).add Flt.one_is (diff24 hf.b22 hf.t22).2
  have a1 : (((C.right.subF C.left).addF .one).mulF ((C.bottom.subF C.top).addF .one)).Is ((0 + m.length : Nat) : Int) := by
    rw [n, Nat.zero_add, Int.natCast_mul]
    exact fw1.mul fh1 (small24 (by positivity) (le_trans si (by norm_num)))
  have cf := countFloat_eq _ m 0 a1 (by rw [n, Nat.zero_add]; exact s24)
  rw [v] at cf
  refine ⟨w, h, m, c2.toInt (int32_of22 hf.l22), c4.toInt (int32_of22 hf.t22), fw1.toInt ?_, fh1.toInt ?_, by omega, by omega, ?_, cf, ?_⟩
  · rw [← hw]; exact int32_of24 (diff24 hf.r22 hf.l22).2
  · rw [← hh]; exact int32_of24 (diff24 hf.b22 hf.t22).2
  · rw [← Int.natCast_mul, Int.toNat_natCast]; exact g
  · rw [← v]
    have : m.countP (fun v => v ≠ 0) ≤ m.length := List.countP_le_length
    omega

theorem disjointOverlap_eq {ra rb : Region} {A B : Set (Int × Int)} {l1 t1 r1 b1 l2 t2 r2 b2 : Int} {bounds : Bounds} {fx fy : Int} {fw fh : Nat}
    (ha : Seen bounds ra A fx fy fw fh l1 t1 r1 b1) (hb : Seen bounds rb B fx fy fw fh l2 t2 r2 b2) (fresh : Nat → List UInt8) (hfresh : ∀ n, (fresh n).length = n)
    (hf1 : InFrame fx fy fw fh l1 t1 r1 b1) (hf2 : InFrame fx fy fw fh l2 t2 r2 b2) (hfs : (fw : Int) * fh ≤ 8388608)
    {C D : Bounds} (c2 : C.left.Is l1) (c3 : C.right.Is r1) (c4 : C.top.Is t1) (c5 : C.bottom.Is b1)
    (d2 : D.left.Is l2) (d3 : D.right.Is r2) (d4 : D.top.Is t2) (d5 : D.bottom.Is b2) :
    disjointOverlap false fresh ra rb C D = .ok ⟨.zero, ratio A.ncard (A.ncard + B.ncard), ratio B.ncard (A.ncard + B.ncard)⟩ := by
  obtain ⟨w1, h1, m1, p1, p2, p3, p4, p5, p6, p7, p8, p9⟩ := ha.disjointCount fresh hfresh hf1 hfs c2 c3 c4 c5
  obtain ⟨w2, h2, m2, q1, q2, q3, q4, q5, q6, q7, q8, q9⟩ := hb.disjointCount fresh hfresh hf2 hfs d2 d3 d4 d5
  unfold disjointOverlap createMask
  simp only
  rw [p1, Outcome.bind_ok, p2, Outcome.bind_ok, p3, Outcome.bind_ok, p4, Outcome.bind_ok, if_pos ⟨p5, p6⟩, Outcome.bind_ok,
    q1, Outcome.bind_ok, q2, Outcome.bind_ok, q3, Outcome.bind_ok, q4, Outcome.bind_ok, if_pos ⟨q5, q6⟩, Outcome.bind_ok,
    p7, Outcome.bind_ok, q7, Outcome.bind_ok, p8, Outcome.bind_ok, q8, Outcome.bind_ok,
    chk32_ok (by unfold InInt32; omega), Outcome.bind_ok]

/-- The common window of two boxes in a frame. -/
theorem InFrame.window {fx fy : Int} {fw fh : Nat} {l1 t1 r1 b1 l2 t2 r2 b2 : Int} (hf1 : InFrame fx fy fw fh l1 t1 r1 b1)
    (hf2 : InFrame fx fy fw fh l2 t2 r2 b2) (hfs : (fw : Int) * fh ≤ 8388608) :
    ∃ w h : Nat, max r1 r2 - min l1 l2 + 1 = w ∧ max b1 b2 - min t1 t2 + 1 = h ∧ 0 < w ∧ 0 < h ∧ w * h ≤ 2 ^ 24 := by
  obtain ⟨lr, tb, -, -, -, -, fl, fr, ft, fb⟩ := hf1
  obtain ⟨lr2, tb2, -, -, -, -, fl2, fr2, ft2, fb2⟩ := hf2
  obtain ⟨w, hw⟩ : ∃ w : Nat, max r1 r2 - min l1 l2 + 1 = w := ⟨(max r1 r2 - min l1 l2 + 1).toNat, by omega⟩
  obtain ⟨h, hh⟩ : ∃ h : Nat, max b1 b2 - min t1 t2 + 1 = h := ⟨(max b1 b2 - min t1 t2 + 1).toNat, by omega⟩
  refine ⟨w, h, hw, hh, by omega, by omega, ?_⟩
  have : (w : Int) * h ≤ fw * fh := mul_le_frame (by omega) (by omega) (by omega) (by omega)
  have : w * h ≤ 8388608 := by exact_mod_cast le_trans this hfs
  exact le_trans this (by norm_num)

/-- Bounds that share two columns and two rows are not taken to be disjoint. -/
theorem overlap_pos {fx fy : Int} {fw fh : Nat} {l1 t1 r1 b1 l2 t2 r2 b2 : Int} (hf1 : InFrame fx fy fw fh l1 t1 r1 b1)
    (hf2 : InFrame fx fy fw fh l2 t2 r2 b2) (hfs : (fw : Int) * fh ≤ 8388608)
    {C D : Bounds} (c2 : C.left.Is l1) (c3 : C.right.Is r1) (c4 : C.top.Is t1) (c5 : C.bottom.Is b1)
    (d2 : D.left.Is l2) (d3 : D.right.Is r2) (d4 : D.top.Is t2) (d5 : D.bottom.Is b2)
    (o1 : max l1 l2 < min r1 r2) (o2 : max t1 t2 < min b1 b2) : (C.overlap D).feq .zero = false := by
  have hA1 := hf1.areaIs hfs c2 c3 c4 c5
  have hA2 := hf2.areaIs hfs d2 d3 d4 d5
  obtain ⟨A1, A1'⟩ := hf1.area hfs
  obtain ⟨A2, A2'⟩ := hf2.area hfs
  have Ipos : 0 < (min r1 r2 - max l1 l2) * (min b1 b2 - max t1 t2) := Int.mul_pos (by omega) (by omega)
  have Ile : (min r1 r2 - max l1 l2) * (min b1 b2 - max t1 t2) ≤ (r1 - l1) * (b1 - t1) :=
    mul_le_frame (by omega) (by omega) (by omega) (by omega)
  have hI : (C.inter D).area.Is ((min r1 r2 - max l1 l2) * (min b1 b2 - max t1 t2)) :=
    Bounds.area_is (C := C.inter D) (c2.max d2) (c3.min d3) (c4.max d4) (c5.min d5) (max22 hf1.l22 hf2.l22) (min22 hf1.r22 hf2.r22)
      (max22 hf1.t22 hf2.t22) (min22 hf1.b22 hf2.b22) (small24 (le_of_lt Ipos) (le_trans (le_trans Ile A1') (by norm_num)))
  generalize (min r1 r2 - max l1 l2) * (min b1 b2 - max t1 t2) = I at *
  generalize (r1 - l1) * (b1 - t1) = a1 at *
  generalize (r2 - l2) * (b2 - t2) = a2 at *
  have hden := (hA1.add hA2 (small24 (by omega) (by omega))).sub hI (small24 (by omega) (by omega))
  obtain ⟨z1, z2⟩ := Flt.div_pos hI hden Ipos (by omega) (le_trans (show a1 + a2 - I ≤ 16777216 by omega) (by norm_num))
  unfold Bounds.overlap
  simp only
  rw [z1, if_neg (by simp), z2]

/-- The overlap of what is seen of two regions inside a frame of at most 2^23 pixels. -/
theorem shape_overlap {ra rb : Region} {A B : Set (Int × Int)} {l1 t1 r1 b1 l2 t2 r2 b2 : Int} {bounds : Bounds} {fx fy : Int} {fw fh : Nat}
    (ha : Seen bounds ra A fx fy fw fh l1 t1 r1 b1) (hb : Seen bounds rb B fx fy fw fh l2 t2 r2 b2) (fresh : Nat → List UInt8) (hfresh : ∀ n, (fresh n).length = n)
    (hf1 : InFrame fx fy fw fh l1 t1 r1 b1) (hf2 : InFrame fx fy fw fh l2 t2 r2 b2) (hfs : (fw : Int) * fh ≤ 8388608)
    (hov : (max l1 l2 < min r1 r2 ∧ max t1 t2 < min b1 b2) ∨ A ∩ B = ∅) :
    ∃ o, computeOverlap false fresh ra rb bounds = .ok o ∧
      (o.overlap = ratio (A ∩ B).ncard ((A \ B).ncard + (B \ A).ncard + (A ∩ B).ncard) ∨ (A ∩ B = ∅ ∧ o.overlap = .zero)) ∧
      o.only1 = ratio (A \ B).ncard ((A \ B).ncard + (B \ A).ncard + (A ∩ B).ncard) ∧
      o.only2 = ratio (B \ A).ncard ((A \ B).ncard + (B \ A).ncard + (A ∩ B).ncard) := by
  obtain ⟨C, c1, c2, c3, c4, c5⟩ := ha.clipped
  obtain ⟨D, d1, d2, d3, d4, d5⟩ := hb.clipped
  have hA1 := hf1.areaIs hfs c2 c3 c4 c5
  have hA2 := hf2.areaIs hfs d2 d3 d4 d5
  obtain ⟨A1, A1'⟩ := hf1.area hfs
  obtain ⟨A2, A2'⟩ := hf2.area hfs
  obtain ⟨w, h, hw, hh, hw0, hh0, hwh⟩ := hf1.window hf2 hfs
  have hfr : fx ≤ min l1 l2 ∧ min l1 l2 + w ≤ fx + fw ∧ fy ≤ min t1 t2 ∧ min t1 t2 + h ≤ fy + fh := by
    obtain ⟨-, -, -, -, -, -, fl, fr, ft, fb⟩ := hf1
    obtain ⟨-, -, -, -, -, -, fl2, fr2, ft2, fb2⟩ := hf2
    omega
  have ml := min22 hf1.l22 hf2.l22
  have mt := min22 hf1.t22 hf2.t22
  have mr := max22 hf1.r22 hf2.r22
  have mb := max22 hf1.b22 hf2.b22
  have hx : (C.left.minF D.left).toInt = .ok (min l1 l2) := (c2.min d2).toInt (int32_of22 ml)
  have hy : (C.top.minF D.top).toInt = .ok (min t1 t2) := (c4.min d4).toInt (int32_of22 mt)
  have ew : ((C.right.maxF D.right).subF (.ofInt (min l1 l2))).toInt = .ok (max r1 r2 - min l1 l2) :=
    ((c3.max d3).sub (Flt.ofInt_small (to24 ml)) (diff24 mr ml).1).toInt (int32_of24 (diff24 mr ml).1)
  have eh : ((C.bottom.maxF D.bottom).subF (.ofInt (min t1 t2))).toInt = .ok (max b1 b2 - min t1 t2) :=
    ((c5.max d5).sub (Flt.ofInt_small (to24 mt)) (diff24 mb mt).1).toInt (int32_of24 (diff24 mb mt).1)
  have le24 : ∀ n : Int, n ≤ 8388608 → n ≤ 2 ^ 24 := fun n hn => le_trans hn (by norm_num)
  unfold computeOverlap
  rw [c1, Outcome.bind_ok, d1, Outcome.bind_ok, hx, Outcome.bind_ok, hy, Outcome.bind_ok, ew, Outcome.bind_ok,
    chk32_ok (int32_of24 (diff24 mr ml).2), Outcome.bind_ok, eh, Outcome.bind_ok,
    chk32_ok (int32_of24 (diff24 mb mt).2), Outcome.bind_ok]
  simp only
  rw [Flt.not_tiny hA1 hA2 A1 A2 (le24 _ A2'), Flt.not_tiny hA2 hA1 A2 A1 (le24 _ A1'), hw, hh,
    decide_eq_false (show ¬ (w : Int) < 1 by omega), decide_eq_false (show ¬ (h : Int) < 1 by omega)]
  rw [if_neg (by simp)]
  by_cases hz : (C.overlap D).feq .zero = true
  · rw [if_pos hz, disjointOverlap_eq ha hb fresh hfresh hf1 hf2 hfs c2 c3 c4 c5 d2 d3 d4 d5]
    have hdis : A ∩ B = ∅ := by
      rcases hov with ⟨o1, o2⟩ | hov
      · rw [overlap_pos hf1 hf2 hfs c2 c3 c4 c5 d2 d3 d4 d5 o1 o2] at hz
        exact absurd hz (by simp)
      · exact hov
    have e1 : A \ B = A := (Set.disjoint_iff_inter_eq_empty.mpr hdis).sdiff_eq_left
    have e2 : B \ A = B := (Set.disjoint_iff_inter_eq_empty.mpr (by rw [Set.inter_comm]; exact hdis)).sdiff_eq_left
    refine ⟨_, rfl, .inr ⟨hdis, rfl⟩, ?_, ?_⟩
    · rw [e1, e2, hdis, Set.ncard_empty, Nat.add_zero]
    · rw [e1, e2, hdis, Set.ncard_empty, Nat.add_zero]
  · rw [if_neg hz]
    refine ⟨_, commonOverlap_eq ha hb fresh hfresh _ _ w h hfr (min_le_left _ _) (min_le_right _ _) ml mt hw0 hh0 hwh ?_, .inl rfl, rfl, rfl⟩
    rintro p (hp | hp)
    · have := ha.inside p hp
      omega
    · have := hb.inside p hp
      omega

end Trax
