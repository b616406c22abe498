import Verif.Model.Geometry
import Verif.Lemmas.FloatOps

/-!
# Lemmas about bounds
-/

namespace Trax
open Flt

theorem foldl_minF (xs : List Flt) (a : Flt) (ha : a.IsFinite) (hx : ∀ x ∈ xs, x.IsFinite) :
    (xs.foldl minF a).IsFinite ∧ (xs.foldl minF a).value ≤ a.value ∧ (∀ x ∈ xs, (xs.foldl minF a).value ≤ x.value) ∧
    (xs.foldl minF a = a ∨ xs.foldl minF a ∈ xs) := by
  induction xs generalizing a with
  | nil => simp [ha]
  | cons x xs ih =>
    have hxf := hx x (by simp)
    obtain ⟨h1, h2, h3, h4⟩ := ih (a.minF x) (minF_finite ha hxf) fun y hy => hx y (by simp [hy])
    rw [minF_value ha hxf] at h2
    rw [List.foldl_cons]
    refine ⟨h1, le_trans h2 (min_le_left _ _), ?_, ?_⟩
    · intro y hy
      rcases List.mem_cons.mp hy with rfl | hy
      · exact le_trans h2 (min_le_right _ _)
      · exact h3 y hy
    · rcases h4 with h4 | h4
      · rw [h4]
        rcases minF_cases a x with h | h <;> rw [h] <;> simp
      · exact .inr (List.mem_cons_of_mem _ h4)

theorem foldl_maxF (xs : List Flt) (a : Flt) (ha : a.IsFinite) (hx : ∀ x ∈ xs, x.IsFinite) :
    (xs.foldl maxF a).IsFinite ∧ a.value ≤ (xs.foldl maxF a).value ∧ (∀ x ∈ xs, x.value ≤ (xs.foldl maxF a).value) ∧
    (xs.foldl maxF a = a ∨ xs.foldl maxF a ∈ xs) := by
  induction xs generalizing a with
  | nil => simp [ha]
  | cons x xs ih =>
    have hxf := hx x (by simp)
    obtain ⟨h1, h2, h3, h4⟩ := ih (a.maxF x) (maxF_finite ha hxf) fun y hy => hx y (by simp [hy])
    rw [maxF_value ha hxf] at h2
    rw [List.foldl_cons]
    refine ⟨h1, le_trans (le_max_left _ _) h2, ?_, ?_⟩
    · intro y hy
      rcases List.mem_cons.mp hy with rfl | hy
      · exact le_trans (le_max_right _ _) h2
      · exact h3 y hy
    · rcases h4 with h4 | h4
      · rw [h4]
        rcases maxF_cases a x with h | h <;> rw [h] <;> simp
      · exact .inr (List.mem_cons_of_mem _ h4)

theorem foldl_extend (ps : List (Flt × Flt)) (b : Bounds) : ps.foldl Bounds.extend b =
    ⟨(ps.map (·.2)).foldl minF b.top, (ps.map (·.2)).foldl maxF b.bottom,
     (ps.map (·.1)).foldl minF b.left, (ps.map (·.1)).foldl maxF b.right⟩ := by
  induction ps generalizing b with
  | nil => rfl
  | cons p ps ih => rw [List.foldl_cons, ih]; rfl

/-- A smallest element: from a start value that no element exceeds. -/
theorem foldl_minF_mem (xs : List Flt) (a : Flt) (ha : a.IsFinite) (hx : ∀ x ∈ xs, x.IsFinite)
    (y : Flt) (hy : y ∈ xs) (hya : y.value ≤ a.value) : ∃ z ∈ xs, z.value = (xs.foldl minF a).value := by
  obtain ⟨_, _, h3, h4⟩ := foldl_minF xs a ha hx
  rcases h4 with h4 | h4
  · refine ⟨y, hy, le_antisymm ?_ (h3 y hy)⟩
    rw [h4]; exact hya
  · exact ⟨_, h4, rfl⟩

theorem foldl_maxF_mem (xs : List Flt) (a : Flt) (ha : a.IsFinite) (hx : ∀ x ∈ xs, x.IsFinite)
    (y : Flt) (hy : y ∈ xs) (hya : a.value ≤ y.value) : ∃ z ∈ xs, z.value = (xs.foldl maxF a).value := by
  obtain ⟨_, _, h3, h4⟩ := foldl_maxF xs a ha hx
  rcases h4 with h4 | h4
  · refine ⟨y, hy, le_antisymm (h3 y hy) ?_⟩
    rw [h4]; exact hya
  · exact ⟨_, h4, rfl⟩

/-- The foreground pixels are those that the data says. -/
theorem mem_foreground (w h : Nat) (data : List UInt8) (j i : Nat) :
    (j, i) ∈ Bounds.foreground w h data ↔ j < w ∧ i < h ∧ data.getD (j + i * w) 0 ≠ 0 := by
  unfold Bounds.foreground
  rw [List.mem_flatMap]
  constructor
  · rintro ⟨i', hi', h⟩
    obtain ⟨j', hj', he⟩ := List.mem_map.mp h
    obtain ⟨h1, h2⟩ := List.mem_filter.mp hj'
    simp only [Prod.mk.injEq] at he
    obtain ⟨rfl, rfl⟩ := he
    exact ⟨List.mem_range.mp h1, List.mem_range.mp hi', by simpa using h2⟩
  · rintro ⟨h1, h2, h3⟩
    exact ⟨i, List.mem_range.mpr h2, List.mem_map.mpr ⟨j, List.mem_filter.mpr ⟨List.mem_range.mpr h1, by simpa using h3⟩, rfl⟩⟩

theorem foldl_extend_map {α : Type} (l : List α) (f : α → Flt × Flt) (b : Bounds) :
    l.foldl (fun b p => Bounds.extend b (f p)) b = (l.map f).foldl Bounds.extend b := by
  rw [List.foldl_map]

/-- The fold over whole numbers: the result is a whole number of the list. -/
theorem foldl_minF_is (ns : List Int) (hs : ∀ n ∈ ns, |n| ≤ 2 ^ 24) (hne : ns ≠ []) :
    ∃ m ∈ ns, ((ns.map Flt.ofInt).foldl minF fltMax).Is m ∧ ∀ n ∈ ns, m ≤ n := by
  have hfin : ∀ x ∈ ns.map Flt.ofInt, x.IsFinite := by
    intro x hx
    obtain ⟨n, hn, rfl⟩ := List.mem_map.mp hx
    exact (ofInt_small (hs n hn)).finite
  have hle : ∀ n ∈ ns, (Flt.ofInt n).value ≤ fltMax.value := fun n hn =>
    le_fltMax ((ofInt_small (hs n hn)).isFloat (rep24_small (hs n hn)).1 (rep24_small (hs n hn)).2)
  obtain ⟨n0, hn0⟩ := List.exists_mem_of_ne_nil ns hne
  obtain ⟨h1, h2, h3, h4⟩ := foldl_minF (ns.map Flt.ofInt) fltMax fltMax_finite hfin
  have key : ∀ m ∈ ns, ((ns.map Flt.ofInt).foldl minF fltMax).Is m →
      ∃ m ∈ ns, ((ns.map Flt.ofInt).foldl minF fltMax).Is m ∧ ∀ n ∈ ns, m ≤ n := by
    intro m hm his
    refine ⟨m, hm, his, fun n hn => ?_⟩
    have := h3 _ (List.mem_map.mpr ⟨n, hn, rfl⟩)
    rw [his.value, (ofInt_small (hs n hn)).value] at this
    exact_mod_cast this
  rcases h4 with h4 | h4
  · exfalso
    have := h3 _ (List.mem_map.mpr ⟨n0, hn0, rfl⟩)
    rw [h4, (ofInt_small (hs n0 hn0)).value] at this
    have h5 := (abs_le.mp (hs n0 hn0)).2
    have h6 : (fltMax.value : ℚ) ≤ 2 ^ 24 := le_trans this (by exact_mod_cast h5)
    revert h6
    unfold fltMax
    rw [value_fin, div_le_iff₀ U_pos]
    rw [show (signed false ((2 ^ 24 - 1) * 2 ^ 253) : Int) = (((2 ^ 24 - 1) * 2 ^ 253 : Nat) : Int) from rfl]
    intro h6
    have h7 : ((2 ^ 24 - 1) * 2 ^ 253 : Nat) ≤ 2 ^ 24 * 2 ^ 149 := by exact_mod_cast h6
    revert h7; decide
  · obtain ⟨m, hm, he⟩ := List.mem_map.mp h4
    exact key m hm (by rw [← he]; exact ofInt_small (hs m hm))

theorem foldl_maxF_is (ns : List Int) (hs : ∀ n ∈ ns, |n| ≤ 2 ^ 24) (hne : ns ≠ []) :
    ∃ m ∈ ns, ((ns.map Flt.ofInt).foldl maxF fltMax.neg).Is m ∧ ∀ n ∈ ns, n ≤ m := by
  have hfin : ∀ x ∈ ns.map Flt.ofInt, x.IsFinite := by
    intro x hx
    obtain ⟨n, hn, rfl⟩ := List.mem_map.mp hx
    exact (ofInt_small (hs n hn)).finite
  obtain ⟨n0, hn0⟩ := List.exists_mem_of_ne_nil ns hne
  obtain ⟨h1, h2, h3, h4⟩ := foldl_maxF (ns.map Flt.ofInt) fltMax.neg (neg_finite fltMax_finite) hfin
  rcases h4 with h4 | h4
  · exfalso
    have := h3 _ (List.mem_map.mpr ⟨n0, hn0, rfl⟩)
    rw [h4, (ofInt_small (hs n0 hn0)).value, neg_value] at this
    have h5 := (abs_le.mp (hs n0 hn0)).1
    have h5' : (-(2 ^ 24) : ℚ) ≤ n0 := by exact_mod_cast h5
    have h6 : (fltMax.value : ℚ) ≤ 2 ^ 24 := by linarith
    revert h6
    unfold fltMax
    rw [value_fin, div_le_iff₀ U_pos]
    rw [show (signed false ((2 ^ 24 - 1) * 2 ^ 253) : Int) = (((2 ^ 24 - 1) * 2 ^ 253 : Nat) : Int) from rfl]
    intro h6
    have h7 : ((2 ^ 24 - 1) * 2 ^ 253 : Nat) ≤ 2 ^ 24 * 2 ^ 149 := by exact_mod_cast h6
    revert h7; decide
  · obtain ⟨m, hm, he⟩ := List.mem_map.mp h4
    have his : ((ns.map Flt.ofInt).foldl maxF fltMax.neg).Is m := by rw [← he]; exact ofInt_small (hs m hm)
    refine ⟨m, hm, his, fun n hn => ?_⟩
    have := h3 _ (List.mem_map.mpr ⟨n, hn, rfl⟩)
    rw [his.value, (ofInt_small (hs n hn)).value] at this
    exact_mod_cast this

/-- The bounds of a mask with foreground in the range of exact integers. -/
theorem ofMask_spec (x y : Int) (w h : Nat) (data : List UInt8) (hw : 0 < w) (hh : 0 < h)
    (hlen : w * h ≤ data.length) (hsz : w * h ≤ 2 ^ 31)
    (hx : |x| + w ≤ 2 ^ 24) (hy : |y| + h ≤ 2 ^ 24) (hfg : Bounds.foreground w h data ≠ []) :
    ∃ (b : Bounds) (l r t bo : Nat), Bounds.ofMask x y w h data = .ok b ∧
      b.left.Is (x + l) ∧ b.right.Is (x + r) ∧ b.top.Is (y + t) ∧ b.bottom.Is (y + bo) ∧
      (∀ p ∈ Bounds.foreground w h data, l ≤ p.1 ∧ p.1 ≤ r ∧ t ≤ p.2 ∧ p.2 ≤ bo) ∧
      (∃ p ∈ Bounds.foreground w h data, p.1 = l) ∧ (∃ p ∈ Bounds.foreground w h data, p.1 = r) ∧
      (∃ p ∈ Bounds.foreground w h data, p.2 = t) ∧ (∃ p ∈ Bounds.foreground w h data, p.2 = bo) := by
  have hcheck : ¬ ((0 : Int) < w ∧ (0 : Int) < h ∧ (¬ InInt32 ((w : Int) * h - 1) ∨ (data.length : Int) < w * h)) := by
    rintro ⟨_, _, h1 | h1⟩
    · apply h1
      have : ((w * h : Nat) : Int) ≤ 2 ^ 31 := by exact_mod_cast hsz
      have h0 : 0 < w * h := Nat.mul_pos hw hh
      have : (2 : Int) ^ 31 = 2147483648 := by norm_num
      unfold InInt32
      push_cast at *
      omega
    · have : ((w * h : Nat) : Int) ≤ data.length := by exact_mod_cast hlen
      push_cast at this
      omega
  unfold Bounds.ofMask
  rw [if_neg hcheck]
  simp only [Int.toNat_natCast]
  rw [foldl_extend_map (Bounds.foreground w h data) (fun p => (Flt.ofInt p.1, Flt.ofInt p.2)), foldl_extend]
  simp only [List.map_map]
  have e1 : (Bounds.foreground w h data).map ((fun x : Flt × Flt => x.1) ∘ fun p : Nat × Nat => (Flt.ofInt p.1, Flt.ofInt p.2)) =
      ((Bounds.foreground w h data).map fun p => (p.1 : Int)).map Flt.ofInt := by rw [List.map_map]; rfl
  have e2 : (Bounds.foreground w h data).map ((fun x : Flt × Flt => x.2) ∘ fun p : Nat × Nat => (Flt.ofInt p.1, Flt.ofInt p.2)) =
      ((Bounds.foreground w h data).map fun p => (p.2 : Int)).map Flt.ofInt := by rw [List.map_map]; rfl
  rw [e1, e2]
  have hr : ∀ p ∈ Bounds.foreground w h data, p.1 < w ∧ p.2 < h := by
    rintro ⟨j, i⟩ hp
    have := (mem_foreground w h data j i).mp hp
    exact ⟨this.1, this.2.1⟩
  have h24 : (2 : Int) ^ 24 = 16777216 := by norm_num
  rw [h24] at hx hy
  have hxa := abs_nonneg x
  have hya := abs_nonneg y
  have hs1 : ∀ n ∈ (Bounds.foreground w h data).map (fun p => (p.1 : Int)), |n| ≤ 2 ^ 24 := by
    intro n hn
    obtain ⟨p, hp, rfl⟩ := List.mem_map.mp hn
    have := (hr p hp).1
    rw [abs_of_nonneg (by positivity), h24]; omega
  have hs2 : ∀ n ∈ (Bounds.foreground w h data).map (fun p => (p.2 : Int)), |n| ≤ 2 ^ 24 := by
    intro n hn
    obtain ⟨p, hp, rfl⟩ := List.mem_map.mp hn
    have := (hr p hp).2
    rw [abs_of_nonneg (by positivity), h24]; omega
  obtain ⟨l, hl, hlis, hlmin⟩ := foldl_minF_is _ hs1 (by simpa using hfg)
  obtain ⟨r, hr', hris, hrmax⟩ := foldl_maxF_is _ hs1 (by simpa using hfg)
  obtain ⟨t, ht, htis, htmin⟩ := foldl_minF_is _ hs2 (by simpa using hfg)
  obtain ⟨bo, hb, hbis, hbmax⟩ := foldl_maxF_is _ hs2 (by simpa using hfg)
  obtain ⟨pl, hpl, rfl⟩ := List.mem_map.mp hl
  obtain ⟨pr, hpr, rfl⟩ := List.mem_map.mp hr'
  obtain ⟨pt, hpt, rfl⟩ := List.mem_map.mp ht
  obtain ⟨pb, hpb, rfl⟩ := List.mem_map.mp hb
  have hxi : (Flt.ofInt x).Is x := ofInt_small (by rw [h24]; omega)
  have hyi : (Flt.ofInt y).Is y := ofInt_small (by rw [h24]; omega)
  have bx : ∀ p ∈ Bounds.foreground w h data, |(p.1 : Int) + x| ≤ 2 ^ 24 := by
    intro p hp
    have := (hr p hp).1
    have h1 := abs_le.mp (le_refl |x|)
    rw [abs_le, h24]
    constructor <;> omega
  have by' : ∀ p ∈ Bounds.foreground w h data, |(p.2 : Int) + y| ≤ 2 ^ 24 := by
    intro p hp
    have := (hr p hp).2
    have h1 := abs_le.mp (le_refl |y|)
    rw [abs_le, h24]
    constructor <;> omega
  refine ⟨_, pl.1, pr.1, pt.2, pb.2, rfl, ?_, ?_, ?_, ?_, ?_, ⟨pl, hpl, rfl⟩, ⟨pr, hpr, rfl⟩, ⟨pt, hpt, rfl⟩, ⟨pb, hpb, rfl⟩⟩
  · rw [Int.add_comm]; exact hlis.add hxi (bx pl hpl)
  · rw [Int.add_comm]; exact hris.add hxi (bx pr hpr)
  · rw [Int.add_comm]; exact htis.add hyi (by' pt hpt)
  · rw [Int.add_comm]; exact hbis.add hyi (by' pb hpb)
  · intro p hp
    have h1 := hlmin _ (List.mem_map.mpr ⟨p, hp, rfl⟩)
    have h2 := hrmax _ (List.mem_map.mpr ⟨p, hp, rfl⟩)
    have h3 := htmin _ (List.mem_map.mpr ⟨p, hp, rfl⟩)
    have h4 := hbmax _ (List.mem_map.mpr ⟨p, hp, rfl⟩)
    exact ⟨by exact_mod_cast h1, by exact_mod_cast h2, by exact_mod_cast h3, by exact_mod_cast h4⟩

end Trax
