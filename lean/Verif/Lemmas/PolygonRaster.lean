import Verif.Lemmas.PolygonNodes
import Verif.Lemmas.ConvexRows

/-!
# Lemmas about rasterisation: polygons with integer corners
-/

namespace Trax
open Region Spec

/-! ## The nodes of a row -/

/-- The node of a side. -/
def nodeOf (row : Int) (s : (Int × Int) × (Int × Int)) : Option Int :=
  if Hit row s.2.2 s.1.2 then some (if s.2.2 = s.1.2 then s.2.1 else towardZero (meets s row)) else none

theorem hit_iff (row : Int) (s : (Int × Int) × (Int × Int)) : Hit row s.2.2 s.1.2 ↔ Reaches row s := by
  unfold Hit Reaches; omega

/-- The corners are these whole numbers. -/
def WholeAt (p : Flt × Flt) (c : Int × Int) : Prop := p.1.Is c.1 ∧ p.2.Is c.2

theorem forEach_nodes (row : Nat) (hrow : row ≤ 2 ^ 31) (es : List ((Flt × Flt) × (Flt × Flt))) (ss : List ((Int × Int) × (Int × Int)))
    (h : List.Forall₂ (fun e s => WholeAt e.2 s.1 ∧ WholeAt e.1 s.2) es ss)
    (hb : ∀ s ∈ ss, |s.1.1| ≤ 2 ^ 23 ∧ |s.1.2| ≤ 2 ^ 23 ∧ |s.2.1| ≤ 2 ^ 23 ∧ |s.2.2| ≤ 2 ^ 23)
    (hg : ∀ s ∈ ss, s.1.1 ≠ s.2.1 → Straddles row s → ∀ n : Int, meets s row ≠ n) (acc : List Int) :
    Outcome.forEach (node row) es acc = .ok (acc ++ ss.filterMap (nodeOf row)) := by
  induction h generalizing acc with
  | nil => simp [Outcome.forEach]
  | @cons e s es ss hes _ ih =>
    obtain ⟨⟨xi, yi⟩, ⟨xj, yj⟩⟩ := e
    obtain ⟨⟨c, d⟩, ⟨a, b⟩⟩ := s
    obtain ⟨⟨h3, h4⟩, ⟨h1, h2⟩⟩ := hes
    obtain ⟨b3, b4, b1, b2⟩ := hb _ List.mem_cons_self
    have hn := node_whole row hrow xi yi xj yj a b c d h1 h2 h3 h4 b1 b2 b3 b4 (by
      intro hne hs n
      refine hg ((c, d), (a, b)) List.mem_cons_self (fun h => hne h.symm) ?_ n
      unfold Straddles
      dsimp only
      omega) acc
    rw [Outcome.forEach, hn, Outcome.bind_ok, ih (fun s hs => hb s (List.mem_cons_of_mem _ hs)) (fun s hs => hg s (List.mem_cons_of_mem _ hs)),
      List.filterMap_cons]
    unfold nodeOf
    dsimp only
    by_cases hh : Hit row b d
    · rw [if_pos hh, if_pos hh, List.append_assoc]; rfl
    · rw [if_neg hh, if_neg hh]

theorem nodes_whole (row : Nat) (hrow : row ≤ 2 ^ 31) (ps : List (Flt × Flt)) (cs : List (Int × Int)) (h : List.Forall₂ WholeAt ps cs)
    (hb : ∀ c ∈ cs, |c.1| ≤ 2 ^ 23 ∧ |c.2| ≤ 2 ^ 23) (hg : OffGrid cs row) :
    Outcome.forEach (node row) (edges ps) [] = .ok ((sides cs).filterMap (nodeOf row)) := by
  have hf : List.Forall₂ (fun e s => WholeAt e.2 s.1 ∧ WholeAt e.1 s.2) (edges ps) (sides cs) := by
    unfold edges sides
    rcases forall2_getLast h with ⟨e1, e2⟩ | ⟨a, b, e1, e2, e3⟩
    · rw [e1, e2]; exact .nil
    · rw [e1, e2]
      exact zip_sides h a b e3
  have := forEach_nodes row hrow _ _ hf (fun s hs => by
    obtain ⟨h1, h2⟩ := mem_sides hs
    exact ⟨(hb _ h1).1, (hb _ h1).2, (hb _ h2).1, (hb _ h2).2⟩) hg []
  rw [this, List.nil_append]

/-! ## Spans -/

theorem spans_const (w : Int) (l : List Int) (h : Int) (hl : ∀ x ∈ l, x = h) (j : Int) (hj : 0 ≤ j ∧ j < w) :
    (∃ s ∈ rowSpans w l, s.1 ≤ j ∧ j ≤ s.2) → j = h := by
  induction l using rowSpans.induct w with
  | case1 a b rest hw => rw [rowSpans, if_pos hw]; simp
  | case2 a b rest hw h2 ih =>
    rw [rowSpans, if_neg hw, if_pos h2]
    exact ih fun x hx => hl x (List.mem_cons_of_mem _ hx)
  | case3 a b rest hw h2 h3 ih =>
    rw [rowSpans, if_neg hw, if_neg h2, if_pos h3]
    rintro ⟨s, hs, hs1, hs2⟩
    have ha := hl a (by simp)
    have hb := hl b (by simp)
    rcases List.mem_cons.mp hs with rfl | hs
    · dsimp only at hs1 hs2
      split at hs1 <;> split at hs2 <;> omega
    · exact ih (fun x hx => hl x (List.mem_cons_of_mem _ (List.mem_cons_of_mem _ hx))) ⟨s, hs, hs1, hs2⟩
  | case4 a b rest hw h2 h3 ih =>
    rw [rowSpans, if_neg hw, if_neg h2, if_neg h3]
    exact ih (fun x hx => hl x (List.mem_cons_of_mem _ (List.mem_cons_of_mem _ hx)))
  | case5 l hne => rw [rowSpans]; simp; exact hne

/-- Nodes at two places. -/
theorem spans_two (w : Int) (lo hi : Int) (hlh : lo ≤ hi) (l : List Int) (hs : l.Pairwise (· ≤ ·)) (hl : ∀ x ∈ l, x = lo ∨ x = hi)
    (hlen : 2 ≤ l.length) (hlo : lo ∈ l) (hhi : hi ∈ l) (j : Int) (hj : 0 ≤ j ∧ j < w) :
    (∃ s ∈ rowSpans w l, s.1 ≤ j ∧ j ≤ s.2) ↔ lo ≤ j ∧ j ≤ hi := by
  have first : ∀ a rest, (a :: rest : List Int).Pairwise (· ≤ ·) → lo ∈ (a :: rest : List Int) → (∀ x ∈ (a :: rest : List Int), x = lo ∨ x = hi) → a = lo := by
    intro a rest hp hm hx
    rcases hx a List.mem_cons_self with h | h
    · exact h
    · rcases List.mem_cons.mp hm with e | e
      · exact e.symm
      · have := (List.pairwise_cons.mp hp).1 lo e
        omega
  induction l using rowSpans.induct w with
  | case1 a b rest hw =>
    have := first a _ hs hlo hl
    rw [rowSpans, if_pos hw]; simp; omega
  | case2 a b rest hw h2 ih =>
    have ha := first a _ hs hlo hl
    rw [rowSpans, if_neg hw, if_pos h2]
    have hl' : ∀ x ∈ b :: rest, x = lo ∨ x = hi := fun x hx => hl x (List.mem_cons_of_mem _ hx)
    refine ih (List.pairwise_cons.mp hs).2 hl' ?_ ?_ ?_
    · have := List.length_pos_iff.mpr h2.2
      rw [List.length_cons]; omega
    · rw [← ha, h2.1]; exact List.mem_cons_self
    · rcases List.mem_cons.mp hhi with e | e
      · rw [e, h2.1]; exact List.mem_cons_self
      · exact e
  | case3 a b rest hw h2 h3 ih =>
    have ha := first a _ hs hlo hl
    have hp := List.pairwise_cons.mp hs
    have hp2 := List.pairwise_cons.mp hp.2
    have hb : b = hi := by
      rcases hl b (by simp) with e | e
      · have hr : rest = [] := by
          by_contra hr
          exact h2 ⟨by omega, hr⟩
        subst hr
        simp at hhi
        omega
      · exact e
    have hrest : ∀ x ∈ rest, x = hi := by
      intro x hx
      have := hp2.1 x hx
      rcases hl x (List.mem_cons_of_mem _ (List.mem_cons_of_mem _ hx)) with e | e <;> omega
    rw [rowSpans, if_neg hw, if_neg h2, if_pos h3]
    constructor
    · rintro ⟨s, hs, h4, h5⟩
      rcases List.mem_cons.mp hs with rfl | hs
      · dsimp only at h4 h5
        split at h4 <;> split at h5 <;> omega
      · have := spans_const w rest hi hrest j hj ⟨s, hs, h4, h5⟩
        omega
    · intro h
      refine ⟨_, List.mem_cons_self, ?_, ?_⟩ <;> dsimp only <;> split <;> omega
  | case4 a b rest hw h2 h3 ih =>
    have ha := first a _ hs hlo hl
    have hp := List.pairwise_cons.mp hs
    have hp2 := List.pairwise_cons.mp hp.2
    have hb : b = hi := by
      rcases hl b (by simp) with e | e
      · have hr : rest = [] := by
          by_contra hr
          exact h2 ⟨by omega, hr⟩
        subst hr
        simp at hhi
        omega
      · exact e
    have hrest : ∀ x ∈ rest, x = hi := by
      intro x hx
      have := hp2.1 x hx
      rcases hl x (List.mem_cons_of_mem _ (List.mem_cons_of_mem _ hx)) with e | e <;> omega
    rw [rowSpans, if_neg hw, if_neg h2, if_neg h3]
    constructor
    · intro h
      have := spans_const w rest hi hrest j hj h
      omega
    · intro h; omega
  | case5 l hne =>
    match l, hlen, hne with
    | a :: b :: rest, _, hne => exact (hne a b rest rfl).elim

/-- Nodes at different places, an even number of them. -/
theorem spans_distinct (w : Int) (l : List Int) (hs : l.Pairwise (· < ·)) (heven : Even l.length) (j : Int) (hj : 0 ≤ j ∧ j < w) :
    (∃ s ∈ rowSpans w l, s.1 ≤ j ∧ j ≤ s.2) ↔ j ∈ l ∨ Odd (l.countP (fun x => decide (x < j))) := by
  induction l using rowSpans.induct w with
  | case1 a b rest hw =>
    have hall : ∀ x ∈ a :: b :: rest, ¬ x < j := by
      intro x hx
      rcases List.mem_cons.mp hx with rfl | hx
      · omega
      · have := (List.pairwise_cons.mp hs).1 x hx; omega
    have hc : (a :: b :: rest).countP (fun x => decide (x < j)) = 0 := by
      rw [List.countP_eq_zero]; intro x hx; simpa using hall x hx
    rw [rowSpans, if_pos hw, hc]
    simp only [List.not_mem_nil, false_and, exists_false, Nat.not_odd_zero, or_false, false_iff]
    intro hm
    rcases List.mem_cons.mp hm with h | h
    · omega
    · have := (List.pairwise_cons.mp hs).1 j h; omega
  | case2 a b rest hw h2 ih =>
    have := (List.pairwise_cons.mp hs).1 b List.mem_cons_self
    omega
  | case3 a b rest hw h2 h3 ih =>
    have hp := List.pairwise_cons.mp hs
    have hp2 := List.pairwise_cons.mp hp.2
    have hab := hp.1 b List.mem_cons_self
    have e' : Even rest.length := by
      simp only [List.length_cons, Nat.even_add_one, not_not] at heven; exact heven
    have ih := ih hp2.2 e'
    rw [rowSpans, if_neg hw, if_neg h2, if_pos h3]
    have hx : (∃ s ∈ ((if a < 0 then 0 else a), (if b ≥ w then w - 1 else b)) :: rowSpans w rest, s.1 ≤ j ∧ j ≤ s.2) ↔
        (a ≤ j ∧ j ≤ b) ∨ (∃ s ∈ rowSpans w rest, s.1 ≤ j ∧ j ≤ s.2) := by
      rw [List.exists_mem_cons_iff]
      refine or_congr ?_ Iff.rfl
      dsimp only
      split <;> split <;> omega
    rw [hx, ih, List.mem_cons, List.mem_cons, List.countP_cons, List.countP_cons]
    by_cases h1 : j < a
    · have hr : rest.countP (fun x => decide (x < j)) = 0 := by
        rw [List.countP_eq_zero]
        intro x hx
        have := hp2.1 x hx
        simp; omega
      have hm : j ∉ rest := fun h => by have := hp2.1 j h; omega
      rw [hr, if_neg (show ¬ (decide (b < j)) = true by simp; omega), if_neg (show ¬ (decide (a < j)) = true by simp; omega)]
      refine ⟨fun hh => ?_, fun hh => ?_⟩
      · rcases hh with hh | hh | hh
        · omega
        · exact absurd hh hm
        · exact absurd hh (by decide)
      · rcases hh with (hh | hh | hh) | hh
        · omega
        · omega
        · exact absurd hh hm
        · exact absurd hh (by decide)
    · by_cases h4 : j ≤ b
      · have hr : rest.countP (fun x => decide (x < j)) = 0 := by
          rw [List.countP_eq_zero]
          intro x hx
          have := hp2.1 x hx
          simp; omega
        simp only [hr]
        refine ⟨fun _ => ?_, fun _ => .inl (by omega)⟩
        by_cases h5 : j = a
        · exact .inl (.inl h5)
        · by_cases h6 : j = b
          · exact .inl (.inr (.inl h6))
          · right
            rw [if_neg (by simp; omega), if_pos (by simp; omega)]
            decide
      · have h5 : (decide (b < j)) = true := by simp; omega
        have h6 : (decide (a < j)) = true := by simp; omega
        rw [if_pos h5, if_pos h6]
        have h7 : ¬ (a ≤ j ∧ j ≤ b) := by omega
        have h8 : j ≠ a := by omega
        have h9 : j ≠ b := by omega
        simp only [h7, h8, h9, false_or, Nat.odd_add_one, not_not]
  | case4 a b rest hw h2 h3 ih =>
    have hp := List.pairwise_cons.mp hs
    have hp2 := List.pairwise_cons.mp hp.2
    have hab := hp.1 b List.mem_cons_self
    have e' : Even rest.length := by
      simp only [List.length_cons, Nat.even_add_one, not_not] at heven; exact heven
    have ih := ih hp2.2 e'
    rw [rowSpans, if_neg hw, if_neg h2, if_neg h3, ih, List.mem_cons, List.mem_cons, List.countP_cons, List.countP_cons]
    have h5 : (decide (b < j)) = true := by simp; omega
    have h6 : (decide (a < j)) = true := by simp; omega
    rw [if_pos h5, if_pos h6]
    have h8 : j ≠ a := by omega
    have h9 : j ≠ b := by omega
    simp only [h8, h9, false_or, Nat.odd_add_one, not_not]
  | case5 l hne =>
    match l, heven, hne with
    | [], _, _ => simp [rowSpans]
    | [a], h, _ => simp at h
    | a :: b :: rest, _, hne => exact (hne a b rest rfl).elim

/-! ## Rows -/

theorem filterMap_two {α β : Type} (f : α → Option β) (l : List α) (a b : α) (ha : a ∈ l) (hb : b ∈ l) (hne : a ≠ b)
    (fa : (f a).isSome) (fb : (f b).isSome) : 2 ≤ (l.filterMap f).length := by
  have pos : ∀ (l : List α) (a : α), a ∈ l → (f a).isSome → 1 ≤ (l.filterMap f).length := by
    intro l a ha fa
    obtain ⟨x, hx⟩ := Option.isSome_iff_exists.mp fa
    exact List.length_pos_iff.mpr (List.ne_nil_of_mem (List.mem_filterMap.mpr ⟨a, ha, hx⟩))
  induction l with
  | nil => simp at ha
  | cons c l ih =>
    rcases List.mem_cons.mp ha with rfl | ha'
    · have hb' : b ∈ l := (List.mem_cons.mp hb).resolve_left hne.symm
      obtain ⟨x, hx⟩ := Option.isSome_iff_exists.mp fa
      rw [List.filterMap_cons_some hx, List.length_cons]
      have := pos l b hb' fb
      omega
    · rcases List.mem_cons.mp hb with rfl | hb'
      · obtain ⟨x, hx⟩ := Option.isSome_iff_exists.mp fb
        rw [List.filterMap_cons_some hx, List.length_cons]
        have := pos l a ha' fa
        omega
      · have := ih ha' hb'
        rw [List.filterMap_cons]
        split
        · exact this
        · rw [List.length_cons]; omega

/-- The fill of a row is that of its sorted nodes. -/
theorem rasterRow_nodes {ps : List (Flt × Flt)} {w row : Nat} {nodes : List Int}
    (h : Outcome.forEach (node row) (edges ps) [] = .ok nodes) (P : Nat → Prop)
    (hP : ∀ l : List Int, l.Perm nodes → l.Pairwise (· ≤ ·) → ∀ j : Nat, j < w → ((∃ s ∈ rowSpans w l, s.1 ≤ (j : Int) ∧ (j : Int) ≤ s.2) ↔ P j)) :
    ∃ spans : List (Int × Int), ((∀ s ∈ spans, 0 ≤ s.1 ∧ s.2 < (w : Int)) ∧
      ∀ buf, rasterRow false ps w row buf = Outcome.forEach (fun s buf => fillSpan w row s.1 s.2 buf) spans buf) ∧
      ∀ j : Nat, j < w → ((∃ s ∈ spans, s.1 ≤ (j : Int) ∧ (j : Int) ≤ s.2) ↔ P j) := by
  obtain ⟨l, h1, h2, h3⟩ := sortNodes_spec nodes
  refine ⟨rowSpans w l, ⟨rowSpans_range w l, fun buf => ?_⟩, hP l h3 h2⟩
  unfold rasterRow
  simp only [Bool.false_eq_true, if_false]
  rw [h, Outcome.bind_ok, h1, Outcome.bind_ok]
  exact fillRow_eq w row l buf

theorem towardZero_mono {a b : ℚ} (h : a ≤ b) : towardZero a ≤ towardZero b := by
  unfold towardZero
  split <;> split
  · exact Int.floor_le_floor h
  · linarith
  · rename_i h1 h2
    have : ⌈a⌉ ≤ 0 := Int.ceil_le.mpr (by push_cast; linarith)
    have : 0 ≤ ⌊b⌋ := Int.floor_nonneg.mpr h2
    omega
  · exact Int.ceil_le_ceil h

theorem towardZero_le_iff (q : ℚ) (j : Nat) : towardZero q ≤ (j : Int) ↔ q < (j : Int) + 1 := by
  unfold towardZero
  split
  · rw [Int.floor_le_iff]
  · rename_i h
    have h1 : ⌈q⌉ ≤ 0 := Int.ceil_le.mpr (by push_cast; linarith)
    have h2 : q < ((j : Int) : ℚ) + 1 := by
      have : (0 : ℚ) ≤ ((j : Int) : ℚ) := by exact_mod_cast Int.natCast_nonneg j
      linarith
    exact ⟨fun _ => h2, fun _ => by omega⟩

theorem le_towardZero_iff (q : ℚ) (j : Nat) (h : 0 < j ∨ 0 ≤ q) : (j : Int) ≤ towardZero q ↔ ((j : Int) : ℚ) ≤ q := by
  unfold towardZero
  split
  · rw [Int.le_floor]
  · rename_i hq
    have hj : 0 < j := h.resolve_right hq
    have h1 : ⌈q⌉ ≤ 0 := Int.ceil_le.mpr (by push_cast; linarith)
    have h2 : (0 : ℚ) < ((j : Int) : ℚ) := by exact_mod_cast hj
    exact ⟨fun h => by omega, fun h => by linarith⟩

/-- The marked pixels of a row of a convex polygon. -/
theorem convex_row {ps : List (Flt × Flt)} {cs : List (Int × Int)} (h : List.Forall₂ WholeAt ps cs) (hc : Spec.Convex cs)
    (hb : ∀ c ∈ cs, |c.1| ≤ 2 ^ 23 ∧ |c.2| ≤ 2 ^ 23) (w row : Nat) (hrow : row ≤ 2 ^ 31) (hg : OffGrid cs row) :
    ∃ spans : List (Int × Int), ((∀ s ∈ spans, 0 ≤ s.1 ∧ s.2 < (w : Int)) ∧
      ∀ buf, rasterRow false ps w row buf = Outcome.forEach (fun s buf => fillSpan w row s.1 s.2 buf) spans buf) ∧
      ∀ j : Nat, j < w → (0 < j ∨ ∀ c ∈ cs, 0 ≤ c.1) → ((∃ s ∈ spans, s.1 ≤ (j : Int) ∧ (j : Int) ≤ s.2) ↔ MeetsPixel cs j row) := by
  have hn := nodes_whole row hrow ps cs h hb hg
  by_cases hr : ∃ s ∈ sides cs, Reaches row s
  · obtain ⟨L, R, hLR⟩ := convexRow hc hr
    have val : ∀ s ∈ sides cs, Reaches row s → nodeOf row s = some (towardZero L) ∨ nodeOf row s = some (towardZero R) := by
      intro s hs hrs
      unfold nodeOf
      rw [if_pos ((hit_iff _ _).mpr hrs)]
      by_cases hl : s.2.2 = s.1.2
      · rw [if_pos hl]
        have := hLR.level s hs hl.symm (by unfold Reaches at hrs; omega)
        rcases this with e | e
        · left; rw [← e, towardZero_int]
        · right; rw [← e, towardZero_int]
      · rw [if_neg hl]
        rcases hLR.sides s hs (fun e => hl e.symm) hrs with e | e
        · left; rw [e]
        · right; rw [e]
    have isSome : ∀ s, Reaches row s → (nodeOf row s).isSome := by
      intro s hs; unfold nodeOf; rw [if_pos ((hit_iff _ _).mpr hs)]; rfl
    obtain ⟨spans, h1, h2⟩ := rasterRow_nodes (ps := ps) (w := w) hn (fun j => towardZero L ≤ (j : Int) ∧ (j : Int) ≤ towardZero R) (by
      intro l hp hs j hj
      refine spans_two w (towardZero L) (towardZero R) (towardZero_mono hLR.le) l hs ?_ ?_ ?_ ?_ j ⟨by omega, by omega⟩
      · intro x hx
        obtain ⟨s, hs, hx⟩ := List.mem_filterMap.mp (hp.mem_iff.mp hx)
        by_cases hrs : Reaches row s
        · rcases val s hs hrs with e | e
          · left; rw [e] at hx; exact (Option.some.inj hx).symm
          · right; rw [e] at hx; exact (Option.some.inj hx).symm
        · unfold nodeOf at hx
          rw [if_neg (fun hh => hrs ((hit_iff _ _).mp hh))] at hx
          exact absurd hx (by simp)
      · rw [hp.length_eq]
        obtain ⟨s, hs, s', hs', hne, r1, r2⟩ := hLR.two
        exact filterMap_two _ _ s s' hs hs' hne (isSome s r1) (isSome s' r2)
      · obtain ⟨s, hs, e1, e2, e3⟩ := hLR.left
        refine hp.mem_iff.mpr (List.mem_filterMap.mpr ⟨s, hs, ?_⟩)
        unfold nodeOf
        rw [if_pos ((hit_iff _ _).mpr e2), if_neg (fun e => e1 e.symm), e3]
      · obtain ⟨s, hs, e1, e2, e3⟩ := hLR.right
        refine hp.mem_iff.mpr (List.mem_filterMap.mpr ⟨s, hs, ?_⟩)
        unfold nodeOf
        rw [if_pos ((hit_iff _ _).mpr e2), if_neg (fun e => e1 e.symm), e3])
    refine ⟨spans, h1, fun j hj hj0 => ?_⟩
    rw [h2 j hj, hLR.pixel, towardZero_le_iff]
    refine and_congr Iff.rfl (le_towardZero_iff R j ?_)
    rcases hj0 with h0 | h0
    · exact .inl h0
    · right
      obtain ⟨s, hs, e1, e2, e3⟩ := hLR.right
      obtain ⟨t, t0, t1, t2, _⟩ := (onSide_iff e1 R row).mpr ⟨e2, e3.symm⟩
      have m := mem_sides hs
      have p1 : (0 : ℚ) ≤ s.1.1 := by exact_mod_cast h0 _ m.1
      have p2 : (0 : ℚ) ≤ s.2.1 := by exact_mod_cast h0 _ m.2
      rw [t2]
      have : (s.1.1 : ℚ) + t * (s.2.1 - s.1.1) = (1 - t) * s.1.1 + t * s.2.1 := by ring
      rw [this]
      have := mul_nonneg (show (0 : ℚ) ≤ 1 - t by linarith) p1
      have := mul_nonneg t0 p2
      linarith
  · have hnil : (sides cs).filterMap (nodeOf row) = [] := by
      rw [List.filterMap_eq_nil_iff]
      intro s hs
      unfold nodeOf
      rw [if_neg]
      intro hh
      exact hr ⟨s, hs, (hit_iff _ _).mp hh⟩
    rw [hnil] at hn
    obtain ⟨spans, h1, h2⟩ := rasterRow_nodes (ps := ps) (w := w) hn (fun _ => False) (by
      intro l hp _ j hj
      rw [List.Perm.eq_nil hp]
      simp [rowSpans])
    exact ⟨spans, h1, fun j hj _ => (h2 j hj).trans ⟨False.elim, no_pixel hr j⟩⟩

/-- The marked pixels of a row that goes through no corner and meets the sides in different pixels. -/
theorem distinct_row {ps : List (Flt × Flt)} {cs : List (Int × Int)} (h : List.Forall₂ WholeAt ps cs)
    (hb : ∀ c ∈ cs, |c.1| ≤ 2 ^ 23 ∧ |c.2| ≤ 2 ^ 23) (w row : Nat) (hrow : row ≤ 2 ^ 31) (hg : OffGrid cs row)
    (hcorner : ∀ c ∈ cs, c.2 ≠ row) (hleft : ∀ s ∈ sides cs, Straddles row s → 0 ≤ meets s row)
    (hdist : (sides cs).Pairwise fun s s' => Straddles row s → Straddles row s' → ⌊meets s row⌋ ≠ ⌊meets s' row⌋) :
    ∃ spans : List (Int × Int), ((∀ s ∈ spans, 0 ≤ s.1 ∧ s.2 < (w : Int)) ∧
      ∀ buf, rasterRow false ps w row buf = Outcome.forEach (fun s buf => fillSpan w row s.1 s.2 buf) spans buf) ∧
      ∀ j : Nat, j < w → ((∃ s ∈ spans, s.1 ≤ (j : Int) ∧ (j : Int) ≤ s.2) ↔ EvenOddPixel cs j row) := by
  classical
  have hn := nodes_whole row hrow ps cs h hb hg
  have hstr : ∀ s ∈ sides cs, (Reaches row s ↔ Straddles row s) := by
    intro s hs
    have m := mem_sides hs
    have := hcorner _ m.1
    have := hcorner _ m.2
    unfold Reaches Straddles
    omega
  have node : ∀ s ∈ sides cs, nodeOf row s = if Straddles row s then some ⌊meets s row⌋ else none := by
    intro s hs
    unfold nodeOf
    by_cases hh : Straddles row s
    · rw [if_pos hh, if_pos ((hit_iff _ _).mpr ((hstr s hs).mpr hh)), if_neg (by unfold Straddles at hh; omega)]
      unfold towardZero
      rw [if_pos (hleft s hs hh)]
    · rw [if_neg hh, if_neg fun h => hh ((hstr s hs).mp ((hit_iff _ _).mp h))]
  -- the number of sides the row meets is even
  have heven : Even ((sides cs).countP fun s => decide (Straddles row s)) := by
    have hb := sides_balance (fun p => decide ((row : Int) < p.2)) cs
    have hsum : ((sides cs).countP fun s => decide (Straddles row s)) =
        ((sides cs).countP fun s => !decide ((row : Int) < s.1.2) && decide ((row : Int) < s.2.2)) +
        ((sides cs).countP fun s => decide ((row : Int) < s.1.2) && !decide ((row : Int) < s.2.2)) := by
      have gen : ∀ ss : List ((Int × Int) × (Int × Int)), (∀ s ∈ ss, s.1.2 ≠ row ∧ s.2.2 ≠ row) → (ss.countP fun s => decide (Straddles row s)) =
        (ss.countP fun s => !decide ((row : Int) < s.1.2) && decide ((row : Int) < s.2.2)) +
        (ss.countP fun s => decide ((row : Int) < s.1.2) && !decide ((row : Int) < s.2.2)) := by
        intro ss hss
        induction ss with
        | nil => rfl
        | cons s ss ih =>
          have i := ih fun s hs => hss s (List.mem_cons_of_mem _ hs)
          obtain ⟨n1, n2⟩ := hss s List.mem_cons_self
          rw [List.countP_cons, List.countP_cons, List.countP_cons, i]
          have : (decide (Straddles row s)) = ((!decide ((row : Int) < s.1.2) && decide ((row : Int) < s.2.2)) ||
              (decide ((row : Int) < s.1.2) && !decide ((row : Int) < s.2.2))) := by
            rw [Bool.eq_iff_iff]
            simp only [Bool.or_eq_true, Bool.and_eq_true, Bool.not_eq_true', decide_eq_true_eq, decide_eq_false_iff_not]
            unfold Straddles
            clear hss i ih
            omega
          rw [this]
          clear this hss i ih
          cases decide ((row : Int) < s.1.2) <;> cases decide ((row : Int) < s.2.2) <;> simp <;> omega
      exact gen _ fun s hs => ⟨hcorner _ (mem_sides hs).1, hcorner _ (mem_sides hs).2⟩
    rw [hsum, hb]
    exact Even.add_self _
  -- counting nodes is counting sides
  have count : ∀ p : Int → Bool, ((sides cs).filterMap (nodeOf row)).countP p =
      (sides cs).countP fun s => decide (Straddles row s) && p ⌊meets s row⌋ := by
    intro p
    have gen : ∀ ss : List ((Int × Int) × (Int × Int)), (∀ s ∈ ss, nodeOf row s = if Straddles row s then some ⌊meets s row⌋ else none) →
        (ss.filterMap (nodeOf row)).countP p = ss.countP fun s => decide (Straddles row s) && p ⌊meets s row⌋ := by
      intro ss hss
      induction ss with
      | nil => rfl
      | cons s ss ih =>
        have i := ih fun s hs => hss s (List.mem_cons_of_mem _ hs)
        rw [List.countP_cons, List.filterMap_cons, hss s List.mem_cons_self]
        by_cases hh : Straddles row s
        · rw [if_pos hh]
          simp only [List.countP_cons, i, hh, decide_true, Bool.true_and]
        · rw [if_neg hh]
          simp only [i, hh, decide_false, Bool.false_and, Bool.false_eq_true, if_false, add_zero]
    exact gen _ node
  refine rasterRow_nodes (ps := ps) (w := w) hn (fun j => EvenOddPixel cs j row) ?_
  intro l hp hs j hj
  have hnd : ((sides cs).filterMap (nodeOf row)).Nodup := by
    have hR : (sides cs).Pairwise fun s s' => ∀ b, nodeOf row s = some b → ∀ b', nodeOf row s' = some b' → b ≠ b' := by
      refine hdist.imp_of_mem ?_
      intro s s' hs hs' hd b e1 b' e2
      rw [node s hs] at e1
      rw [node s' hs'] at e2
      by_cases h1 : Straddles row s
      · by_cases h2 : Straddles row s'
        · rw [if_pos h1, Option.some.injEq] at e1
          rw [if_pos h2, Option.some.injEq] at e2
          rw [← e1, ← e2]
          exact hd h1 h2
        · rw [if_neg h2] at e2; exact absurd e2 (by simp)
      · rw [if_neg h1] at e1; exact absurd e1 (by simp)
    exact List.Pairwise.filterMap (nodeOf row) (fun _ _ h => h) hR
  have hlt : l.Pairwise (· < ·) := (hs.and (hp.nodup_iff.mpr hnd)).imp fun h => lt_of_le_of_ne h.1 h.2
  have hlen : Even l.length := by
    have := count fun _ => true
    rw [List.countP_true] at this
    rw [hp.length_eq, this]
    simpa using heven
  rw [spans_distinct w l hlt hlen j ⟨by omega, by omega⟩, hp.mem_iff, hp.countP_eq, count]
  have hmem : (j : Int) ∈ (sides cs).filterMap (nodeOf row) ↔ ∃ s ∈ sides cs, Straddles row s ∧ (((j : Int) : ℚ)) ≤ meets s row ∧ meets s row < ((j : Int) : ℚ) + 1 := by
    rw [List.mem_filterMap]
    refine exists_congr fun s => and_congr_right fun hs => ?_
    rw [node s hs]
    by_cases h1 : Straddles row s
    · rw [if_pos h1, Option.some.injEq, Int.floor_eq_iff]
      exact ⟨fun h => ⟨h1, h⟩, fun h => h.2⟩
    · rw [if_neg h1]
      simp [h1]
  rw [hmem]
  unfold EvenOddPixel
  rw [or_comm]
  by_cases hex : ∃ s ∈ sides cs, Straddles row s ∧ (((j : Int) : ℚ)) ≤ meets s row ∧ meets s row < ((j : Int) : ℚ) + 1
  · exact ⟨fun _ => .inr hex, fun _ => .inr hex⟩
  · refine or_congr ?_ Iff.rfl
    unfold InPolygon
    have hsum : ((sides cs).countP fun s => decide (Straddles row s)) =
        ((sides cs).countP fun s => decide (Straddles row s) && decide (⌊meets s row⌋ < (j : Int))) +
        ((sides cs).countP fun s => decide (Crosses j row s)) := by
      have gen : ∀ ss : List ((Int × Int) × (Int × Int)), (∀ s ∈ ss, s ∈ sides cs) → (ss.countP fun s => decide (Straddles row s)) =
          (ss.countP fun s => decide (Straddles row s) && decide (⌊meets s row⌋ < (j : Int))) +
          (ss.countP fun s => decide (Crosses j row s)) := by
        intro ss hss
        induction ss with
        | nil => rfl
        | cons s ss ih =>
          have i := ih fun s hs => hss s (List.mem_cons_of_mem _ hs)
          have hs := hss s List.mem_cons_self
          have c1 := hcorner _ (mem_sides hs).1
          have c2 := hcorner _ (mem_sides hs).2
          rw [List.countP_cons, List.countP_cons, List.countP_cons, i]
          by_cases h1 : Straddles row s
          · by_cases h2 : ⌊meets s row⌋ < (j : Int)
            · have h3 : ¬ Crosses j row s := by
                rintro ⟨_, h⟩
                have := Int.floor_lt.mp h2
                linarith
              simp only [h1, h2, h3, decide_true, decide_false, Bool.and_true, if_true, Bool.false_eq_true, if_false]
              omega
            · have h3 : Crosses j row s := by
                refine ⟨by unfold Straddles at h1; omega, ?_⟩
                by_contra hlt
                have h4 : (((j : Int) : ℚ)) ≤ meets s row := Int.le_floor.mp (not_lt.mp h2)
                exact hex ⟨s, hs, h1, h4, by linarith⟩
              simp only [h1, h2, h3, decide_true, decide_false, Bool.and_false, if_true, Bool.false_eq_true, if_false]
              omega
          · have h3 : ¬ Crosses j row s := by
              rintro ⟨h, _⟩
              apply h1
              unfold Straddles
              omega
            simp only [h1, h3, decide_false, Bool.false_and, Bool.false_eq_true, if_false]
            omega
      exact gen _ fun _ h => h
    rw [hsum] at heven
    exact (Nat.even_add'.mp heven)

end Trax
