import Verif.Lemmas.RegionText

/-!
# Property theorems C105: the texts of regions
-/

namespace Trax
open Spec Region

/-- **C105, what holds (rectangles).** Four numbers - with a sign, decimals, an exponent and blanks or without - with or without the name of the format in
front, are read as a rectangle with the single precision numbers that are nearest to them: exactly the nearest ones for numbers of up to eight decimals below 2^24,
up to one part in 2^52 for all others, and infinite ones for numbers that are too large. Missing from the full claim: the nearest
number for all texts, see `C105_rounding_false`, and the refusal of other texts, see `C105_names_false`. -/
theorem C105_rectangle_partial (pre : Str) (hpre : pre ∈ [[], b!"rect:", b!"rectangle:"]) (a b c d : Numeral)
    (hv : ∀ n ∈ [a, b, c, d], n.WellFormed) :
    ∃ x y w h, parse (pre ++ joined [a, b, c, d]) = .ok ⟨1, some (.rectangle x y w h), 0⟩ ∧
      a.ReadAs x ∧ b.ReadAs y ∧ c.ReadAs w ∧ d.ReadAs h := by
  refine ⟨readNumeral a, readNumeral b, readNumeral c, readNumeral d, ?_, numeral_readAs a, numeral_readAs b, numeral_readAs c, numeral_readAs d⟩
  obtain ⟨t, ht, hp⟩ := prefix_cases (pre := pre) (names := [b!"rect", b!"rectangle"]) (type := .rectangle) [a, b, c, d] hv
    (by
      simp only [List.mem_cons, List.not_mem_nil, or_false] at hpre
      rcases hpre with rfl | rfl | rfl
      · exact Or.inl rfl
      · exact Or.inr ⟨b!"rect", by simp, rfl⟩
      · exact Or.inr ⟨b!"rectangle", by simp, rfl⟩)
    (by decide)
  rw [parse_joined t pre _ _ hv hp]
  have hn := any_nan_map [a, b, c, d]
  unfold ofSequence
  rw [hn]
  rcases ht with rfl | rfl <;> rfl

/-- **C105, what holds (polygons).** An even number of at least six numbers, with or without the name of the format in front,
is read as the polygon of these points. Missing: as for rectangles. -/
theorem C105_polygon_partial (pre : Str) (hpre : pre ∈ [[], b!"poly:", b!"polygon:"]) (ps : List (Numeral × Numeral))
    (h3 : 3 ≤ ps.length) (hv : ∀ p ∈ ps, p.1.WellFormed ∧ p.2.WellFormed) :
    ∃ qs, parse (pre ++ joined (ps.flatMap fun p => [p.1, p.2])) = .ok ⟨1, some (.polygon qs), 0⟩ ∧
      List.Forall₂ (fun p q => p.1.ReadAs q.1 ∧ p.2.ReadAs q.2) ps qs := by
  have hv' : ∀ n ∈ ps.flatMap (fun p => [p.1, p.2]), n.WellFormed := by
    intro n hn
    obtain ⟨p, hp, hn⟩ := List.mem_flatMap.mp hn
    simp only [List.mem_cons, List.not_mem_nil, or_false] at hn
    rcases hn with rfl | rfl
    · exact (hv p hp).1
    · exact (hv p hp).2
  have hlen : (ps.flatMap fun p => [p.1, p.2]).length = 2 * ps.length := by
    clear h3 hv hv'
    induction ps with
    | nil => rfl
    | cons p ps ih => simp only [List.flatMap_cons, List.length_append, ih, List.length_cons, List.length_nil]; omega
  refine ⟨ps.map fun p => (readNumeral p.1, readNumeral p.2), ?_, ?_⟩
  · obtain ⟨t, ht, hp⟩ := prefix_cases (pre := pre) (names := [b!"poly", b!"polygon"]) (type := .polygon) _ hv'
      (by
        simp only [List.mem_cons, List.not_mem_nil, or_false] at hpre
        rcases hpre with rfl | rfl | rfl
        · exact Or.inl rfl
        · exact Or.inr ⟨b!"poly", by simp, rfl⟩
        · exact Or.inr ⟨b!"polygon", by simp, rfl⟩)
      (by decide)
    have hpair := pairUp_pairs ps
    generalize ps.flatMap (fun p => [p.1, p.2]) = ns at *
    cases ns with
    | nil => rw [List.length_nil] at hlen; omega
    | cons n ns =>
      rw [parse_joined t pre _ _ hv' hp]
      have hn := any_nan_map (n :: ns)
      unfold ofSequence
      rw [hn]
      have hl : ((n :: ns).map readNumeral).length = 2 * ps.length := by rw [List.length_map, hlen]
      simp only [Bool.false_eq_true, if_false, hl]
      have h6 : 6 ≤ 2 * ps.length ∧ 2 * ps.length % 2 = 0 := by omega
      have hif : (if t = .empty then (if 2 * ps.length = 1 then RegionType.special else if 2 * ps.length = 4 then .rectangle
          else if 6 ≤ 2 * ps.length ∧ 2 * ps.length % 2 = 0 then .polygon else .empty) else t) = .polygon := by
        rcases ht with rfl | rfl
        · rfl
        · rw [if_pos rfl, if_neg (by omega), if_neg (by omega), if_pos h6]
      rw [hif]
      simp only [h6, and_self, if_true, hpair]
      rfl
  · clear hlen hv' h3 hpre hv
    induction ps with
    | nil => exact .nil
    | cons p ps ih => exact .cons ⟨numeral_readAs _, numeral_readAs _⟩ ih

/-- **C105, what holds (special codes).** One whole number of at most 2^24 is read as that code. Missing: as for rectangles. -/
theorem C105_special_partial (pre : Str) (hpre : pre ∈ [[], b!"special:"]) (n : Numeral) (hv : n.WellFormed) (code : Int)
    (hc : n.value = code) (h24 : |code| ≤ 2 ^ 24) :
    parse (pre ++ joined [n]) = .ok ⟨1, some (.special code), 0⟩ := by
  obtain ⟨t, ht, hp⟩ := prefix_cases (pre := pre) (names := [b!"special"]) (type := .special) [n] (by simpa using hv)
    (by
      simp only [List.mem_cons, List.not_mem_nil, or_false] at hpre
      rcases hpre with rfl | rfl
      · exact Or.inl rfl
      · exact Or.inr ⟨b!"special", by simp, rfl⟩)
    (by decide)
  rw [parse_joined t pre n [] (by simpa using hv) hp]
  rw [List.map_cons, List.map_nil, ofSequence_special ht (any_nan_map [n]) (readNumeral_toInt n code h24 hc)]
  rfl

/-- **C105, what holds (masks).** Behind `mask:`, the position, the size and the lengths of the runs give the mask with
these pixels; what the runs do not cover is background. Missing: as for rectangles, numbers above 2^24 and sizes that are not positive. -/
theorem C105_mask_partial (a b c d : Numeral) (rs : List Numeral) (hv : ∀ n ∈ a :: b :: c :: d :: rs, n.WellFormed) (hrs : rs ≠ [])
    (x y w h : Int) (runs : List Nat) (ha : a.value = x) (hb : b.value = y) (hc : c.value = w) (hd : d.value = h)
    (hr : List.Forall₂ (fun (m : Numeral) (k : Nat) => m.value = k) rs runs) (hw : 0 < w) (hh : 0 < h)
    (hs : w * h < 2147483648) (h24 : |x| ≤ 2 ^ 24 ∧ |y| ≤ 2 ^ 24 ∧ w ≤ 2 ^ 24 ∧ h ≤ 2 ^ 24 ∧ ∀ k ∈ runs, k ≤ 2 ^ 24) :
    parse (b!"mask:" ++ joined (a :: b :: c :: d :: rs)) = .ok ⟨1, some (.mask x y w h (unrolled 0 runs (w * h).toNat)), 0⟩ := by
  rw [parse_joined .mask _ _ _ hv (parsePrefix_mask _)]
  cases rs with
  | nil => contradiction
  | cons r rs =>
    have hdec := decodeRuns_unrolled (r :: rs) runs h24.2.2.2.2 hr false (w * h).toNat
    have hpos : 0 < w * h := Int.mul_pos hw hh
    have := ofSequence_mask (any_nan_map (a :: b :: c :: d :: r :: rs)) (readNumeral_toInt a x h24.1 ha)
      (readNumeral_toInt b y h24.2.1 hb) (readNumeral_toInt c w (by rw [abs_of_pos hw]; exact h24.2.2.1) hc)
      (readNumeral_toInt d h (by rw [abs_of_pos hh]; exact h24.2.2.2.1) hd) (by unfold InInt32; omega) hdec
    simp only [List.map_cons] at this ⊢
    rw [this]
    rfl

/-- **C105, what holds (no region).** Without a name in front, no other number of numbers is read as a region. -/
theorem C105_count_partial (ns : List Numeral) (hv : ∀ n ∈ ns, n.WellFormed) (hne : ns ≠ []) (h1 : ns.length ≠ 1) (h4 : ns.length ≠ 4)
    (h6 : ns.length < 6 ∨ ns.length % 2 = 1) :
    parse (joined ns) = .ok ⟨0, none, 0⟩ := by
  cases ns with
  | nil => contradiction
  | cons n ns =>
    have := parse_joined .empty [] n ns hv (parsePrefix_plain _ (by rw [List.nil_append]; exact joined_no_colon _ hv))
    rw [List.nil_append] at this
    rw [this]
    unfold ofSequence
    rw [any_nan_map]
    simp only [List.length_map, Bool.false_eq_true, if_false, if_true, if_neg h1, if_neg h4]
    rw [if_neg (by omega)]
    rfl

example : joined [{ whole := b!"10", frac := some b!"5" }, { before := b!" ", neg := true, whole := b!"3" },
      { plus := true, whole := [], frac := some b!"25", exponent := some { capital := true, neg := true, digits := b!"2" }, after := b!" " }] = b!"10.5, -3,+.25E-2 " ∧
    Numeral.WellFormed { plus := true, whole := [], frac := some b!"25", exponent := some { capital := true, neg := true, digits := b!"2" }, after := b!" " } ∧
    Numeral.value { plus := true, whole := [], frac := some b!"25", exponent := some { capital := true, neg := true, digits := b!"2" }, after := b!" " } = 1 / 400 ∧
    Numeral.WellFormed { before := b!" ", neg := true, whole := b!"3" } ∧ Numeral.Short { before := b!" ", neg := true, whole := b!"3" } ∧
    Numeral.WellFormed { whole := b!"10", frac := some b!"5" } ∧ Numeral.Short { whole := b!"10", frac := some b!"5" } := by
  refine ⟨by decide, ⟨by decide, by decide, by decide, ?_⟩, ?_, ⟨by decide, by decide, by decide, by simp⟩, ⟨rfl, by decide, ?_⟩,
    ⟨by decide, by decide, by decide, by simp⟩, ⟨rfl, by decide, ?_⟩⟩
  · intro e he
    cases he
    exact ⟨by decide, by decide⟩
  · have h1 : digits b!"25" = 25 := by decide
    have h2 : digits b!"2" = 2 := by decide
    norm_num [Numeral.value, exponentValue, Exponent.value, h1, h2]
  · have : digits b!"3" = 3 := by decide
    norm_num [Numeral.value, exponentValue, this]
  · have : digits b!"105" = 105 := by decide
    norm_num [Numeral.value, exponentValue, this]

example : parse b!"10.5, -3,4 ,007.25" =
    .ok ⟨1, some (.rectangle (.fin false (21 * 2 ^ 148)) (.fin true (3 * 2 ^ 149)) (.fin false (4 * 2 ^ 149)) (.fin false (29 * 2 ^ 147))), 0⟩ := by
  decide +kernel

example : unrolled 0 [1, 2, 9] 6 = [0, 1, 1, 0, 0, 0] := by decide

/-- **C105, violated: more decimals.** A number is read with double precision first. A little more than the middle between two single precision numbers is
taken for the middle itself, which goes to the wrong one: 1.000000059604644776 is read as 1, while the next number, 1 + 2^-23, is nearer. -/
theorem C105_rounding_false :
    parse b!"1.000000059604644776,0,0,0" = .ok ⟨1, some (.rectangle (.fin false (2 ^ 149)) (.fin false 0) (.fin false 0) (.fin false 0)), 0⟩ ∧
    (Numeral.text { whole := b!"1", frac := some b!"000000059604644776" } = b!"1.000000059604644776") ∧
    ¬ Nearest (Numeral.value { whole := b!"1", frac := some b!"000000059604644776" }) (.fin false (2 ^ 149)) := by
  refine ⟨by decide +kernel, by decide, fun h => ?_⟩
  have h2 := h.2.2 (.fin false (2 ^ 149 + 2 ^ 126)) (by decide +kernel) trivial
  have hd : digits b!"1000000059604644776" = 1000000059604644776 := by decide
  simp only [Flt.value, Numeral.value, exponentValue, Bool.false_eq_true, if_false, Option.getD_some, List.length_cons, List.length_nil,
    List.cons_append, List.nil_append, hd, zpow_zero, mul_one, one_mul] at h2
  norm_num [abs_of_nonneg, abs_of_nonpos] at h2

/-- **C105, violated.** Names of no format are taken for one when they differ in the last letter only, a name of one letter
is always taken for `rect`, and a name with a number of values that does not fit aborts the process. -/
theorem C105_names_false :
    parse b!"mass:0,0,2,1,0,1" = .ok ⟨1, some (.mask 0 0 2 1 [1, 0]), 0⟩ ∧
    parse b!"p:1,2,3,4" = .ok ⟨1, some (.rectangle (.fin false (2 ^ 149)) (.fin false (2 * 2 ^ 149)) (.fin false (3 * 2 ^ 149))
      (.fin false (4 * 2 ^ 149))), 0⟩ ∧
    parse b!"p:1,2,3,4,5,6" = .abort ∧ parse b!"poly:1,2,3,4" = .abort ∧ parse b!"special:1,2" = .abort := by
  refine ⟨by decide +kernel, by decide +kernel, by decide +kernel, by decide +kernel, by decide +kernel⟩

end Trax
