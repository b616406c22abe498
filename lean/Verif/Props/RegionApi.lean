import Verif.Lemmas.RegionApi
import Verif.Spec.ObjectLists

/-!
# Property theorems C39, C72, C74–C76: region functions of the API

`r.apiType` is the number that `trax_region_get_type` returns: `TRAX_REGION_SPECIAL` 1, `_RECTANGLE` 2,
`_POLYGON` 4, `_MASK` 8. A set of formats `S` contains the format `t` if `S &&& t ≠ 0`.
-/

namespace Trax
open Region

open Spec

/-! ## C39: unsupported formats -/

/-- **C39, what is sent.** Whatever region the client sends for a given one, its format is one that the
tracker declared. -/
theorem C39_sent_format_partial (legacy : Bool) (fresh : Nat → List UInt8) (r r' : Region) (S : UInt32)
    (h : toSend legacy fresh r S = .ok r') : S &&& r'.apiType ≠ 0 := by
  unfold toSend at h
  split at h
  · next hs => cases h; simpa [supports] using hs
  · obtain ⟨c, h1, h2⟩ := bind_eq_ok h
    cases c with
    | none => cases h2
    | some r'' =>
      cases h2
      unfold autoconvert at h1
      obtain ⟨a1, a2, a3, -⟩ := @apiType_of_type r'
      split at h1
      · next hs => rw [a1 (convert_type h1)]; simpa [supports] using hs
      · split at h1
        · next hs => rw [a2 (convert_type h1)]; simpa [supports] using hs
        · split at h1
          · next hs => rw [a3 (convert_type h1)]; simpa [supports] using hs
          · cases h1

/-- **C39, the conversion.** A rectangle, polygon or well-formed mask is always converted if the tracker
declared rectangles or polygons, but no masks. Missing: trackers that declare masks (see C43), special
regions, and trackers that declare nothing; there the client can be aborted. -/
theorem C39_converts_partial (legacy : Bool) (fresh : Nat → List UInt8) (r : Region) (S : UInt32)
    (hr : WellFormed r) (hns : r.apiType ≠ 1) (hs : S &&& 2 ≠ 0 ∨ S &&& 4 ≠ 0) (hm : S &&& 8 = 0) :
    ∃ r', toSend legacy fresh r S = .ok r' := by
  have hm' : supports S 8 = false := by simp [supports, hm]
  unfold toSend autoconvert
  split
  · exact ⟨r, rfl⟩
  rw [if_neg (by simp [hm'])]
  have hmask : ∀ x y w h data, r = .mask x y w h data → ∃ b, Bounds.ofMask x y w h data = .ok b := by
    rintro x y w h data rfl
    obtain ⟨h1, h2, h3, h4⟩ := hr
    refine ⟨_, if_neg ?_⟩
    rintro ⟨-, -, h | h⟩
    · apply h; have := Int.mul_pos h1 h2; unfold InInt32; omega
    · omega
  have key : ∀ t, t = RegionType.polygon ∨ t = .rectangle → ∃ r', convert legacy fresh r t = .ok (some r') := by
    rintro t (rfl | rfl) <;> cases r with
    | special c => exact absurd rfl hns
    | rectangle x y w h => exact ⟨_, rfl⟩
    | polygon ps => exact ⟨_, rfl⟩
    | mask x y w h data =>
      obtain ⟨b, hb⟩ := hmask x y w h data rfl
      simp only [convert, hb]
      exact ⟨_, rfl⟩
  split
  · obtain ⟨r', h'⟩ := key .polygon (Or.inl rfl)
    exact ⟨r', by rw [show typeBack 4 = RegionType.polygon from rfl, h']; rfl⟩
  · next h4 =>
    rw [if_pos]
    · obtain ⟨r', h'⟩ := key .rectangle (Or.inr rfl)
      exact ⟨r', by rw [show typeBack 2 = RegionType.rectangle from rfl, h']; rfl⟩
    · rcases hs with h | h
      · simpa [supports] using h
      · exact absurd (by simpa [supports] using h) h4

/-- **C39, violated.** A special region cannot be sent to any tracker (the formats a tracker can declare
are 2, 4 and 8): the client is aborted. -/
theorem C39_special_false (legacy : Bool) (fresh : Nat → List UInt8) (code : Int) (S : UInt32) (hS : S &&& 1 = 0) :
    toSend legacy fresh (.special code) S = .abort := by
  have : supports S (Region.special code).apiType = false := by
    show (S &&& 1 != 0) = false
    simp [hS]
  unfold toSend autoconvert
  rw [if_neg (by simp [this])]
  split
  · rfl
  · split
    · rfl
    · split <;> rfl

/-- **C39, violated.** A rectangle that is less than a pixel wide cannot be sent to a tracker for masks. -/
theorem C39_thin_rectangle_false :
    toSend false (fun n => List.replicate n 0) (.rectangle (.ofInt 5) (.ofInt 5) (Flt.one.divF (.ofInt 2)) (.ofInt 3)) 8 = .abort := by
  decide +kernel

/-- The hypotheses are met by a mask that is sent as a polygon. -/
example : WellFormed (.mask 1 2 2 2 [0, 1, 0, 0]) ∧
    toSend false (fun n => List.replicate n 0) (.mask 1 2 2 2 [0, 1, 0, 0]) 4 =
      .ok (.polygon [(.ofInt 2, .ofInt 2), (.ofInt 2, .ofInt 2), (.ofInt 2, .ofInt 2), (.ofInt 2, .ofInt 2)]) := by
  decide +kernel

/-! ## C72: polygon points -/

/-- **C72, violated.** Neither writing nor reading one position behind the last point is refused:
both are undefined behaviour. -/
theorem C72_out_of_range_false (ps : List (Flt × Flt)) (x y : Flt) :
    setPolygonPoint (.polygon ps) ps.length x y = .ub ∧ getPolygonPoint (.polygon ps) ps.length = .ub ∧
    (ps ≠ [] → setPolygonPoint (.polygon ps) (-1) x y = .ub ∧ getPolygonPoint (.polygon ps) (-1) = .ub) := by
  refine ⟨?_, ?_, ?_⟩
  · simp [setPolygonPoint]
  · simp [getPolygonPoint]
  · intro h
    have : 0 < ps.length := List.length_pos_iff.mpr h
    have h1 : (-1 : Int) ≥ 0 ∨ (-1 : Int) < ps.length := by omega
    constructor
    · simp only [setPolygonPoint]; rw [if_pos h1]; simp
    · simp only [getPolygonPoint]; rw [if_pos h1]; simp

/-- **C72, what holds.** For an index inside the polygon the number of points stays the same, the written
point is read back and all others are unchanged. Missing: the refusal of other indexes, see above. -/
theorem C72_in_range_partial (ps : List (Flt × Flt)) (i : Int) (hi : 0 ≤ i ∧ i < ps.length) (x y : Flt) :
    ∃ r, setPolygonPoint (.polygon ps) i x y = .ok r ∧
      getPolygonCount r = .ok ps.length ∧ getPolygonPoint r i = .ok (x, y) ∧
      ∀ j : Int, 0 ≤ j → j < ps.length → j ≠ i → getPolygonPoint r j = getPolygonPoint (.polygon ps) j := by
  refine ⟨.polygon (ps.set i.toNat (x, y)), ?_, ?_, ?_, ?_⟩
  · simp only [setPolygonPoint]; rw [if_pos (Or.inl hi.1), if_pos hi]
  · simp [getPolygonCount]
  · simp only [getPolygonPoint]
    rw [if_pos (Or.inl hi.1), if_pos hi.1, List.getElem?_set_self (by omega)]
  · intro j h0 h1 hne
    simp only [getPolygonPoint]
    rw [if_pos (Or.inl h0), if_pos (Or.inl h0), List.getElem?_set_ne (by omega)]

example : (0 : Int) ≤ 2 ∧ (2 : Int) < [(Flt.ofInt 1, Flt.ofInt 1), (.ofInt 2, .ofInt 2), (.ofInt 3, .ofInt 1)].length := by decide

/-- The accessors of polygons refuse every other region. -/
theorem C72_type_guard (r : Region) (h : r.apiType ≠ 4) (i : Int) (x y : Flt) :
    setPolygonPoint r i x y = .abort ∧ getPolygonPoint r i = .abort ∧ getPolygonCount r = .abort := by
  cases r with
  | polygon ps => exact absurd rfl h
  | _ => exact ⟨rfl, rfl, rfl⟩

/-! ## C74: clones -/

/-- **C74.** The clone of a well-formed region is equal to it. -/
theorem C74_clone (legacy : Bool) (fresh : Nat → List UInt8) (r : Region) (hr : WellFormed r) :
    clone legacy fresh (some r) = .ok (some r) := by
  show convert legacy fresh r (typeBack r.apiType) = _
  rw [typeBack_apiType]
  cases r with
  | special c => rfl
  | rectangle x y w h => rfl
  | polygon ps => rfl
  | mask x y w h data =>
    obtain ⟨h1, h2, h3, h4⟩ := hr
    simp only [type, convert, createMask]
    rw [if_pos ⟨h1, h2⟩, Outcome.bind_ok]
    have := Int.mul_pos h1 h2
    rw [mul32, if_pos (by unfold InInt32; omega), Outcome.bind_ok, if_pos (by omega)]
    rw [List.take_of_length_le (by omega)]

/-- There is nothing to clone for NULL, and the type of the result is always that of the original. -/
theorem C74_clone_type (legacy : Bool) (fresh : Nat → List UInt8) (r c : Option Region)
    (h : clone legacy fresh r = .ok c) (hr : ∀ r₀, r = some r₀ → WellFormed r₀) : getType c = getType r := by
  cases r with
  | none => cases h; rfl
  | some r => rw [C74_clone legacy fresh r (hr r rfl)] at h; cases h; rfl

example : WellFormed (.mask (-3) 4 2 3 [1, 0, 0, 1, 1, 1]) := by decide

/-! ## C75: typed accessors -/

/-- **C75.** What is set is read back, for special regions and rectangles; what is created is read back. -/
theorem C75_set_get (r : Region) :
    (∀ code r', setSpecial r code = .ok r' → getSpecial r' = .ok code ∧ r'.apiType = r.apiType) ∧
    (∀ x y w h r', setRectangle r x y w h = .ok r' → getRectangle r' = .ok (x, y, w, h) ∧ r'.apiType = r.apiType) ∧
    (∀ code, getSpecial (createSpecial code) = .ok code) ∧
    (∀ x y w h, getRectangle (createRectangle x y w h) = .ok (x, y, w, h)) ∧
    (∀ fresh x y w h m, apiCreateMask fresh x y w h = .ok m → getMaskHeader m = .ok (x, y, w, h)) ∧
    (∀ fresh n p, createPolygon fresh n = .ok p → (∀ n, (fresh n).length = n) → getPolygonCount p = .ok n) := by
  refine ⟨?_, ?_, fun _ => rfl, fun _ _ _ _ => rfl, ?_, ?_⟩
  · intro code r' h
    cases r <;> cases h
    exact ⟨rfl, rfl⟩
  · intro x y w h r' h
    cases r <;> cases h
    exact ⟨rfl, rfl⟩
  · intro fresh x y w h m hm
    unfold apiCreateMask createMask at hm
    split at hm
    · cases hm; rfl
    · cases hm
  · intro fresh n p hp hl
    unfold createPolygon at hp
    split at hp
    · cases hp
      simp only [getPolygonCount, hl]
      congr 1; omega
    · cases hp

/-- **C75.** An accessor called for a region of another type is refused (the program is stopped), and
for its own type it is accepted. -/
theorem C75_type_guard (r : Region) :
    ((∃ c, getSpecial r = .ok c) ↔ r.apiType = 1) ∧ (∀ code, (∃ r', setSpecial r code = .ok r') ↔ r.apiType = 1) ∧
    ((∃ c, getRectangle r = .ok c) ↔ r.apiType = 2) ∧
    (∀ x y w h, (∃ r', setRectangle r x y w h = .ok r') ↔ r.apiType = 2) ∧
    ((∃ c, getMaskHeader r = .ok c) ↔ r.apiType = 8) ∧
    (r.apiType ≠ 1 → getSpecial r = .abort ∧ ∀ code, setSpecial r code = .abort) ∧
    (r.apiType ≠ 2 → getRectangle r = .abort ∧ ∀ x y w h, setRectangle r x y w h = .abort) ∧
    (r.apiType ≠ 8 → getMaskHeader r = .abort ∧ ∀ row, maskRow r row = .abort) := by
  cases r <;> simp [getSpecial, setSpecial, getRectangle, setRectangle, getMaskHeader, maskRow, apiType, type]

/-! ## C76: rows of masks -/

/-- **C76.** For a well-formed mask, row `row` is available exactly for `0 ≤ row < height`, its `width`
pixels can be written, what is written is read back, and no other pixel changes. -/
theorem C76_mask_rows (x y w h : Int) (data : List UInt8) (hr : WellFormed (.mask x y w h data)) (row : Int) :
    (¬ (0 ≤ row ∧ row < h) → maskRow (.mask x y w h data) row = .abort) ∧
    (0 ≤ row → row < h → ∀ j, 0 ≤ j → j < w → ∀ v, ∃ r',
      writeMaskPixel (.mask x y w h data) row j v = .ok r' ∧ WellFormed r' ∧
      getMaskHeader r' = .ok (x, y, w, h) ∧ readMaskPixel r' row j = .ok v ∧
      ∀ i k, 0 ≤ i → i < h → 0 ≤ k → k < w → (i, k) ≠ (row, j) →
        readMaskPixel r' i k = readMaskPixel (.mask x y w h data) i k) := by
  obtain ⟨hw, hh, hl, hm⟩ := hr
  have hrow : ∀ i k : Int, 0 ≤ i → i < h → 0 ≤ k → k < w →
      0 ≤ w * i ∧ 0 ≤ w * i + k ∧ w * i + k < data.length ∧ mul32 w i = .ok (w * i) := by
    intro i k hi0 hi1 hk0 hk1
    have h1 : 0 ≤ w * i := Int.mul_nonneg (by omega) hi0
    have h2 : w * i + w ≤ w * h := by
      have : w * (i + 1) ≤ w * h := Int.mul_le_mul_of_nonneg_left (by omega) (by omega)
      rw [Int.mul_add] at this; omega
    refine ⟨h1, by omega, by omega, ?_⟩
    unfold mul32
    rw [if_pos (by unfold InInt32; omega)]
  constructor
  · intro hn
    simp only [maskRow]
    rw [if_neg hn]
  · intro h0 h1 j hj0 hj1 v
    obtain ⟨a1, a2, a3, a4⟩ := hrow row j h0 h1 hj0 hj1
    refine ⟨.mask x y w h (data.set (w * row + j).toNat v), ?_, ⟨hw, hh, by simpa using hl, hm⟩, rfl, ?_, ?_⟩
    · simp only [writeMaskPixel, maskRow]
      rw [if_pos ⟨h0, h1⟩, a4, Outcome.bind_ok]
      unfold writeAt
      rw [if_pos ⟨a2, a3⟩]; rfl
    · simp only [readMaskPixel, maskRow]
      rw [if_pos ⟨h0, h1⟩, a4, Outcome.bind_ok]
      unfold readAt
      rw [if_pos a2, List.getElem?_set_self (by omega)]
    · intro i k hi0 hi1 hk0 hk1 hne
      obtain ⟨b1, b2, b3, b4⟩ := hrow i k hi0 hi1 hk0 hk1
      simp only [readMaskPixel, maskRow]
      rw [if_pos ⟨hi0, hi1⟩, b4, Outcome.bind_ok, Outcome.bind_ok]
      unfold readAt
      rw [if_pos b2, if_pos b2, List.getElem?_set_ne]
      intro he
      apply hne
      have he' : w * row + j = w * i + k := by omega
      have hri : row = i := by
        rcases Int.lt_trichotomy row i with hlt | heq | hgt
        · exfalso
          have : w * (row + 1) ≤ w * i := Int.mul_le_mul_of_nonneg_left (by omega) (by omega)
          rw [Int.mul_add] at this; omega
        · exact heq
        · exfalso
          have : w * (i + 1) ≤ w * row := Int.mul_le_mul_of_nonneg_left (by omega) (by omega)
          rw [Int.mul_add] at this; omega
      subst hri
      have : j = k := by omega
      subst this; rfl

example : WellFormed (.mask 0 0 3 2 [0, 1, 0, 0, 0, 1]) ∧
    (writeMaskPixel (.mask 0 0 3 2 [0, 1, 0, 0, 0, 1]) 1 0 9 = .ok (.mask 0 0 3 2 [0, 1, 0, 9, 0, 1])) := by decide

end Trax
