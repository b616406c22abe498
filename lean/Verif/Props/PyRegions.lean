import Verif.Lemmas.PyValues

/-!
# Property theorem C138: regions in the Python package
-/

namespace Trax
open Py Py.Spec
open Trax.Spec (NextFloat SameNumber)

/-! ## Special regions and rectangles -/

/-- **C138, special regions**: the code is the number that was given, if it is an `int`. -/
theorem C138_special_partial (code : Int) (h : InInt32 code) :
    specialCode (specialCreate code) = .ok code ∧ regionKind (some (specialCreate code)) = some t!"special" := by
  refine ⟨?_, rfl⟩
  show Outcome.ok (wrap32 code) = _
  rw [wrap32_int h]

/-- **C138, rectangles**: a rectangle has the nearest `float`s to the numbers given, and `bounds` gives these numbers; of the bounds of any rectangle of the library `create` makes
the same rectangle. -/
theorem C138_rectangles :
    (∀ x y w h : Flt, ∃ x' y' w' h' a b c d, rectangleCreate x y w h = .rectangle x' y' w' h' ∧ NextFloat x x' ∧ NextFloat y y' ∧ NextFloat w w' ∧ NextFloat h h' ∧
      rectangleBounds (.rectangle x' y' w' h') = .ok (a, b, c, d) ∧ SameNumber x' a ∧ SameNumber y' b ∧ SameNumber w' c ∧ SameNumber h' d) ∧
    ∀ x y w h : Flt, x.IsFloat → y.IsFloat → w.IsFloat → h.IsFloat → regionKind (some (.rectangle x y w h)) = some t!"rectangle" ∧
      ∃ a b c d, rectangleBounds (.rectangle x y w h) = .ok (a, b, c, d) ∧ SameNumber x a ∧ SameNumber y b ∧ SameNumber w c ∧ SameNumber h d ∧
        rectangleCreate a b c d = .rectangle x y w h := by
  refine ⟨fun x y w h => ⟨_, _, _, _, _, _, _, _, rfl, Mex.nextFloat_toFloat x, Mex.nextFloat_toFloat y, Mex.nextFloat_toFloat w, Mex.nextFloat_toFloat h, rfl,
    Mex.sameNumber_widen _, Mex.sameNumber_widen _, Mex.sameNumber_widen _, Mex.sameNumber_widen _⟩, fun x y w h hx hy hw hh => ⟨rfl, _, _, _, _, rfl,
    Mex.sameNumber_widen _, Mex.sameNumber_widen _, Mex.sameNumber_widen _, Mex.sameNumber_widen _, ?_⟩⟩
  show Region.rectangle x.widen.toFloat y.widen.toFloat w.widen.toFloat h.widen.toFloat = _
  rw [Mex.widen_toFloat hx, Mex.widen_toFloat hy, Mex.widen_toFloat hw, Mex.widen_toFloat hh]

example : (Flt.fin false (5 * 2 ^ 148)).IsFloat ∧ (Flt.fin true (3 * 2 ^ 149)).IsFloat := by decide +kernel

/-! ## Polygons -/

/-- The step of the loop in `Polygon.create`. -/
def polygonStep (acc : Outcome (Except Exc Region)) (p : List Flt × Nat) : Outcome (Except Exc Region) :=
  acc.bind fun acc => match acc with
    | .error e => .ok (.error e)
    | .ok poly => match p.1 with
      | x :: y :: _ => (Region.setPolygonPoint poly (wrap32 p.2) x.toFloat y.toFloat).map .ok
      | _ => .ok (.error .index)

theorem polygonStep_error (l : List (List Flt × Nat)) (e : Exc) : l.foldl polygonStep (.ok (.error e)) = .ok (.error e) := by
  induction l with
  | nil => rfl
  | cons p l ih => exact ih

theorem polygonStep_ok : ∀ (points : List (List Flt)) (s : Nat) (qs : List (Flt × Flt)), s + points.length ≤ qs.length → qs.length < 2147483648 →
    (∀ p ∈ points, 2 ≤ p.length) →
    ∃ rs, (points.zipIdx s).foldl polygonStep (.ok (.ok (.polygon qs))) = .ok (.ok (.polygon rs)) ∧ rs.length = qs.length ∧
      (∀ k, k < s → rs[k]? = qs[k]?) ∧ ∀ k x y l, points[k]? = some (x :: y :: l) → rs[s + k]? = some (x.toFloat, y.toFloat)
  | [], s, qs, _, _, _ => ⟨qs, rfl, rfl, fun _ _ => rfl, fun k x y l h => by simp at h⟩
  | p :: points, s, qs, hl, hq, hp => by
    obtain ⟨x, y, t, rfl⟩ : ∃ x y t, p = x :: y :: t := by
      match p, hp p List.mem_cons_self with
      | x :: y :: t, _ => exact ⟨x, y, t, rfl⟩
    rw [List.length_cons] at hl
    have hstep : polygonStep (.ok (.ok (.polygon qs))) (x :: y :: t, s) = .ok (.ok (.polygon (qs.set s (x.toFloat, y.toFloat)))) := by
      unfold polygonStep Region.setPolygonPoint
      dsimp only
      rw [Outcome.bind_ok, wrap32_nat (by omega)]
      dsimp only
      rw [if_pos (by omega), if_pos (by omega), Int.toNat_natCast]
      rfl
    obtain ⟨rs, h1, h2, h3, h4⟩ := polygonStep_ok points (s + 1) (qs.set s (x.toFloat, y.toFloat)) (by rw [List.length_set]; omega) (by rw [List.length_set]; exact hq)
      fun p h => hp p (List.mem_cons_of_mem _ h)
    refine ⟨rs, by rw [List.zipIdx_cons, List.foldl_cons, hstep]; exact h1, by rw [h2, List.length_set], fun k hk => ?_, fun k a b l h => ?_⟩
    · rw [h3 k (by omega), List.getElem?_set_ne (by omega)]
    · cases k with
      | zero =>
        simp only [List.getElem?_cons_zero, Option.some.injEq, List.cons.injEq] at h
        obtain ⟨rfl, rfl, -⟩ := h
        rw [Nat.add_zero, h3 s (by omega), List.getElem?_set_self (by omega)]
      | succ k =>
        rw [List.getElem?_cons_succ] at h
        rw [← h4 k a b l h]
        exact congrArg (fun m => rs[m]?) (by omega)

theorem polygonStep_fails : ∀ (points : List (List Flt)) (s : Nat) (qs : List (Flt × Flt)), s + points.length ≤ qs.length → qs.length < 2147483648 →
    (∃ p ∈ points, p.length < 2) → (points.zipIdx s).foldl polygonStep (.ok (.ok (.polygon qs))) = .ok (.error .index)
  | [], _, _, _, _, h => by simp at h
  | p :: points, s, qs, hl, hq, h => by
    rw [List.length_cons] at hl
    rw [List.zipIdx_cons, List.foldl_cons]
    match p, h with
    | [], _ => exact polygonStep_error _ _
    | [_], _ => exact polygonStep_error _ _
    | x :: y :: t, h =>
      have hstep : polygonStep (.ok (.ok (.polygon qs))) (x :: y :: t, s) = .ok (.ok (.polygon (qs.set s (x.toFloat, y.toFloat)))) := by
        unfold polygonStep Region.setPolygonPoint
        dsimp only
        rw [Outcome.bind_ok, wrap32_nat (by omega)]
        dsimp only
        rw [if_pos (by omega), if_pos (by omega), Int.toNat_natCast]
        rfl
      rw [hstep]
      refine polygonStep_fails points (s + 1) _ (by rw [List.length_set]; omega) (by rw [List.length_set]; exact hq) ?_
      obtain ⟨p, hp, hlt⟩ := h
      rcases List.mem_cons.1 hp with rfl | hp
      · simp only [List.length_cons] at hlt
        omega
      · exact ⟨p, hp, hlt⟩

theorem polygonCreate_eq (freshPoints : Nat → List (Flt × Flt)) (points : List (List Flt)) (h2 : 2 < points.length) (h3 : points.length < 2147483648) :
    polygonCreate freshPoints points = points.zipIdx.foldl polygonStep (.ok (.ok (.polygon (freshPoints points.length)))) := by
  unfold polygonCreate Region.createPolygon
  rw [if_neg (by omega), wrap32_nat h3, if_pos (by omega), Outcome.bind_ok, Int.toNat_natCast]
  rfl

theorem polygonGet_ok {ps : List (Flt × Flt)} {k : Nat} {p : Flt × Flt} (h : ps[k]? = some p) :
    polygonGet (.polygon ps) k = .ok (.ok (p.1.widen, p.2.widen)) := by
  have hk : k < ps.length := by
    by_contra hc
    rw [List.getElem?_eq_none (by omega)] at h
    cases h
  unfold polygonGet polygonSize Region.getPolygonCount Region.getPolygonPoint
  dsimp only
  rw [if_neg (by omega), Outcome.bind_ok, if_neg (by omega), if_pos (.inl (by omega)), if_pos (by omega), Int.toNat_natCast, h]
  rfl

theorem polygonIterate_ok (ps : List (Flt × Flt)) : ∀ (n k : Nat), k + n = ps.length →
    polygonIterate (.polygon ps) ps.length (n + 1) k = .ok (.ok ((ps.drop k).map fun p => (p.1.widen, p.2.widen)))
  | 0, k, h => by
    rw [polygonIterate, if_pos (by omega), List.drop_eq_nil_of_le (by omega)]
    rfl
  | n + 1, k, h => by
    have hk : k < ps.length := by omega
    have ih := polygonIterate_ok ps n (k + 1) (by omega)
    rw [polygonIterate, if_neg (by omega), polygonGet_ok (List.getElem?_eq_getElem hk), Outcome.bind_ok]
    dsimp only
    rw [show ((k : Int) + 1) = ((k + 1 : Nat) : Int) by push_cast; rfl, ih, List.drop_eq_getElem_cons hk]
    rfl

/-- **C138, polygons**: of three or more points `create` makes a polygon with the nearest `float`s; its `size` is their number, `get` gives the points and a loop over the polygon all of them in their order;
other indices raise an `IndexError`. A point with fewer than two coordinates raises an `IndexError`, a list of fewer than three points an `AssertionError`. -/
theorem C138_polygons (freshPoints : Nat → List (Flt × Flt)) (hfresh : ∀ n, (freshPoints n).length = n) (points : List (List Flt)) (hl : points.length < 2147483648) :
    (points.length < 3 → polygonCreate freshPoints points = .ok (.error .assertion)) ∧
    (3 ≤ points.length → (∃ p ∈ points, p.length < 2) → polygonCreate freshPoints points = .ok (.error .index)) ∧
    (3 ≤ points.length → (∀ p ∈ points, 2 ≤ p.length) → ∃ ps, polygonCreate freshPoints points = .ok (.ok (.polygon ps)) ∧ ps.length = points.length ∧
      ∀ (k : Nat) (x y : Flt) (l : List Flt), points[k]? = some (x :: y :: l) → ∃ x' y', ps[k]? = some (x', y') ∧ NextFloat x x' ∧ NextFloat y y') ∧
    ∀ ps : List (Flt × Flt), polygonSize (.polygon ps) = .ok ps.length ∧ regionKind (some (.polygon ps)) = some t!"polygon" ∧
      (∃ l, polygonList (.polygon ps) = .ok (.ok l) ∧ List.Forall₂ (fun p q : Flt × Flt => SameNumber p.1 q.1 ∧ SameNumber p.2 q.2) ps l) ∧
      (∀ (k : Nat) (p : Flt × Flt), ps[k]? = some p → ∃ x y, polygonGet (.polygon ps) k = .ok (.ok (x, y)) ∧ SameNumber p.1 x ∧ SameNumber p.2 y) ∧
      ∀ i : Int, i < 0 ∨ ps.length ≤ i → polygonGet (.polygon ps) i = .ok (.error .index) := by
  refine ⟨fun h => ?_, fun h hp => ?_, fun h hp => ?_, fun ps => ⟨rfl, rfl, ⟨ps.map fun p => (p.1.widen, p.2.widen), ?_, ?_⟩, fun k p h => ?_, fun i hi => ?_⟩⟩
  · unfold polygonCreate
    rw [if_pos (by omega)]
  · rw [polygonCreate_eq _ _ (by omega) hl]
    exact polygonStep_fails points 0 _ (by rw [hfresh]; omega) (by rw [hfresh]; exact hl) hp
  · obtain ⟨rs, h1, h2, -, h4⟩ := polygonStep_ok points 0 (freshPoints points.length) (by rw [hfresh]; omega) (by rw [hfresh]; exact hl) hp
    refine ⟨rs, by rw [polygonCreate_eq _ _ (by omega) hl]; exact h1, by rw [h2, hfresh], fun k x y l hk => ⟨x.toFloat, y.toFloat, ?_, Mex.nextFloat_toFloat x, Mex.nextFloat_toFloat y⟩⟩
    have := h4 k x y l hk
    rwa [Nat.zero_add] at this
  · have := polygonIterate_ok ps ps.length 0 (by omega)
    unfold polygonList
    rw [show polygonSize (.polygon ps) = .ok (ps.length : Int) from rfl, Outcome.bind_ok, Int.toNat_natCast]
    exact this
  · rw [List.forall₂_map_right_iff, List.forall₂_same]
    exact fun p _ => ⟨Mex.sameNumber_widen _, Mex.sameNumber_widen _⟩
  · exact ⟨_, _, polygonGet_ok h, Mex.sameNumber_widen _, Mex.sameNumber_widen _⟩
  · unfold polygonGet polygonSize Region.getPolygonCount
    rcases hi with hi | hi
    · rw [if_pos hi]
    · rw [if_neg (by omega), Outcome.bind_ok, if_pos hi]

/-- Three points, one with a third coordinate. -/
example : ([[.ofInt 0, .ofInt 1], [.ofInt 2, .ofInt 3, .ofInt 4], [.ofInt 5, .ofInt 6]] : List (List Flt)).length = 3 ∧
    ∀ p ∈ ([[.ofInt 0, .ofInt 1], [.ofInt 2, .ofInt 3, .ofInt 4], [.ofInt 5, .ofInt 6]] : List (List Flt)), 2 ≤ p.length := by
  refine ⟨rfl, fun p hp => ?_⟩
  simp only [List.mem_cons, List.not_mem_nil, or_false] at hp
  rcases hp with rfl | rfl | rfl <;> simp

/-! ## Masks -/

theorem flatMap_range {f : Nat → List UInt8} {L : Nat} : ∀ {n : Nat}, (∀ i < n, (f i).length = L) →
    ((List.range n).flatMap f).length = n * L ∧ ∀ i < n, ∀ k < L, ((List.range n).flatMap f)[i * L + k]? = (f i)[k]?
  | 0, _ => ⟨by simp, fun i hi => absurd hi (by omega)⟩
  | n + 1, h => by
    obtain ⟨h1, h2⟩ := flatMap_range (n := n) fun i hi => h i (by omega)
    rw [List.range_succ, List.flatMap_append, List.flatMap_singleton]
    refine ⟨by rw [List.length_append, h1, h n (by omega), Nat.succ_mul], fun i hi k hk => ?_⟩
    by_cases him : i = n
    · subst him
      rw [List.getElem?_append_right (by omega), h1, Nat.add_sub_cancel_left]
    · have h4 := Nat.mul_le_mul_right L (show i + 1 ≤ n by omega)
      rw [Nat.succ_mul] at h4
      rw [List.getElem?_append_left (by omega), h2 i (by omega) k hk]

theorem byteAt_matrix (r c : Nat) (m : List UInt8) (i j : Nat) : byteAt (newArray uint8 [r, c] m) [i, j] 0 = m[i * c + j]? := by
  rw [byteAt_new uint8 [r, c] m (idx := [i, j]) rfl]
  simp [flat, uint8]

theorem pad_get {rows cols before left : Nat} {m : List UInt8} (hm : m.length = rows * cols) :
    (pad rows cols before left m).length = (before + rows) * (left + cols) ∧
    (∀ i j, i < rows → j < cols → (pad rows cols before left m)[(before + i) * (left + cols) + (left + j)]? = m[i * cols + j]?) ∧
    ∀ i j, i < before + rows → j < left + cols → (i < before ∨ j < left) → (pad rows cols before left m)[i * (left + cols) + j]? = some 0 := by
  have hlen : ∀ i < before + rows, (if i < before then List.replicate (left + cols) 0
      else List.replicate left 0 ++ (m.drop ((i - before) * cols)).take cols : List UInt8).length = left + cols := by
    intro i hi
    split_ifs with h
    · simp
    · have := Nat.mul_le_mul_right cols (show i - before + 1 ≤ rows by omega)
      rw [Nat.succ_mul] at this
      simp only [List.length_append, List.length_replicate, List.length_take, List.length_drop]
      omega
  obtain ⟨h1, h2⟩ := flatMap_range hlen
  refine ⟨h1, fun i j hi hj => ?_, fun i j hi hj hij => ?_⟩
  · unfold pad
    rw [h2 (before + i) (by omega) (left + j) (by omega), if_neg (by omega), List.getElem?_append_right (by simp), List.length_replicate, Nat.add_sub_cancel_left,
      Nat.add_sub_cancel_left, getElem?_block _ hj]
  · unfold pad
    rw [h2 i hi j hj]
    split_ifs with h
    · rw [List.getElem?_replicate, if_pos hj]
    · rw [List.getElem?_append_left (by simp; omega), List.getElem?_replicate, if_pos (by omega)]

theorem maskCreate_ok (fresh : Nat → List UInt8) (hfresh : ∀ n, (fresh n).length = n) {a : NdArray} {rows cols : Nat} (ha : RowByRow a rows cols) {x y : Int}
    (hx : InInt32 x) (hy : InInt32 y) : ∃ data, maskCreate fresh a x y = .ok (.ok (.mask x y cols rows data)) ∧ data.length = rows * cols ∧
      ∀ i j, i < rows → j < cols → data[i * cols + j]? = byteAt a [i, j] 0 := by
  have hr := ha.hasRows
  have hc := ha.hasColumns
  have hf := ha.fits
  have hle1 : rows ≤ rows * cols := Nat.le_mul_of_pos_right _ hc
  have hle2 : cols ≤ rows * cols := Nat.le_mul_of_pos_left _ hr
  have hn : a.nbytes = rows * cols := by unfold NdArray.nbytes; rw [ha.shape, ha.type]; simp
  have hb : ∀ i j, i < rows → j < cols → byteAt a [i, j] 0 = byteOf a.mem (position a [0, 0] + (i * cols + j : Nat)) := by
    intro i j hi hj
    unfold byteAt byteOf
    rw [ha.order i j hi hj]
    simp
  have h00 : position a [0, 0] = a.base := by
    unfold position
    have hs := ha.readable.strides
    rw [ha.shape] at hs
    match h : a.strides, hs with
    | [s, t], _ => simp
  have hsome : ∀ b < rows * cols, (byteOf a.mem (a.base + b)).isSome = true := by
    intro b hb'
    have hdiv : b / cols < rows := by rw [Nat.div_lt_iff_lt_mul hc]; exact hb'
    have hmod := Nat.mod_lt b hc
    have := ha.readable.elements [b / cols, b % cols] (by unfold Within; rw [ha.shape]; exact .cons hdiv (.cons hmod .nil)) 0 (by rw [ha.type]; decide)
    rwa [hb _ _ hdiv hmod, h00, Nat.div_add_mod'] at this
  obtain ⟨out, h1, h2, h3⟩ := readBlock_ok hsome
  refine ⟨out, ?_, h2, fun i j hi hj => ?_⟩
  · unfold maskCreate
    rw [ha.shape]
    dsimp only
    have huint : a.dtype = uint8 := ha.type
    rw [if_pos huint, wrap32_int hx, wrap32_int hy, wrap32_nat (by omega), wrap32_nat (by omega)]
    unfold Region.apiCreateMask Region.createMask
    rw [if_pos (by omega), Outcome.bind_ok]
    unfold Region.maskRow
    dsimp only
    unfold mul32
    rw [if_pos (by omega), Int.mul_zero, if_pos (by unfold InInt32; omega), Outcome.bind_ok, hn, h1, Outcome.bind_ok, writeBlock_all]
    · rfl
    · rw [h2, hfresh, ← Int.natCast_mul, Int.toNat_natCast, Nat.mul_comm]
  · have hlt : i * cols + j < rows * cols := by
      have := Nat.mul_le_mul_right cols (show i + 1 ≤ rows by omega)
      rw [Nat.succ_mul] at this
      omega
    rw [h3 _ hlt, hb i j hi hj, h00]

theorem maskArray_ok {x y : Int} {w h : Nat} {data : List UInt8} (hw : 1 ≤ w) (hh : 1 ≤ h) (hl : data.length = h * w) :
    maskArray false (.mask x y w h data) = .ok (.ok (newArray uint8 [h, w] data)) ∧
    (y < 0 ∨ x < 0 → maskArray true (.mask x y w h data) = .ok (.error .value)) ∧
    (0 ≤ y → 0 ≤ x → maskArray true (.mask x y w h data) = .ok (.ok (newArray uint8 [y.toNat + h, x.toNat + w] (pad h w y.toNat x.toNat data)))) := by
  have key : ∀ n, maskArray n (.mask x y w h data) = .ok (if n then
        (if y < 0 ∨ x < 0 then .error .value else .ok (newArray uint8 [y.toNat + h, x.toNat + w] (pad h w y.toNat x.toNat data)))
      else .ok (newArray uint8 [h, w] data)) := by
    intro n
    unfold maskArray
    dsimp only
    rw [if_neg (by omega)]
    unfold Region.maskRow
    dsimp only
    unfold mul32
    rw [if_pos (by omega), Int.mul_zero, if_pos (by unfold InInt32; omega), Outcome.bind_ok, Int.toNat_natCast, Int.toNat_natCast, ← hl, readBlock_all (Nat.le_refl _), List.take_length]
    rfl
  refine ⟨by rw [key]; rfl, fun h => by rw [key, if_pos rfl, if_pos h], fun h1 h2 => by rw [key, if_pos rfl, if_neg (by omega)]⟩

/-- **C138, masks**: of every matrix of `uint8` that is stored row by row `create` makes a mask with its elements as pixels and the given offset; `size` and `offset` are those given, `array` gives
a matrix with the same elements, and with `normalize` the matrix with zeros above and to the left, if the offset is not negative. -/
theorem C138_masks_partial (fresh : Nat → List UInt8) (hfresh : ∀ n, (fresh n).length = n) (a : NdArray) (rows cols : Nat) (ha : RowByRow a rows cols) (x y : Int)
    (hx : InInt32 x) (hy : InInt32 y) :
    ∃ data, maskCreate fresh a x y = .ok (.ok (.mask x y cols rows data)) ∧ data.length = rows * cols ∧
      (∀ i j, i < rows → j < cols → data[i * cols + j]? = byteAt a [i, j] 0) ∧
      maskSize (.mask x y cols rows data) = .ok ((cols : Int), (rows : Int)) ∧ maskOffset (.mask x y cols rows data) = .ok (x, y) ∧
      regionKind (some (.mask x y cols rows data)) = some t!"mask" ∧
      (∃ b, maskArray false (.mask x y cols rows data) = .ok (.ok b) ∧ Readable b ∧ SameMatrix b a) ∧
      ∀ x' y' : Nat, x = x' → y = y' → ∃ b, maskArray true (.mask x y cols rows data) = .ok (.ok b) ∧ Readable b ∧ Padded b a x' y' rows cols := by
  obtain ⟨data, h1, h2, h3⟩ := maskCreate_ok fresh hfresh ha hx hy
  obtain ⟨h4, -, h5⟩ := maskArray_ok (x := x) (y := y) ha.hasColumns ha.hasRows h2
  refine ⟨data, h1, h2, h3, rfl, rfl, rfl, ⟨_, h4, readable_new (by rw [h2]; simp [uint8]), ha.type.symm, ha.shape.symm, fun idx hidx => ?_⟩, ?_⟩
  · unfold Within newArray at hidx
    dsimp only at hidx
    cases hidx with
    | @cons i _ _ _ hi hi2 => cases hi2 with
      | @cons j _ _ _ hj hj2 =>
        cases hj2
        rw [byteAt_matrix, h3 i j hi hj]
  · rintro x' y' rfl rfl
    obtain ⟨p1, p2, p3⟩ := pad_get (rows := rows) (cols := cols) (before := y') (left := x') (m := data) h2
    refine ⟨_, h5 (by omega) (by omega), readable_new (by rw [Int.toNat_natCast, Int.toNat_natCast, p1]; simp [uint8]), rfl, by rw [Int.toNat_natCast, Int.toNat_natCast]; rfl,
      fun i j hi hj => ?_, fun i j hi hj hij => ?_⟩
    · rw [byteAt_matrix, Int.toNat_natCast, Int.toNat_natCast, p2 i j hi hj, h3 i j hi hj]
    · rw [byteAt_matrix, Int.toNat_natCast, Int.toNat_natCast, p3 i j hi hj hij]

/-- Two rows of a larger block of memory. -/
example : RowByRow ⟨uint8, [2, 3], [3, 1], 1, [9, 1, 2, 3, 4, 5, 6, 9]⟩ 2 3 := by
  refine ⟨rfl, rfl, by decide, by decide, by decide, ⟨rfl, ?_⟩, fun i j _ _ => by simp [position]⟩
  intro idx hidx b hb
  cases hidx with
  | @cons i _ _ _ hi h2 => cases h2 with
    | @cons j _ _ _ hj h3 =>
      cases h3
      have hb : b < 1 := hb
      obtain rfl : b = 0 := by omega
      have key : ∀ i < 2, ∀ j < 3, (byteAt ⟨uint8, [2, 3], [3, 1], 1, [9, 1, 2, 3, 4, 5, 6, 9]⟩ [i, j] 0).isSome = true := by decide
      exact key i hi j hj

/-- **C138, masks of the library**: the array of a mask has its pixels, and `create` makes the same mask of it. -/
theorem C138_mask_arrays (fresh : Nat → List UInt8) (hfresh : ∀ n, (fresh n).length = n) (x y : Int) (w h : Nat) (data : List UInt8) (hx : InInt32 x) (hy : InInt32 y)
    (hw : 1 ≤ w) (hh : 1 ≤ h) (hl : data.length = h * w) (hf : h * w < 2147483648) :
    ∃ a, maskArray false (.mask x y w h data) = .ok (.ok a) ∧ RowByRow a h w ∧ (∀ i j, i < h → j < w → byteAt a [i, j] 0 = data[i * w + j]?) ∧
      maskCreate fresh a x y = .ok (.ok (.mask x y w h data)) := by
  obtain ⟨h4, -, -⟩ := maskArray_ok (x := x) (y := y) hw hh hl
  have hr : RowByRow (newArray uint8 [h, w] data) h w := by
    refine ⟨rfl, rfl, hh, hw, hf, readable_new (by rw [hl]; simp [uint8]), fun i j _ _ => ?_⟩
    simp [position, newArray, packed, uint8]
  obtain ⟨data', h1, h2, h3⟩ := maskCreate_ok fresh hfresh hr hx hy
  refine ⟨_, h4, hr, fun i j _ _ => byteAt_matrix _ _ _ _ _, ?_⟩
  rw [h1]
  have : data' = data := by
    apply List.ext_getElem?
    intro p
    by_cases hp : p < h * w
    · have hdiv : p / w < h := by rw [Nat.div_lt_iff_lt_mul hw]; exact hp
      have := h3 (p / w) (p % w) hdiv (Nat.mod_lt _ hw)
      rwa [byteAt_matrix, Nat.div_add_mod'] at this
    · rw [List.getElem?_eq_none (by omega), List.getElem?_eq_none (by omega)]
  rw [this]

example : ([1, 0, 1, 1, 0, 0] : List UInt8).length = 2 * 3 ∧ InInt32 (-5) := by decide

/-- **C138, other arrays** raise an `AssertionError`. -/
theorem C138_masks_refused (fresh : Nat → List UInt8) (a : NdArray) (x y : Int) (h : a.dtype ≠ ⟨.unsigned, 1, false⟩ ∨ a.shape.length ≠ 2) :
    maskCreate fresh a x y = .ok (.error .assertion) := by
  unfold maskCreate
  split
  · rename_i hs
    rw [if_neg]
    intro e
    rcases h with h | h
    · exact h e
    · rw [hs] at h; exact h rfl
  · rfl

example : (⟨⟨.bool, 1, false⟩, [1, 1], [1, 1], 0, [1]⟩ : NdArray).dtype ≠ ⟨.unsigned, 1, false⟩ := by decide

/-- **C138, violated for matrices that are stored in another way**: the mask of a transposed view has other pixels than the view, and of a view with the rows in reverse order the program
reads beyond the memory. -/
theorem C138_views_false (fresh : Nat → List UInt8) (hfresh : ∀ n, (fresh n).length = n) :
    (∃ a data b, Readable a ∧ a.dtype = uint8 ∧ maskCreate fresh a 0 0 = .ok (.ok (.mask 0 0 3 2 data)) ∧ maskArray false (.mask 0 0 3 2 data) = .ok (.ok b) ∧ b.shape = a.shape ∧
      byteAt a [0, 1] 0 = some 3 ∧ byteAt b [0, 1] 0 = some 2) ∧
    ∃ a, Readable a ∧ a.dtype = uint8 ∧ a.shape = [2, 3] ∧ maskCreate fresh a 0 0 = .ub := by
  have within : ∀ (a : NdArray), a.shape = [2, 3] → a.dtype = uint8 → a.strides.length = 2 → (∀ i < 2, ∀ j < 3, (byteAt a [i, j] 0).isSome = true) → Readable a := by
    intro a hs ht hl h
    refine ⟨by rw [hl, hs]; rfl, fun idx hidx b hb => ?_⟩
    unfold Within at hidx
    rw [hs] at hidx
    rw [ht] at hb
    cases hidx with
    | @cons i _ _ _ hi h2 => cases h2 with
      | @cons j _ _ _ hj h3 =>
        cases h3
        have hb : b < 1 := hb
        obtain rfl : b = 0 := by omega
        exact h i hi j hj
  refine ⟨⟨⟨uint8, [2, 3], [1, 2], 0, [1, 2, 3, 4, 5, 6]⟩, [1, 2, 3, 4, 5, 6], newArray uint8 [2, 3] [1, 2, 3, 4, 5, 6], within _ rfl rfl rfl (by decide), rfl, ?_, rfl, rfl, by decide, by decide⟩,
    ⟨⟨uint8, [2, 3], [-3, 1], 3, [1, 2, 3, 4, 5, 6]⟩, within _ rfl rfl rfl (by decide), rfl, rfl, rfl⟩⟩
  show (writeBlock (fresh 6) [1, 2, 3, 4, 5, 6]).map _ = _
  rw [writeBlock_all (by rw [hfresh]; rfl)]
  rfl

/-- **C138, violated for matrices without rows**: the process ends. -/
theorem C138_empty_false (fresh : Nat → List UInt8) : maskCreate fresh ⟨uint8, [0, 3], [3, 1], 0, []⟩ 0 0 = .abort := rfl

/-- **C138, violated for negative offsets**: the array of such a mask with `normalize` raises an exception. -/
theorem C138_normalize_false (x y : Int) (w h : Nat) (data : List UInt8) (hw : 1 ≤ w) (hh : 1 ≤ h) (hl : data.length = h * w) (hn : y < 0 ∨ x < 0) :
    maskArray true (.mask x y w h data) = .ok (.error .value) := (maskArray_ok hw hh hl).2.1 hn

/-- **C138, violated for `Mask.get`**: it always raises an exception. -/
theorem C138_get_false (x y w h : Int) (data : List UInt8) (i : Int) : ∃ e, maskGet (.mask x y w h data) i = .ok (.error e) := by
  unfold maskGet
  split_ifs
  · exact ⟨_, rfl⟩
  · exact ⟨.type, rfl⟩

/-- **C138, violated for codes of special regions that are not an `int`**: they are reduced without an error. -/
theorem C138_code_false : specialCode (specialCreate 4294967297) = .ok 1 := by decide

end Trax
