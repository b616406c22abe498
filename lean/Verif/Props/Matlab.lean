import Verif.Lemmas.Matlab

/-!
# C118–C121: images, regions, properties and formats as arrays of MATLAB
-/

namespace Trax
open Mex Spec

/-! ## C118: images -/

theorem pixelData_length {w h : Nat} {f : Int} {n : Nat} {data : List UInt8} (hp : PixelData w h f data)
    (hf : f = 1 ∧ n = 1 ∨ f = 2 ∧ n = 2 ∨ f = 3 ∧ n = 3) : data.length = n * (h * w) ∧ 1 ≤ h ∧ 1 ≤ w ∧ n * (h * w) < 2 ^ 31 := by
  have hl := hp.length
  have h1 := hp.width
  have h2 := hp.height
  have h3 := hp.fits
  have e : data.length = n * (h * w) := by
    have : pixelBytes f = n := by rcases hf with ⟨rfl, rfl⟩ | ⟨rfl, rfl⟩ | ⟨rfl, rfl⟩ <;> rfl
    rw [this, show (w : Int) * h * n = ((n * (h * w) : Nat) : Int) by push_cast; ring] at hl
    exact_mod_cast hl
  exact ⟨e, by omega, by omega, by rw [← e]; exact h3⟩

theorem imageToArray_ok {w h : Nat} {f : Int} {data : List UInt8} (hp : PixelData w h f data) :
    ∃ arr, imageToArray (.memory w h f data) = .ok (some arr) ∧ SamePixels w h data f arr := by
  unfold imageToArray Image.rowOffset
  dsimp only
  rcases hp.format with rfl | rfl | rfl
  · obtain ⟨hl, hh, hw, hs⟩ := pixelData_length (n := 1) hp (.inl ⟨rfl, rfl⟩)
    rw [if_pos (by omega), Outcome.bind_ok, if_pos rfl, Int.toNat_natCast, Int.toNat_natCast]
    obtain ⟨out, h1, h2, h3⟩ := grayToArray_ok (Nat.le_refl 1) hl hs (buf := List.replicate (h * w) 0) (by rw [List.length_replicate]; omega)
    refine ⟨_, by rw [h1]; rfl, .gray8 out (by omega) fun i j hi hj => ?_⟩
    have := h3 j i 0 hj hi (by omega)
    unfold arrayByte pixelByte
    simp only [Nat.mul_zero, Nat.add_zero] at this ⊢
    rw [this, Nat.add_comm j]
  · obtain ⟨hl, hh, hw, hs⟩ := pixelData_length (n := 2) hp (.inr (.inl ⟨rfl, rfl⟩))
    rw [if_pos (by omega), Outcome.bind_ok, if_neg (by omega), if_pos rfl, Int.toNat_natCast, Int.toNat_natCast]
    obtain ⟨out, h1, h2, h3⟩ := grayToArray_ok (by omega : 1 ≤ 2) hl hs (buf := List.replicate (2 * (h * w)) 0) (by rw [List.length_replicate])
    refine ⟨_, by rw [h1]; rfl, .gray16 out h2 fun i j b hi hj hb => ?_⟩
    have := h3 j i b hj hi hb
    unfold arrayByte pixelByte
    rw [Nat.mul_zero, Nat.add_zero, this, Nat.add_comm j]
  · obtain ⟨hl, hh, hw, hs⟩ := pixelData_length (n := 3) hp (.inr (.inr ⟨rfl, rfl⟩))
    rw [if_pos (by omega), Outcome.bind_ok, if_neg (by omega), if_neg (by omega), Int.toNat_natCast, Int.toNat_natCast]
    obtain ⟨out, h1, h2, h3⟩ := rgbToArray_ok hl hs (buf := List.replicate (h * w * 3) 0) (by rw [List.length_replicate]; ring)
    refine ⟨_, by rw [h1]; rfl, .rgb out h2 fun i j k hi hj hk => ?_⟩
    have := h3 j i k hj hi hk
    unfold arrayByte pixelByte
    rw [Nat.one_mul, Nat.add_zero, this, Nat.add_comm j]

theorem arrayToImage_ok (fresh : Nat → UInt8) {w h : Nat} {arr : Mx} (hp : Picture w h arr) :
    ∃ f data, arrayToImage fresh arr = .ok (some (.memory w h f data)) ∧ PixelData w h f data ∧ SamePixels w h data f arr := by
  cases hp with
  | gray8 array hw hh hl hf =>
    obtain ⟨out, h1, h2, h3⟩ := filled_ok fresh (f := 1) (n := 1) (w := w) (h := h) (.inl ⟨rfl, rfl⟩) hh (by rw [Nat.one_mul, ← hl]; exact hf)
      fun dest hd => grayToImage_ok (n := 1) (w := w) (h := h) (src := array) (Nat.le_refl 1) (by omega) (by rw [Nat.one_mul, ← hl]; exact hf) hd
    refine ⟨1, out, h1, ⟨.inl rfl, by omega, by omega, ?_, by rw [h2]; omega⟩, .gray8 array hl fun i j hi hj => ?_⟩
    · rw [h2]; unfold pixelBytes; push_cast; norm_num; ring
    · have := h3 j i 0 hj hi (by omega)
      unfold arrayByte pixelByte
      simp only [Nat.mul_zero, Nat.add_zero] at this ⊢
      rw [← this, Nat.add_comm j]
  | gray16 array hw hh hl hf =>
    obtain ⟨out, h1, h2, h3⟩ := filled_ok fresh (f := 2) (n := 2) (w := w) (h := h) (.inr (.inl ⟨rfl, rfl⟩)) hh (by rw [← hl]; exact hf)
      fun dest hd => grayToImage_ok (n := 2) (w := w) (h := h) (src := array) (by omega) hl (by rw [← hl]; exact hf) hd
    refine ⟨2, out, h1, ⟨.inr (.inl rfl), by omega, by omega, ?_, by rw [h2]; omega⟩, .gray16 array hl fun i j b hi hj hb => ?_⟩
    · rw [h2]; unfold pixelBytes; push_cast; norm_num; ring
    · have := h3 j i b hj hi hb
      unfold arrayByte pixelByte
      rw [Nat.mul_zero, Nat.add_zero, ← this, Nat.add_comm j]
  | rgb array hw hh hl hf =>
    obtain ⟨out, h1, h2, h3⟩ := filled_ok fresh (f := 3) (n := 3) (w := w) (h := h) (.inr (.inr ⟨rfl, rfl⟩)) hh (by rw [← hl]; exact hf)
      fun dest hd => rgbToImage_ok (w := w) (h := h) (src := array) hl (by rw [← hl]; exact hf) hd
    refine ⟨3, out, h1, ⟨.inr (.inr rfl), by omega, by omega, ?_, by rw [h2]; omega⟩, .rgb array hl fun i j k hi hj hk => ?_⟩
    · rw [h2]; unfold pixelBytes; push_cast; norm_num; ring
    · have := h3 j i k hj hi hk
      unfold arrayByte pixelByte
      rw [Nat.one_mul, Nat.add_zero, ← this, Nat.add_comm j]

theorem Spec.SamePixels.picture {w h : Nat} {data : List UInt8} {f : Int} {arr : Mx} (hp : SamePixels w h data f arr) (hd : PixelData w h f data) :
    Picture w h arr := by
  have h2 : (2 : Nat) ^ 31 = 2147483648 := by norm_num
  cases hp with
  | gray8 a hl _ =>
    obtain ⟨_, hh, hw, hs⟩ := pixelData_length hd (.inl ⟨rfl, rfl⟩)
    exact .gray8 a hw hh hl (by omega)
  | gray16 a hl _ =>
    obtain ⟨_, hh, hw, hs⟩ := pixelData_length hd (.inr (.inl ⟨rfl, rfl⟩))
    exact .gray16 a hw hh hl (by omega)
  | rgb a hl _ =>
    obtain ⟨_, hh, hw, hs⟩ := pixelData_length hd (.inr (.inr ⟨rfl, rfl⟩))
    exact .rgb a hw hh hl (by omega)

/-- An image has one array. -/
theorem Spec.SamePixels.array {w h : Nat} {data : List UInt8} {f : Int} {a b : Mx} (ha : SamePixels w h data f a) (hb : SamePixels w h data f b) :
    a = b := by
  cases ha with
  | gray8 a hl hp =>
    cases hb with
    | gray8 b hl' hp' =>
      congr 1
      refine ext_table (n := 1) (A := h) (B := w) (by omega) (by omega) fun i j k hi hj hk => ?_
      have := (hp i j hi hj).trans (hp' i j hi hj).symm
      unfold arrayByte at this
      rw [Nat.mul_zero, Nat.add_zero] at this
      obtain rfl : k = 0 := by omega
      exact this
  | gray16 a hl hp =>
    cases hb with
    | gray16 b hl' hp' =>
      congr 1
      refine ext_table (n := 2) (A := h) (B := w) (by omega) (by omega) fun i j k hi hj hk => ?_
      have := (hp i j k hi hj hk).trans (hp' i j k hi hj hk).symm
      unfold arrayByte at this
      rwa [Nat.mul_zero, Nat.add_zero] at this
  | rgb a hl hp =>
    cases hb with
    | rgb b hl' hp' =>
      congr 1
      have e : 3 * (h * w) = 1 * (h * (w * 3)) := by ring
      refine ext_table (n := 1) (A := h) (B := w * 3) (by omega) (by omega) fun i q k hi hq hk => ?_
      have h0 : 0 < w := by omega
      have hk3 : q / w < 3 := by rw [Nat.div_lt_iff_lt_mul h0, Nat.mul_comm]; exact hq
      have := (hp i (q % w) (q / w) hi (Nat.mod_lt _ h0) hk3).trans (hp' i (q % w) (q / w) hi (Nat.mod_lt _ h0) hk3).symm
      unfold arrayByte at this
      rw [Nat.mod_add_div] at this
      obtain rfl : k = 0 := by omega
      exact this

/-- An array is the one of one image only. -/
theorem Spec.SamePixels.image {w h : Nat} {x y : List UInt8} {f g : Int} {a : Mx} (ha : SamePixels w h x f a) (hb : SamePixels w h y g a)
    (hx : PixelData w h f x) (hy : PixelData w h g y) : f = g ∧ x = y := by
  cases ha with
  | gray8 a hl hp =>
    cases hb with
    | gray8 _ hl' hp' =>
      refine ⟨rfl, ext_table (n := 1) (A := w) (B := h) (by rw [(pixelData_length hx (.inl ⟨rfl, rfl⟩)).1]; ring)
        (by rw [(pixelData_length hy (.inl ⟨rfl, rfl⟩)).1]; ring) fun i j k hi hj hk => ?_⟩
      have := (hp j i hj hi).symm.trans (hp' j i hj hi)
      unfold pixelByte at this
      rw [Nat.add_comm _ i] at this
      obtain rfl : k = 0 := by omega
      exact this
  | gray16 a hl hp =>
    cases hb with
    | gray16 _ hl' hp' =>
      refine ⟨rfl, ext_table (n := 2) (A := w) (B := h) (by rw [(pixelData_length hx (.inr (.inl ⟨rfl, rfl⟩))).1]; ring)
        (by rw [(pixelData_length hy (.inr (.inl ⟨rfl, rfl⟩))).1]; ring) fun i j k hi hj hk => ?_⟩
      have := (hp j i k hj hi hk).symm.trans (hp' j i k hj hi hk)
      unfold pixelByte at this
      rwa [Nat.add_comm _ i] at this
  | rgb a hl hp =>
    cases hb with
    | rgb _ hl' hp' =>
      refine ⟨rfl, ext_table (n := 3) (A := w) (B := h) (by rw [(pixelData_length hx (.inr (.inr ⟨rfl, rfl⟩))).1]; ring)
        (by rw [(pixelData_length hy (.inr (.inr ⟨rfl, rfl⟩))).1]; ring) fun i j k hi hj hk => ?_⟩
      have := (hp j i k hj hi hk).symm.trans (hp' j i k hj hi hk)
      unfold pixelByte at this
      rwa [Nat.add_comm _ i] at this

/-- C118, images with pixels: the array has the pixels of the image in their rows and columns, and `array_to_image` makes the
same image of it. The path of an image in a file is a text, of which `array_to_image` makes the same image. -/
theorem C118_images_partial (fresh : Nat → UInt8) :
    (∀ (w h : Nat) (f : Int) (data : List UInt8), PixelData w h f data →
      ∃ arr, imageToArray (.memory w h f data) = .ok (some arr) ∧ SamePixels w h data f arr ∧
        arrayToImage fresh arr = .ok (some (.memory w h f data))) ∧
    ∀ p : Str, NoNul p → imageToArray (.path p) = .ok (some (.text p)) ∧ arrayToImage fresh (.text p) = .ok (some (.path p)) := by
  refine ⟨fun w h f data hp => ?_, fun p hp => ⟨rfl, ?_⟩⟩
  · obtain ⟨arr, h1, h2⟩ := imageToArray_ok hp
    obtain ⟨g, data', h3, h4, h5⟩ := arrayToImage_ok fresh (h2.picture hp)
    obtain ⟨rfl, rfl⟩ := h2.image h5 hp h4
    exact ⟨arr, h1, h2, h3⟩
  · show Outcome.ok (some (Image.path (cstr p))) = _
    rw [cstr_of_noNul hp]

example : PixelData 2 1 3 [1, 2, 3, 4, 5, 6] := ⟨.inr (.inr rfl), by norm_num, by norm_num, by decide, by decide⟩
example : imageToArray (.memory 2 1 3 [1, 2, 3, 4, 5, 6]) = .ok (some (.bytes 1 [1, 2, 3] [1, 4, 2, 5, 3, 6])) := by decide +kernel

/-- C118, arrays: of an array of `uint8` with one or three layers or of `uint16` with one, `array_to_image` makes an image with
the same pixels, and `image_to_array` the same array of it. -/
theorem C118_arrays (fresh : Nat → UInt8) {w h : Nat} {arr : Mx} (hp : Picture w h arr) :
    ∃ f data, arrayToImage fresh arr = .ok (some (.memory w h f data)) ∧ PixelData w h f data ∧ SamePixels w h data f arr ∧
      imageToArray (.memory w h f data) = .ok (some arr) := by
  obtain ⟨f, data, h1, h2, h3⟩ := arrayToImage_ok fresh hp
  obtain ⟨arr', h4, h5⟩ := imageToArray_ok h2
  exact ⟨f, data, h1, h2, h3, by rw [h4, h5.array h3]⟩

example : Picture 2 2 (.bytes 2 [2, 2] [1, 2, 3, 4, 5, 6, 7, 8]) := .gray16 _ (by omega) (by omega) rfl (by decide)

/-- The full C118 is false: a URL ends the program, of an image in a buffer `array_to_image` makes nothing again, and an
array without rows ends the program. -/
theorem C118_images_false (fresh : Nat → UInt8) :
    imageToArray (.url b!"http://a/b.png") = .abort ∧
    (∃ arr, imageToArray (.buffer 1 [0x89, 0x50, 0x4E, 0x47, 0]) = .ok (some arr) ∧ FileData 1 [0x89, 0x50, 0x4E, 0x47, 0] ∧
      arrayToImage fresh arr = .ok none) ∧
    arrayToImage fresh (.bytes 1 [0, 0] []) = .abort := by
  refine ⟨rfl, ⟨_, rfl, by unfold FileData; decide, rfl⟩, rfl⟩

/-! ## C119: regions -/

/-- C119, rectangles and polygons: their numbers are the elements of the array, and `array_to_region` makes the same region of it. -/
theorem C119_numbers_partial (fresh : Nat → List UInt8) (freshPoints : Nat → List (Flt × Flt)) (hfresh : ∀ n, (freshPoints n).length = n) :
    (∀ x y w h : Flt, x.IsFloat → y.IsFloat → w.IsFloat → h.IsFloat →
      ∃ a b c d, regionToArray (some (.rectangle x y w h)) = .ok (some (.double 1 4 [a, b, c, d])) ∧
        SameNumber x a ∧ SameNumber y b ∧ SameNumber w c ∧ SameNumber h d ∧
        arrayToRegion fresh freshPoints (.double 1 4 [a, b, c, d]) = .ok (some (.rectangle x y w h))) ∧
    ∀ ps : List (Flt × Flt), 3 ≤ ps.length → (∀ p ∈ ps, p.1.IsFloat ∧ p.2.IsFloat) →
      ∃ r, regionToArray (some (.polygon ps)) = .ok (some (.double 1 (2 * ps.length) r)) ∧ r.length = 2 * ps.length ∧
        (∀ k p, ps[k]? = some p → ∃ a b, r[2 * k]? = some a ∧ r[2 * k + 1]? = some b ∧ SameNumber p.1 a ∧ SameNumber p.2 b) ∧
        arrayToRegion fresh freshPoints (.double 1 (2 * ps.length) r) = .ok (some (.polygon ps)) := by
  refine ⟨fun x y w h hx hy hw hh => ?_, fun ps hl hp => ?_⟩
  · refine ⟨_, _, _, _, rfl, sameNumber_widen x, sameNumber_widen y, sameNumber_widen w, sameNumber_widen h, ?_⟩
    show Outcome.ok (some (Region.rectangle x.widen.toFloat y.widen.toFloat w.widen.toFloat h.widen.toFloat)) = _
    rw [widen_toFloat hx, widen_toFloat hy, widen_toFloat hw, widen_toFloat hh]
  · have hget := flat_get (fun p : Flt × Flt => p.1.widen) (fun p : Flt × Flt => p.2.widen) ps
    refine ⟨_, by rw [Nat.mul_comm]; rfl, (hget 0).2.2, ?_, ?_⟩
    · intro k p hk
      exact ⟨_, _, by rw [(hget k).1, hk]; rfl, by rw [(hget k).2.1, hk]; rfl, sameNumber_widen _, sameNumber_widen _⟩
    · obtain ⟨qs, h1, h2, h3⟩ := points_loop (hget 0).2.2 (ps := freshPoints ps.length) (hfresh _)
      unfold arrayToRegion
      dsimp only
      rw [if_pos ⟨by omega, by omega⟩, show 2 * ps.length / 2 = ps.length by omega]
      unfold Region.createPolygon
      rw [if_pos (by omega), Outcome.bind_ok, Int.toNat_natCast, h1]
      have : qs = ps := by
        apply List.ext_getElem?
        intro k
        by_cases hk : k < ps.length
        · have e := List.getElem?_eq_getElem hk
          have hpk := hp _ (List.getElem_mem hk)
          rw [h3 k _ _ hk (by rw [(hget k).1, e]; rfl) (by rw [(hget k).2.1, e]; rfl), widen_toFloat hpk.1, widen_toFloat hpk.2, e]
        · rw [List.getElem?_eq_none (by omega), List.getElem?_eq_none (by omega)]
      rw [this]
      rfl

example : (Flt.fin false (5 * 2 ^ 148)).IsFloat ∧ (Flt.fin true (3 * 2 ^ 149)).IsFloat := by decide +kernel

/-- C119, arrays of numbers: a row of four numbers is a rectangle, a row of six or more, in pairs, a polygon, with the nearest
numbers; other rows are refused. -/
theorem C119_arrays_partial (fresh : Nat → List UInt8) (freshPoints : Nat → List (Flt × Flt)) (hfresh : ∀ n, (freshPoints n).length = n) :
    (∀ a b c d : Flt, ∃ x y w h, arrayToRegion fresh freshPoints (.double 1 4 [a, b, c, d]) = .ok (some (.rectangle x y w h)) ∧
      NextFloat a x ∧ NextFloat b y ∧ NextFloat c w ∧ NextFloat d h) ∧
    (∀ (n : Nat) (r : List Flt), 3 ≤ n → r.length = 2 * n →
      ∃ ps, arrayToRegion fresh freshPoints (.double 1 (2 * n) r) = .ok (some (.polygon ps)) ∧ ps.length = n ∧
        ∀ k a b, k < n → r[2 * k]? = some a → r[2 * k + 1]? = some b → ∃ x y, ps[k]? = some (x, y) ∧ NextFloat a x ∧ NextFloat b y) ∧
    ∀ (l : Nat) (r : List Flt), l % 2 = 1 ∨ l = 0 ∨ l = 2 → arrayToRegion fresh freshPoints (.double 1 l r) = .ok none := by
  refine ⟨fun a b c d => ⟨_, _, _, _, rfl, nextFloat_toFloat a, nextFloat_toFloat b, nextFloat_toFloat c, nextFloat_toFloat d⟩,
    fun n r hn hr => ?_, fun l r hl => ?_⟩
  · obtain ⟨qs, h1, h2, h3⟩ := points_loop hr (ps := freshPoints n) (hfresh _)
    refine ⟨qs, ?_, h2, fun k a b hk ha hb => ⟨_, _, h3 k a b hk ha hb, nextFloat_toFloat a, nextFloat_toFloat b⟩⟩
    unfold arrayToRegion
    dsimp only
    rw [if_pos ⟨by omega, by omega⟩, show 2 * n / 2 = n by omega]
    unfold Region.createPolygon
    rw [if_pos (by omega), Outcome.bind_ok, Int.toNat_natCast, h1]
    rfl
  · unfold arrayToRegion
    dsimp only
    rw [if_neg (by omega), if_neg (by omega)]

theorem maskToArray_ok {x y w h : Nat} {data : List UInt8} (hl : data.length = w * h) (hs : w * h < 2 ^ 31)
    (hf : (h + y) * (w + x) < 2 ^ 31) :
    ∃ out, maskToArray (.mask x y w h data) x y w h (List.replicate ((h + y) * (w + x)) 0) = .ok out ∧ out.length = (h + y) * (w + x) ∧
      ∀ r c, r < h + y → c < w + x → out[r + (h + y) * c]? = some (maskAt x y w h data r c) := by
  have h2 : (2 : Nat) ^ 31 = 2147483648 := by norm_num
  obtain ⟨out, h1, h3, h4, h5⟩ := fills_forN (L := (h + y) * (w + x)) (n := h)
    (g := fun p => maskAt x y w h data (p % (h + y)) (p / (h + y)))
    (f := fun (i : Nat) data' => Outcome.forN (fun (j : Nat) data' =>
      (Region.readMaskPixel (.mask x y w h data) i j).bind fun v =>
        (mul32 ((j : Int) + x) ((h : Int) + y)).bind fun o => (chk32 (o + y + i)).bind fun o => writeAt data' o v) w data')
    (S := fun i p => ∃ j, j < w ∧ p = (i + y) + (h + y) * (j + x)) (buf := List.replicate ((h + y) * (w + x)) 0) (by
      intro i buf hi hb
      refine fills_forN (L := (h + y) * (w + x)) ?_ hb
      intro j buf hj hb
      have hpos := pair_lt (show i + y < h + y by omega) (show j + x < w + x by omega)
      have e1 : ((j : Int) + x) * ((h : Int) + y) = (((h + y) * (j + x) : Nat) : Int) := by push_cast; ring
      have e2 : (((h + y) * (j + x) : Nat) : Int) + y + i = (((i + y) + (h + y) * (j + x) : Nat) : Int) := by push_cast; ring
      rw [Ocv.readMaskPixel_ok hl hs hi hj, Outcome.bind_ok]
      unfold mul32
      rw [e1, if_pos (by unfold InInt32; omega), Outcome.bind_ok, e2, chk32_nat (by omega), Outcome.bind_ok, writeAt_nat (by omega)]
      refine ⟨_, rfl, by rw [List.length_set], ?_, ?_⟩
      · rintro p rfl
        obtain ⟨d1, d2⟩ := pair_div (A := h + y) (a := i + y) (j + x) (by omega)
        rw [List.getElem?_set, if_pos rfl, if_pos (by omega)]
        dsimp only
        unfold maskAt
        rw [d1, d2, if_pos ⟨by omega, by omega, by omega, by omega⟩, Nat.add_sub_cancel, Nat.add_sub_cancel]
      · intro p hp
        rw [List.getElem?_set, if_neg fun h => hp h.symm]) (by rw [List.length_replicate])
  refine ⟨out, ?_, by rw [h3, List.length_replicate], ?_⟩
  · unfold maskToArray
    rw [Int.toNat_natCast, Int.toNat_natCast]
    exact h1
  · intro r c hr hc
    by_cases hin : y ≤ r ∧ x ≤ c
    · rw [h4 _ ⟨r - y, by omega, c - x, by omega, by rw [Nat.sub_add_cancel hin.1, Nat.sub_add_cancel hin.2]⟩]
      dsimp only
      rw [(pair_div c hr).1, (pair_div c hr).2]
    · rw [h5, List.getElem?_replicate, if_pos (pair_lt hr hc)]
      · unfold maskAt
        rw [if_neg (by omega)]
      · rintro ⟨i, hi, j, hj, e⟩
        have k1 := pair_div (A := h + y) (a := r) c hr
        have k2 := pair_div (A := h + y) (a := i + y) (j + x) (by omega)
        rw [e] at k1
        rw [k1.1, k1.2] at k2
        omega

theorem arrayToMask_ok {w h : Nat} {r buf : List UInt8} (hr : r.length = h * w) (hb : buf.length = h * w) (hf : h * w < 2 ^ 31) :
    ∃ out, arrayToMask w h r buf = .ok out ∧ out.length = h * w ∧ ∀ i j, i < h → j < w → out[w * i + j]? = r[i + h * j]? := by
  obtain ⟨out, h1, h2, h3⟩ := transpose_loop (n := 1) (A := h) (B := w) (src := r) (buf := buf) (Nat.le_refl 1) (by omega) (by omega) (by omega)
  refine ⟨out, ?_, by omega, ?_⟩
  · unfold arrayToMask
    rw [← h1]
    congr 1
    funext i buf
    congr 1
    funext j buf
    rw [Int.add_comm (i : Int), Int.add_comm (j : Int)]
  · intro i j hi hj
    have := h3 i j 0 hi hj (by omega)
    rwa [Nat.one_mul, Nat.one_mul, Nat.add_zero, Nat.add_zero, Nat.add_comm j] at this

/-- C119, masks that begin at or right of and below the origin: the array is the image that has the pixels of the mask, and
`array_to_region` makes a mask at the origin with the pixels of the image. -/
theorem C119_masks_partial (fresh : Nat → List UInt8) (freshPoints : Nat → List (Flt × Flt)) (hfresh : ∀ n, (fresh n).length = n)
    {x y w h : Nat} {data : List UInt8} (hw : 1 ≤ w) (hh : 1 ≤ h) (hl : data.length = w * h) (hf : (h + y) * (w + x) < 2 ^ 31) :
    ∃ out data', regionToArray (some (.mask x y w h data)) = .ok (some (.bytes 1 [h + y, w + x] out)) ∧ out.length = (h + y) * (w + x) ∧
      (∀ r c, r < h + y → c < w + x → arrayByte 1 (h + y) (w + x) out r c 0 0 = some (maskAt x y w h data r c)) ∧
      arrayToRegion fresh freshPoints (.bytes 1 [h + y, w + x] out) = .ok (some (.mask 0 0 (w + x : Nat) (h + y : Nat) data')) ∧
      data'.length = (w + x) * (h + y) ∧ ∀ r c, maskAt 0 0 (w + x) (h + y) data' r c = maskAt x y w h data r c := by
  have h2 : (2 : Nat) ^ 31 = 2147483648 := by norm_num
  have hle : w * h ≤ (h + y) * (w + x) := by rw [Nat.mul_comm w h]; exact Nat.mul_le_mul (by omega) (by omega)
  have hle1 : h + y ≤ (h + y) * (w + x) := Nat.le_mul_of_pos_right _ (by omega)
  have hle2 : w + x ≤ (h + y) * (w + x) := Nat.le_mul_of_pos_left _ (by omega)
  obtain ⟨out, h1, h3, h4⟩ := maskToArray_ok hl (by omega) hf
  obtain ⟨data', h5, h6, h7⟩ := arrayToMask_ok (w := w + x) (h := h + y) (r := out) (buf := fresh ((h + y) * (w + x))) h3 (hfresh _) hf
  refine ⟨out, data', ?_, h3, ?_, ?_, by rw [h6, Nat.mul_comm], ?_⟩
  · unfold regionToArray
    dsimp only
    have c1 : chk32 ((h : Int) + y) = .ok ((h : Int) + y) := by unfold chk32; rw [if_pos (by unfold InInt32; omega)]
    have c2 : chk32 ((w : Int) + x) = .ok ((w : Int) + x) := by unfold chk32; rw [if_pos (by unfold InInt32; omega)]
    rw [c1, Outcome.bind_ok, c2, Outcome.bind_ok, if_neg (by omega),
      show (((h : Int) + y) * ((w : Int) + x)).toNat = (h + y) * (w + x) by
        rw [show ((h : Int) + y) * ((w : Int) + x) = (((h + y) * (w + x) : Nat) : Int) by push_cast; ring, Int.toNat_natCast],
      show ((h : Int) + y).toNat = h + y by omega, show ((w : Int) + x).toNat = w + x by omega, h1]
    rfl
  · intro r c hr hc
    unfold arrayByte
    simp only [Nat.mul_zero, Nat.add_zero, Nat.one_mul]
    exact h4 r c hr hc
  · unfold arrayToRegion Region.apiCreateMask Region.createMask
    simp only [List.getElem?_cons_zero, Option.getD_some, List.drop_succ_cons, List.drop_zero, List.foldl_cons, List.foldl_nil, Nat.one_mul]
    rw [if_pos (by omega), Outcome.bind_ok]
    dsimp only
    rw [show (((w + x : Nat) : Int) * ((h + y : Nat) : Int)).toNat = (h + y) * (w + x) by
        rw [show ((w + x : Nat) : Int) * ((h + y : Nat) : Int) = (((h + y) * (w + x) : Nat) : Int) by push_cast; ring, Int.toNat_natCast], h5]
    rfl
  · intro r c
    by_cases hin : r < h + y ∧ c < w + x
    · have := h7 r c hin.1 hin.2
      rw [h4 r c hin.1 hin.2] at this
      have e : maskAt 0 0 (w + x) (h + y) data' r c = data'[(w + x) * (r - 0) + (c - 0)]?.getD 0 := by
        unfold maskAt; rw [if_pos (by omega)]
      rw [e, Nat.sub_zero, Nat.sub_zero, this]
      rfl
    · unfold maskAt
      rw [if_neg (by omega), if_neg (by omega)]

example : ([1, 0, 1, 1] : List UInt8).length = 2 * 2 ∧ (2 + 1) * (2 + 3) < 2 ^ 31 := by decide

/-- The full C119 is false: the array of a mask that begins left of the origin is written to outside of its memory, and of the
array of a special region nothing is made again. -/
theorem C119_regions_false (fresh : Nat → List UInt8) (freshPoints : Nat → List (Flt × Flt)) :
    regionToArray (some (.mask (-1) 0 2 1 [1, 1])) = .ub ∧
    ∃ arr, regionToArray (some (.special 1)) = .ok (some arr) ∧ arrayToRegion fresh freshPoints arr = .ok none := by
  refine ⟨by decide +kernel, _, rfl, rfl⟩

end Trax
