import Verif.Lemmas.OpenCv
import Verif.Lemmas.Image

/-!
# C115–C117: images and regions as OpenCV types
-/

namespace Trax
open Ocv Spec

/-! ## C115: images -/

theorem createMemory_rgb (fresh : Nat → UInt8) {rows cols : Nat} (h : 3 * (rows * cols) < 2 ^ 31) :
    Image.createMemory fresh cols rows 3 = .ok (.memory cols rows 3 ((List.range (3 * (rows * cols))).map fresh)) := by
  have e : ((cols : Int) * rows) = ((rows * cols : Nat) : Int) := by push_cast; ring
  have h2 : (2 : Nat) ^ 31 = 2147483648 := by norm_num
  have m1 : mul32 cols rows = .ok ((rows * cols : Nat) : Int) := by
    unfold mul32; rw [e, if_pos (by unfold InInt32; omega)]
  have m2 : mul32 ((rows * cols : Nat) : Int) 1 = .ok ((rows * cols : Nat) : Int) := by
    unfold mul32; rw [Int.mul_one, if_pos (by unfold InInt32; omega)]
  have m3 : mul32 ((rows * cols : Nat) : Int) 3 = .ok ((3 * (rows * cols) : Nat) : Int) := by
    unfold mul32
    rw [show ((rows * cols : Nat) : Int) * 3 = ((3 * (rows * cols) : Nat) : Int) by push_cast; ring, if_pos (by unfold InInt32; omega)]
  have hd : Image.depth 3 = 1 := rfl
  have hc : Image.channels 3 = 3 := rfl
  unfold Image.createMemory Image.memorySize
  rw [if_pos (by simp), m1, Outcome.bind_ok, hd, m2, Outcome.bind_ok, hc, m3]
  rfl

theorem rowOffset_zero {w h f : Int} {data : List UInt8} (hh : 1 ≤ h) : Image.rowOffset (.memory w h f data) 0 = .ok 0 := by
  unfold Image.rowOffset
  simp only
  rw [if_pos (by omega), Int.mul_zero]

theorem matToImage_rgb (fresh : Nat → UInt8) {m : Mat} (ht : m.type = .u8c3) (h : MatOk 3 m) :
    matToImage fresh m = .ok (some (.memory m.cols m.rows 3
      ((List.range (m.rows * (3 * m.cols))).map fun k => m.bytes[from' m.step m.cols k]?.getD 0))) := by
  have hr := h.rows
  unfold matToImage
  rw [ht]
  dsimp only [formatOf]
  rw [createMemory_rgb fresh h.fits, Outcome.bind_ok, rowOffset_zero (by omega), Outcome.bind_ok, cvtColor_ok ht h]
  rfl

/-- The matrix around the pixels of an image. -/
theorem around_ok {rows cols : Nat} {data : List UInt8} (hr : 1 ≤ rows) (hc : 1 ≤ cols) (hl : data.length = 3 * (rows * cols))
    (hf : 3 * (rows * cols) < 2 ^ 31) : MatOk 3 ⟨rows, cols, cols * 3, .u8c3, data⟩ := by
  refine ⟨hr, hc, by simp only; omega, ?_, hf⟩
  simp only
  obtain ⟨r, rfl⟩ : ∃ r, rows = r + 1 := ⟨rows - 1, by omega⟩
  rw [hl, Nat.add_sub_cancel]
  apply le_of_eq; ring

theorem imageToMat_rgb (imread : Str → Mat) (imdecode : List UInt8 → Mat) {rows cols : Nat} {data : List UInt8}
    (hr : 1 ≤ rows) (hc : 1 ≤ cols) (hl : data.length = 3 * (rows * cols)) (hf : 3 * (rows * cols) < 2 ^ 31) :
    imageToMat imread imdecode (.memory cols rows 3 data) = .ok (some ⟨rows, cols, cols * 3, .u8c3,
      (List.range (rows * (3 * cols))).map fun k => data[from' (cols * 3) cols k]?.getD 0⟩) := by
  unfold imageToMat
  dsimp only
  rw [rowOffset_zero (by omega), Outcome.bind_ok, if_neg (by omega)]
  have hm : matTypeOf 3 = .u8c3 := rfl
  rw [hm, Int.toNat_zero, List.drop_zero, Int.toNat_natCast, Int.toNat_natCast, show MatType.size .u8c3 = 3 from rfl]
  rw [cvtColor_ok (m := ⟨rows, cols, cols * 3, .u8c3, data⟩) rfl (around_ok hr hc hl hf)]
  rfl

theorem swap_length (rows cols step : Nat) (bytes : List UInt8) :
    ((List.range (rows * (3 * cols))).map fun k => bytes[from' step cols k]?.getD 0).length = 3 * (rows * cols) := by
  rw [List.length_map, List.length_range]; ring

/-- C115, colour matrices: `mat_to_image` makes an image of the same size whose pixel in row `i` and
column `j` has the bytes of the element there in the order red, green, blue (a matrix has blue, green,
red), and `image_to_mat` makes a matrix with the same elements of it. The matrix may be a part of a
larger one. -/
theorem C115_colour_partial (imread : Str → Mat) (imdecode : List UInt8 → Mat) (fresh : Nat → UInt8) (m : Mat)
    (ht : m.type = .u8c3) (h : MatOk 3 m) :
    ∃ data m', matToImage fresh m = .ok (some (.memory m.cols m.rows 3 data)) ∧
      PixelData m.cols m.rows 3 data ∧
      (∀ i j k, i < m.rows → j < m.cols → k < 3 →
        pixelByte 3 m.cols data i j k = elementByte m 3 i j (2 - k) ∧ (pixelByte 3 m.cols data i j k).isSome) ∧
      imageToMat imread imdecode (.memory m.cols m.rows 3 data) = .ok (some m') ∧
      m'.type = .u8c3 ∧ m'.rows = m.rows ∧ m'.cols = m.cols ∧ MatOk 3 m' ∧
      ∀ i j k, i < m.rows → j < m.cols → k < 3 → elementByte m' 3 i j k = elementByte m 3 i j k := by
  have hlen := swap_length m.rows m.cols m.step m.bytes
  have hr := h.rows
  have hc := h.cols
  have hf := h.fits
  refine ⟨_, _, matToImage_rgb fresh ht h, ⟨.inr (.inr rfl), by omega, by omega, ?_, by rw [hlen]; exact hf⟩, ?_,
    imageToMat_rgb imread imdecode hr hc hlen hf, rfl, rfl, rfl, around_ok hr hc (swap_length _ _ _ _) hf, ?_⟩
  · rw [hlen]; unfold pixelBytes; norm_num; ring
  · intro i j k hi hj hk
    unfold pixelByte elementByte
    rw [cvt_get hi hj hk, getD_some (element_lt h hi hj (by omega))]
    refine ⟨rfl, ?_⟩
    rw [List.getElem?_eq_getElem (element_lt h hi hj (by omega))]; rfl
  · intro i j k hi hj hk
    unfold elementByte
    dsimp only
    have e : m.cols * 3 * i + 3 * j + k = 3 * (m.cols * i + j) + k := by ring
    have e' : m.cols * 3 * i + 3 * j + (2 - k) = 3 * (m.cols * i + j) + (2 - k) := by ring
    rw [e]
    have := cvt_get (m := ⟨m.rows, m.cols, m.cols * 3, .u8c3, (List.range (m.rows * (3 * m.cols))).map fun k => m.bytes[from' m.step m.cols k]?.getD 0⟩) hi hj hk
    dsimp only at this
    rw [this, e', cvt_get hi hj (by omega), Option.getD_some, show 2 - (2 - k) = k by omega, getD_some (element_lt h hi hj hk)]

/-- C115, colour images: `image_to_mat` makes a matrix with the pixels in the order of OpenCV, and
`mat_to_image` of it is the image again. An image in a file and one in a buffer are what OpenCV reads. -/
theorem C115_back_partial (imread : Str → Mat) (imdecode : List UInt8 → Mat) (fresh : Nat → UInt8) :
    (∀ (w h : Nat) (data : List UInt8), PixelData w h 3 data →
      ∃ m, imageToMat imread imdecode (.memory w h 3 data) = .ok (some m) ∧ m.type = .u8c3 ∧ m.rows = h ∧ m.cols = w ∧
        MatOk 3 m ∧
        (∀ i j k, i < h → j < w → k < 3 →
          elementByte m 3 i j k = pixelByte 3 w data i j (2 - k) ∧ (elementByte m 3 i j k).isSome) ∧
        matToImage fresh m = .ok (some (.memory w h 3 data))) ∧
    (∀ p, imageToMat imread imdecode (Image.createPath p) = .ok (some (imread (cstr p)))) ∧
    (∀ data image, Image.createBuffer data = .ok image → imageToMat imread imdecode image = .ok (some (imdecode data))) := by
  refine ⟨fun w h data hp => ?_, fun p => rfl, fun data image hb => ?_⟩
  · have hw : 1 ≤ w := by have := hp.width; omega
    have hh : 1 ≤ h := by have := hp.height; omega
    have hl : data.length = 3 * (h * w) := by
      have := hp.length
      unfold pixelBytes at this
      norm_num at this
      have e : (w : Int) * h * 3 = ((3 * (h * w) : Nat) : Int) := by push_cast; ring
      rw [e] at this
      exact_mod_cast this
    have hf : 3 * (h * w) < 2 ^ 31 := by rw [← hl]; exact hp.fits
    have ok := around_ok hh hw hl hf
    have hlen := swap_length h w (w * 3) data
    have ok' := around_ok hh hw hlen hf
    refine ⟨_, imageToMat_rgb imread imdecode hh hw hl hf, rfl, rfl, rfl, ok', ?_, ?_⟩
    · intro i j k hi hj hk
      unfold elementByte pixelByte
      dsimp only
      have e : w * 3 * i + 3 * j + k = 3 * (w * i + j) + k := by ring
      have e' : w * 3 * i + 3 * j + (2 - k) = 3 * (w * i + j) + (2 - k) := by ring
      have := cvt_get (m := ⟨h, w, w * 3, .u8c3, data⟩) hi hj hk
      dsimp only at this
      have hlt := element_lt ok (i := i) (j := j) (c := 2 - k) hi hj (by omega)
      dsimp only at hlt
      rw [e, this, getD_some hlt, e']
      refine ⟨rfl, ?_⟩
      rw [← e', List.getElem?_eq_getElem hlt]; rfl
    · rw [matToImage_rgb fresh rfl ok']
      dsimp only
      congr 3
      apply List.ext_getElem?
      intro k
      by_cases hk : k < h * (3 * w)
      · obtain ⟨i, j, c, hi, hj, hc, rfl⟩ := index_exists hk
        have h1 := cvt_get (m := ⟨h, w, w * 3, .u8c3, (List.range (h * (3 * w))).map fun k => data[from' (w * 3) w k]?.getD 0⟩) hi hj hc
        dsimp only at h1
        have h2 := cvt_get (m := ⟨h, w, w * 3, .u8c3, data⟩) (c := 2 - c) hi hj (by omega)
        dsimp only at h2
        have e : w * 3 * i + 3 * j + (2 - c) = 3 * (w * i + j) + (2 - c) := by ring
        have e' : w * 3 * i + 3 * j + c = 3 * (w * i + j) + c := by ring
        have hlt := element_lt ok (i := i) (j := j) (c := c) hi hj hc
        dsimp only at hlt
        rw [h1, e, h2, Option.getD_some, show 2 - (2 - c) = c by omega, getD_some hlt, e']
      · have e3 : h * (3 * w) = 3 * (h * w) := by ring
        rw [List.getElem?_eq_none (by rw [swap_length]; omega), List.getElem?_eq_none (by omega)]
  · unfold Image.createBuffer at hb
    split at hb
    · injection hb with hb; subst hb; rfl
    · cases hb

/-- A matrix of two rows of one element inside a wider one: blue, green, red. -/
example : MatOk 3 ⟨2, 1, 6, .u8c3, [1, 2, 3, 9, 9, 9, 4, 5, 6]⟩ ∧
    matToImage (fun _ => 0) ⟨2, 1, 6, .u8c3, [1, 2, 3, 9, 9, 9, 4, 5, 6]⟩ = .ok (some (.memory 1 2 3 [3, 2, 1, 6, 5, 4])) := by
  refine ⟨⟨?_, ?_, ?_, ?_, ?_⟩, by decide +kernel⟩ <;> decide

example : PixelData (1 : Nat) (2 : Nat) 3 [3, 2, 1, 6, 5, 4] := by
  refine ⟨.inr (.inr rfl), ?_, ?_, ?_, ?_⟩ <;> decide

/-- C115, the claim for grey images fails: every grey image, of 8 or 16 bits, makes `image_to_mat` throw, and
every grey matrix makes `mat_to_image` throw, for both call a colour conversion that takes three channels. -/
theorem C115_gray_false (imread : Str → Mat) (imdecode : List UInt8 → Mat) (fresh : Nat → UInt8) :
    (∀ (w h f : Int) (data : List UInt8), PixelData w h f data → f ≠ 3 →
      imageToMat imread imdecode (.memory w h f data) = .ok none) ∧
    (∀ m : Mat, m.type = .u8c1 → MatOk 1 m → matToImage fresh m = .ok none) ∧
    matToImage fresh ⟨1, 1, 2, .u16c1, [1, 2]⟩ = .ok none := by
  refine ⟨fun w h f data hp hf => ?_, fun m ht h => ?_, rfl⟩
  · have hh := hp.height
    have hw := hp.width
    unfold imageToMat
    dsimp only
    rw [rowOffset_zero hh, Outcome.bind_ok, if_neg (by omega)]
    unfold cvtColor
    rw [if_neg]
    · rfl
    · rintro ⟨h1, _⟩
      unfold matTypeOf at h1
      simp only [if_neg hf] at h1
      split at h1 <;> cases h1
  · have hr := h.rows
    have hf := h.fits
    have h2 : (2 : Nat) ^ 31 = 2147483648 := by norm_num
    have e : ((m.cols : Int) * m.rows) = ((m.rows * m.cols : Nat) : Int) := by push_cast; ring
    have m1 : mul32 m.cols m.rows = .ok ((m.rows * m.cols : Nat) : Int) := by
      unfold mul32; rw [e, if_pos (by unfold InInt32; omega)]
    have m2 : mul32 ((m.rows * m.cols : Nat) : Int) 1 = .ok ((m.rows * m.cols : Nat) : Int) := by
      unfold mul32; rw [Int.mul_one, if_pos (by unfold InInt32; omega)]
    unfold matToImage
    rw [ht]
    dsimp only [formatOf]
    unfold Image.createMemory Image.memorySize
    rw [if_pos (by simp), m1, Outcome.bind_ok, show Image.depth 1 = 1 from rfl, m2, Outcome.bind_ok,
      show Image.channels 1 = 1 from rfl, m2]
    dsimp only [Outcome.map, Outcome.bind_ok]
    rw [rowOffset_zero (by omega), Outcome.bind_ok]
    unfold cvtColor
    rw [if_neg (by rw [ht]; rintro ⟨h1, _⟩; cases h1)]
    rfl

/-! ## C116: masks -/

/-- The content of the matrix after the rows were copied. -/
theorem copyRows {w h : Nat} {x y : Int} {base : Nat} {data buf : List UInt8} (hl : data.length = w * h)
    (hf : w * h < 2 ^ 31) (hb : base + w * h ≤ buf.length) (off : Nat → Outcome Int)
    (ho : ∀ i, i < h → off i = .ok ((base + w * i : Nat) : Int)) :
    ∃ out, Outcome.forN (fun (i : Nat) buf => (off i).bind fun o =>
        Outcome.forN (fun (j : Nat) buf => (Region.readMaskPixel (.mask x y w h data) i j).bind fun v => writeAt buf (o + j) v) w buf) h buf = .ok out ∧
      out.length = buf.length ∧ (∀ p, p < w * h → out[base + p]? = data[p]?) ∧ ∀ p, p < base → out[p]? = buf[p]? := by
  refine forN_inv _ (fun i out => out.length = buf.length ∧ (∀ p, p < w * i → out[base + p]? = data[p]?) ∧ ∀ p, p < base → out[p]? = buf[p]?)
    h buf ⟨rfl, by simp, fun _ _ => rfl⟩ ?_
  rintro i out hi ⟨h1, h2, h3⟩
  have hmul : w * i + w ≤ w * h := by
    have := Nat.mul_le_mul_left w hi
    rw [Nat.mul_succ] at this; exact this
  rw [ho i hi, Outcome.bind_ok]
  obtain ⟨out', e, h4, h5, h6⟩ := forN_inv
    (fun (j : Nat) buf => (Region.readMaskPixel (.mask x y w h data) i j).bind fun v => writeAt buf (((base + w * i : Nat) : Int) + j) v)
    (fun j out => out.length = buf.length ∧ (∀ p, p < w * i + j → out[base + p]? = data[p]?) ∧ ∀ p, p < base → out[p]? = buf[p]?)
    w out ⟨h1, h2, h3⟩ (by
      rintro j o hj ⟨g1, g2, g3⟩
      rw [readMaskPixel_ok hl hf hi hj, Outcome.bind_ok]
      unfold writeAt
      rw [if_pos (by rw [g1]; constructor <;> [positivity; skip]; omega)]
      refine ⟨_, rfl, by rw [List.length_set, g1], ?_, ?_⟩
      · intro p hp
        rw [show (((base + w * i : Nat) : Int) + (j : Int)).toNat = base + (w * i + j) by omega, List.getElem?_set]
        by_cases hpe : p = w * i + j
        · subst hpe
          rw [if_pos rfl, if_pos (by omega), getD_some (by omega)]
        · rw [if_neg (by omega)]; exact g2 p (by omega)
      · intro p hp
        rw [show (((base + w * i : Nat) : Int) + (j : Int)).toNat = base + (w * i + j) by omega, List.getElem?_set, if_neg (by omega)]
        exact g3 p hp)
  refine ⟨out', e, h4, ?_, h6⟩
  intro p hp
  rw [Nat.mul_succ] at hp
  exact h5 p hp

theorem regionToMat_left (fresh : Nat → List UInt8) (hfresh : ∀ n, (fresh n).length = n) {y w h : Nat} {data : List UInt8}
    (_hw : 1 ≤ w) (_hh : 1 ≤ h) (hl : data.length = w * h) (hf : w * (h + y) < 2 ^ 31) :
    ∃ out, regionToMat fresh (.mask 0 y w h data) = .ok (some ⟨h + y, w, w, .u8c1, out⟩) ∧ out.length = w * (h + y) ∧
      (∀ p, p < w * h → out[w * y + p]? = data[p]?) ∧ ∀ p, p < w * y → out[p]? = (fresh (w * (h + y)))[p]? := by
  have h2 : (2 : Nat) ^ 31 = 2147483648 := by norm_num
  have e1 : w * (h + y) = w * y + w * h := by ring
  have hle : h + y ≤ w * (h + y) := Nat.le_mul_of_pos_left _ (by omega)
  have hle2 : w ≤ w * (h + y) := Nat.le_mul_of_pos_right _ (by omega)
  have e2 : (((h : Int) + y) * ((w : Int) + 0)).toNat = w * (h + y) := by
    rw [show ((h : Int) + y) * ((w : Int) + 0) = ((w * (h + y) : Nat) : Int) by push_cast; ring, Int.toNat_natCast]
  obtain ⟨out, ho, h3, h4, h5⟩ := copyRows (x := 0) (y := (y : Int)) (base := w * y) (buf := fresh (w * (h + y))) hl (by omega)
    (by rw [hfresh]; omega) (fun i => (mul32 ((i : Int) + y) w).bind fun o => chk32 (o + 0)) (by
      intro i hi
      have hmul : w * i + w ≤ w * h := by
        have := Nat.mul_le_mul_left w hi
        rw [Nat.mul_succ] at this; exact this
      unfold mul32
      rw [show ((i : Int) + y) * w = ((w * y + w * i : Nat) : Int) by push_cast; ring, if_pos (by unfold InInt32; omega), Outcome.bind_ok, Int.add_zero]
      unfold chk32
      rw [if_pos (by unfold InInt32; omega)])
  refine ⟨out, ?_, by rw [h3, hfresh], h4, h5⟩
  unfold regionToMat Region.getMaskHeader
  dsimp only [Outcome.bind_ok]
  have c1 : chk32 ((h : Int) + y) = .ok ((h : Int) + y) := by unfold chk32; rw [if_pos (by unfold InInt32; omega)]
  have c2 : chk32 ((w : Int) + 0) = .ok ((w : Int) + 0) := by unfold chk32; rw [if_pos (by unfold InInt32; omega)]
  rw [c1, Outcome.bind_ok, c2, Outcome.bind_ok, if_neg (by omega), e2, Int.toNat_natCast, Int.toNat_natCast]
  have hassoc : (fun (i : Nat) (buf : List UInt8) => (mul32 ((i : Int) + y) w).bind fun o => (chk32 (o + 0)).bind fun o =>
      Outcome.forN (fun (j : Nat) buf => (Region.readMaskPixel (.mask 0 y w h data) i j).bind fun v => writeAt buf (o + j) v) w buf) =
      (fun (i : Nat) (buf : List UInt8) => ((mul32 ((i : Int) + y) w).bind fun o => chk32 (o + 0)).bind fun o =>
      Outcome.forN (fun (j : Nat) buf => (Region.readMaskPixel (.mask 0 y w h data) i j).bind fun v => writeAt buf (o + j) v) w buf) := by
    funext i buf
    generalize mul32 ((i : Int) + y) w = q
    cases q <;> rfl
  rw [hassoc, ho]
  dsimp only [Outcome.map, Outcome.bind_ok]
  rw [Int.add_zero, Int.toNat_natCast, show ((h : Int) + y).toNat = h + y by omega]

theorem matToRegion_ok (fresh : Nat → List UInt8) {m : Mat} (ht : m.type = .u8c1) (hs : m.step = m.cols) (h : MatOk 1 m) :
    matToRegion fresh m = .ok (some (.mask 0 0 m.cols m.rows (m.bytes.take (m.rows * m.cols)))) ∧
      m.rows * m.cols ≤ m.bytes.length := by
  have hr := h.rows
  have hc := h.cols
  have hf := h.fits
  have hm := h.memory
  have h2 : (2 : Nat) ^ 31 = 2147483648 := by norm_num
  have hlen : m.rows * m.cols ≤ m.bytes.length := by
    obtain ⟨r, hr'⟩ : ∃ r, m.rows = r + 1 := ⟨m.rows - 1, by omega⟩
    rw [hs, hr', Nat.add_sub_cancel] at hm
    rw [hr', show (r + 1) * m.cols = m.cols * r + 1 * m.cols by ring]; exact hm
  have e : ((m.cols : Int) * m.rows) = ((m.rows * m.cols : Nat) : Int) := by push_cast; ring
  refine ⟨?_, hlen⟩
  unfold matToRegion Region.apiCreateMask Region.createMask
  rw [if_pos ht, if_pos (by omega), Outcome.bind_ok]
  unfold Region.maskRow
  dsimp only
  rw [if_pos (by omega)]
  unfold mul32
  rw [Int.mul_zero, if_pos (by unfold InInt32; omega), Outcome.bind_ok, e, if_pos (by unfold InInt32; omega), Outcome.bind_ok,
    Int.toNat_natCast, build_ok (g := fun k => m.bytes[k]?.getD 0) (fun i hi => readAt_nat (by omega))]
  have : (List.range (m.rows * m.cols)).map (fun k => m.bytes[k]?.getD 0) = m.bytes.take (m.rows * m.cols) := by
    apply List.ext_getElem?
    intro k
    by_cases hk : k < m.rows * m.cols
    · rw [List.getElem?_map, List.getElem?_range hk, Option.map_some, List.getElem?_take, if_pos hk, getD_some (by omega)]
    · rw [List.getElem?_eq_none (by simp; omega), List.getElem?_eq_none (by simp; omega)]
  rw [this]
  rfl

/-- C116, a mask whose left border is that of the frame: `region_to_mat` makes a matrix that reaches from the
origin of the frame to the lower right corner of the mask and has the pixels of the mask in their places.
Of a mask that begins at the origin, `mat_to_region` of the matrix is the same mask. -/
theorem C116_mask_partial (fresh : Nat → List UInt8) (hfresh : ∀ n, (fresh n).length = n) (y w h : Nat) (data : List UInt8)
    (hw : 1 ≤ w) (hh : 1 ≤ h) (hl : data.length = w * h) (hf : w * (h + y) < 2 ^ 31) :
    ∃ m, regionToMat fresh (.mask 0 y w h data) = .ok (some m) ∧ m.type = .u8c1 ∧ m.rows = y + h ∧ m.cols = w ∧ MatOk 1 m ∧
      (∀ i j, i < h → j < w → elementByte m 1 (y + i) j 0 = pixelByte 1 w data i j 0 ∧ (elementByte m 1 (y + i) j 0).isSome) ∧
      (y = 0 → matToRegion fresh m = .ok (some (.mask 0 0 w h data))) := by
  obtain ⟨out, e1, e2, e3, _⟩ := regionToMat_left fresh hfresh hw hh hl hf
  have ok : MatOk 1 ⟨h + y, w, w, .u8c1, out⟩ := by
    refine ⟨by simp only; omega, hw, by simp only; omega, ?_, ?_⟩
    · simp only
      rw [e2]
      obtain ⟨r, hr⟩ : ∃ r, h + y = r + 1 := ⟨h + y - 1, by omega⟩
      rw [hr, Nat.add_sub_cancel]
      apply le_of_eq; ring
    · simp only
      rw [Nat.one_mul, Nat.mul_comm]; exact hf
  refine ⟨_, e1, rfl, Nat.add_comm _ _, rfl, ok, ?_, ?_⟩
  · intro i j hi hj
    have hlt : w * i + j < w * h := by
      have := Nat.mul_le_mul_left w hi
      rw [Nat.mul_succ] at this; omega
    unfold elementByte pixelByte
    dsimp only
    rw [show w * (y + i) + 1 * j + 0 = w * y + (w * i + j) by ring, e3 _ hlt, show 1 * (w * i + j) + 0 = w * i + j by ring]
    exact ⟨rfl, by rw [List.getElem?_eq_getElem (by omega)]; rfl⟩
  · rintro rfl
    rw [(matToRegion_ok fresh (m := ⟨h + 0, w, w, .u8c1, out⟩) rfl rfl ok).1]
    dsimp only
    congr 3
    apply List.ext_getElem?
    intro k
    by_cases hk : k < w * h
    · have := e3 k hk
      rw [Nat.mul_zero, Nat.zero_add] at this
      rw [List.getElem?_take, if_pos (by rw [Nat.add_zero, Nat.mul_comm]; exact hk), this]
    · rw [List.getElem?_eq_none (by rw [List.length_take, Nat.add_zero, Nat.mul_comm]; omega), List.getElem?_eq_none (by omega)]

/-- C116, a matrix that is not part of a wider one: `mat_to_region` makes a mask at the origin with its elements,
and `region_to_mat` of it has the same elements. -/
theorem C116_matrix_partial (fresh : Nat → List UInt8) (hfresh : ∀ n, (fresh n).length = n) (m : Mat)
    (ht : m.type = .u8c1) (hs : m.step = m.cols) (h : MatOk 1 m) :
    ∃ data m', matToRegion fresh m = .ok (some (.mask 0 0 m.cols m.rows data)) ∧ data.length = m.rows * m.cols ∧
      (∀ i j, i < m.rows → j < m.cols → pixelByte 1 m.cols data i j 0 = elementByte m 1 i j 0 ∧ (elementByte m 1 i j 0).isSome) ∧
      regionToMat fresh (.mask 0 0 m.cols m.rows data) = .ok (some m') ∧ m'.type = .u8c1 ∧ m'.rows = m.rows ∧ m'.cols = m.cols ∧
      ∀ i j, i < m.rows → j < m.cols → elementByte m' 1 i j 0 = elementByte m 1 i j 0 := by
  obtain ⟨e1, e2⟩ := matToRegion_ok fresh ht hs h
  have hl : (m.bytes.take (m.rows * m.cols)).length = m.rows * m.cols := by rw [List.length_take]; omega
  have hf := h.fits
  have key : ∀ i j, i < m.rows → j < m.cols → pixelByte 1 m.cols (m.bytes.take (m.rows * m.cols)) i j 0 = elementByte m 1 i j 0 ∧ (elementByte m 1 i j 0).isSome := by
    intro i j hi hj
    have hlt : m.cols * i + j < m.rows * m.cols := by
      have := Nat.mul_le_mul_left m.cols hi
      rw [Nat.mul_succ, Nat.mul_comm m.cols m.rows] at this; omega
    unfold elementByte pixelByte
    rw [hs, List.getElem?_take, if_pos (by omega), show 1 * (m.cols * i + j) + 0 = m.cols * i + 1 * j + 0 by ring]
    refine ⟨rfl, ?_⟩
    rw [List.getElem?_eq_getElem (by omega)]; rfl
  obtain ⟨m', g1, g2, g3, g4, _, g6, _⟩ := C116_mask_partial fresh hfresh 0 m.cols m.rows _ h.cols h.rows (by rw [hl, Nat.mul_comm])
    (by rw [Nat.add_zero, Nat.mul_comm]; omega)
  refine ⟨_, m', e1, hl, key, g1, g2, by omega, g4, ?_⟩
  intro i j hi hj
  have := (g6 i j hi hj).1
  rw [Nat.zero_add] at this
  rw [this, (key i j hi hj).1]

example : regionToMat (fun n => List.replicate n 7) (.mask 0 1 2 2 [1, 0, 0, 1]) = .ok (some ⟨3, 2, 2, .u8c1, [7, 7, 1, 0, 0, 1]⟩) := by
  decide +kernel

example : MatOk 1 ⟨2, 2, 2, .u8c1, [1, 0, 0, 1]⟩ := by
  refine ⟨?_, ?_, ?_, ?_, ?_⟩ <;> decide

/-- C116, the full claim fails.
(1) A mask to the right of the frame's border: the two pixels of the column at `x = 1` come out at (0, 1) and (1, 0),
because the rows of the matrix are taken to be as wide as the mask.
(2) Of what is above the mask, the matrix has what was in the memory before.
(3) A mask that begins left of or above the frame is written outside of the matrix.
(4) Of a part of a wider matrix, `mat_to_region` takes what follows the first row. -/
theorem C116_mask_false :
    (∃ m, regionToMat (fun n => List.replicate n 0) (.mask 1 0 1 2 [1, 1]) = .ok (some m) ∧ m.rows = 2 ∧ m.cols = 2 ∧
      elementByte m 1 1 1 0 = some 0 ∧ elementByte m 1 1 0 0 = some 1) ∧
    (∀ v, ∃ m, regionToMat (fun n => List.replicate n v) (.mask 0 1 1 1 [1]) = .ok (some m) ∧ elementByte m 1 0 0 0 = some v) ∧
    (regionToMat (fun n => List.replicate n 0) (.mask (-1) 0 2 1 [1, 1]) = .ub ∧
      regionToMat (fun n => List.replicate n 0) (.mask 0 (-1) 1 2 [1, 1]) = .ub) ∧
    (∃ m, MatOk 1 m ∧ m.type = .u8c1 ∧ elementByte m 1 1 0 0 = some 3 ∧ ∃ data, matToRegion (fun n => List.replicate n 0) m = .ok (some (.mask 0 0 1 2 data)) ∧
      pixelByte 1 1 data 1 0 0 = some 2) := by
  refine ⟨⟨⟨2, 2, 2, .u8c1, [0, 1, 1, 0]⟩, ?_⟩, fun v => ⟨⟨2, 1, 1, .u8c1, [v, 1]⟩, rfl, rfl⟩, ?_, ⟨⟨2, 1, 2, .u8c1, [1, 2, 3, 4]⟩, ?_, rfl, rfl, [1, 2], ?_, rfl⟩⟩
  · decide +kernel
  · decide +kernel
  · refine ⟨?_, ?_, ?_, ?_, ?_⟩ <;> decide
  · decide +kernel

/-! ## C117: rectangles and points -/

/-- C117, rectangles. (1) `region_to_rect` of a region that `trax_region_convert` turns into a rectangle with these
coordinates has the nearest integers, halves away from zero. (2) `rect_to_region` of a rectangle with coordinates up to
`2^24` has these coordinates, and `region_to_rect` of it is the same rectangle. -/
theorem C117_rect_partial (legacy : Bool) (fresh : Nat → List UInt8) :
    (∀ region x y w h, Region.apiConvert legacy fresh (some region) 2 = .ok (some (.rectangle x y w h)) →
      (∀ v ∈ [x, y, w, h], v.IsFinite ∧ |v.value| < 2 ^ 31 - 1) →
      ∃ rect, regionToRect legacy fresh (some region) = .ok rect ∧
        RoundsTo x.value rect.x ∧ RoundsTo y.value rect.y ∧ RoundsTo w.value rect.width ∧ RoundsTo h.value rect.height) ∧
    (∀ rect : Rect, (∀ n ∈ [rect.x, rect.y, rect.width, rect.height], |n| ≤ 2 ^ 24) →
      (∃ x y w h, rectToRegion rect = .rectangle x y w h ∧ (x.IsFinite ∧ x.value = rect.x) ∧ (y.IsFinite ∧ y.value = rect.y) ∧
        (w.IsFinite ∧ w.value = rect.width) ∧ (h.IsFinite ∧ h.value = rect.height)) ∧
      regionToRect legacy fresh (some (rectToRegion rect)) = .ok rect) := by
  have one : ∀ region x y w h, Region.apiConvert legacy fresh (some region) 2 = .ok (some (.rectangle x y w h)) →
      (∀ v ∈ [x, y, w, h], v.IsFinite ∧ |v.value| < 2 ^ 31 - 1) →
      ∃ rect, regionToRect legacy fresh (some region) = .ok rect ∧
        RoundsTo x.value rect.x ∧ RoundsTo y.value rect.y ∧ RoundsTo w.value rect.width ∧ RoundsTo h.value rect.height := by
    intro region x y w h hc hv
    obtain ⟨a, a1, a2⟩ := roundInt_ok (hv x (by simp)).1 (hv x (by simp)).2
    obtain ⟨b, b1, b2⟩ := roundInt_ok (hv y (by simp)).1 (hv y (by simp)).2
    obtain ⟨c, c1, c2⟩ := roundInt_ok (hv w (by simp)).1 (hv w (by simp)).2
    obtain ⟨d, d1, d2⟩ := roundInt_ok (hv h (by simp)).1 (hv h (by simp)).2
    refine ⟨⟨a, b, c, d⟩, ?_, a2, b2, c2, d2⟩
    unfold regionToRect Ocv.convert
    dsimp only
    rw [hc, Outcome.bind_ok]
    dsimp only [Region.getRectangle]
    rw [Outcome.bind_ok]
    dsimp only
    rw [a1, Outcome.bind_ok, b1, Outcome.bind_ok, c1, Outcome.bind_ok, d1]
    rfl
  refine ⟨one, fun rect hr => ?_⟩
  have ix := Flt.ofInt_small (hr rect.x (by simp))
  have iy := Flt.ofInt_small (hr rect.y (by simp))
  have iw := Flt.ofInt_small (hr rect.width (by simp))
  have ih := Flt.ofInt_small (hr rect.height (by simp))
  refine ⟨⟨_, _, _, _, rfl, ⟨ix.finite, ix.value⟩, ⟨iy.finite, iy.value⟩, ⟨iw.finite, iw.value⟩, ⟨ih.finite, ih.value⟩⟩, ?_⟩
  have bound : ∀ n : Int, |n| ≤ 2 ^ 24 → |(n : ℚ)| < 2 ^ 31 - 1 := by
    intro n hn
    have : |(n : ℚ)| ≤ 2 ^ 24 := by exact_mod_cast hn
    linarith [show ((2 : ℚ) ^ 24) < 2 ^ 31 - 1 by norm_num]
  obtain ⟨r, e, h1, h2, h3, h4⟩ := one (rectToRegion rect) _ _ _ _ rfl (by
    intro v hv
    simp only [List.mem_cons, List.not_mem_nil, or_false] at hv
    rcases hv with rfl | rfl | rfl | rfl
    · exact ⟨ix.finite, by rw [ix.value]; exact bound _ (hr _ (by simp))⟩
    · exact ⟨iy.finite, by rw [iy.value]; exact bound _ (hr _ (by simp))⟩
    · exact ⟨iw.finite, by rw [iw.value]; exact bound _ (hr _ (by simp))⟩
    · exact ⟨ih.finite, by rw [ih.value]; exact bound _ (hr _ (by simp))⟩)
  rw [ix.value] at h1
  rw [iy.value] at h2
  rw [iw.value] at h3
  rw [ih.value] at h4
  rw [e]
  obtain ⟨a, b, c, d⟩ := r
  simp only at h1 h2 h3 h4
  rw [roundsTo_int h1, roundsTo_int h2, roundsTo_int h3, roundsTo_int h4]

theorem wrap32_small {n : Nat} (h : n < 2 ^ 31) : wrap32 n = n := by
  have h2 : (2 : Nat) ^ 31 = 2147483648 := by norm_num
  unfold wrap32
  omega

/-- C117, points: three or more points make a polygon with these points in this order, and `region_to_points` of it
gives them back. A region that `trax_region_convert` turns into a polygon gives its points, and an empty or special
region gives none. -/
theorem C117_points_partial (legacy : Bool) (fresh : Nat → List UInt8) (freshPoints : Nat → List (Flt × Flt))
    (hfresh : ∀ n, (freshPoints n).length = n) :
    (∀ points : List (Flt × Flt), 3 ≤ points.length → points.length < 2 ^ 31 →
      pointsToRegion freshPoints points = .ok (.polygon points) ∧
      regionToPoints legacy fresh (some (.polygon points)) = .ok points) ∧
    (∀ region points, Region.apiConvert legacy fresh (some region) 4 = .ok (some (.polygon points)) →
      regionToPoints legacy fresh (some region) = .ok points) ∧
    regionToPoints legacy fresh none = .ok [] ∧ ∀ code, regionToPoints legacy fresh (some (.special code)) = .ok [] := by
  have back : ∀ region points, Region.apiConvert legacy fresh (some region) 4 = .ok (some (.polygon points)) →
      regionToPoints legacy fresh (some region) = .ok points := by
    intro region points hc
    unfold regionToPoints Ocv.convert
    dsimp only
    rw [hc, Outcome.bind_ok]
    dsimp only
    rw [if_neg (by simp [Region.getType, Region.apiType, Region.type])]
    dsimp only [Region.getPolygonCount]
    rw [Outcome.bind_ok, Int.toNat_natCast, build_ok (g := fun i => points[i]?.getD (.zero, .zero))]
    · congr 1
      apply List.ext_getElem?
      intro k
      by_cases hk : k < points.length
      · rw [List.getElem?_map, List.getElem?_range hk, Option.map_some, List.getElem?_eq_getElem hk]; rfl
      · rw [List.getElem?_eq_none (by simp; omega), List.getElem?_eq_none (by omega)]
    · intro i hi
      unfold Region.getPolygonPoint
      dsimp only
      rw [if_pos (by omega), if_pos (by omega), Int.toNat_natCast, List.getElem?_eq_getElem hi]
      rfl
  refine ⟨fun points h3 hf => ⟨?_, back _ _ rfl⟩, back, rfl, fun code => rfl⟩
  unfold pointsToRegion Region.createPolygon
  rw [wrap32_small hf, if_pos (by omega), Outcome.bind_ok, Int.toNat_natCast]
  obtain ⟨r, e, ps, hr, hl, hps⟩ := forN_inv (setPoint points)
    (fun i r => ∃ ps, r = .polygon ps ∧ ps.length = points.length ∧ ∀ p, p < i → ps[p]? = points[p]?)
    points.length (.polygon (freshPoints points.length)) ⟨_, rfl, hfresh _, by omega⟩ (by
      rintro i r hi ⟨ps, rfl, hl, hps⟩
      unfold setPoint
      rw [List.getElem?_eq_getElem hi]
      unfold Region.setPolygonPoint
      dsimp only
      rw [wrap32_small (by omega), if_pos (by omega), if_pos (by omega)]
      refine ⟨_, rfl, _, rfl, by rw [List.length_set, hl], ?_⟩
      intro p hp
      rw [Int.toNat_natCast, List.getElem?_set]
      by_cases hpe : i = p
      · subst hpe
        rw [if_pos rfl, if_pos (by omega), List.getElem?_eq_getElem hi]
      · rw [if_neg hpe]; exact hps p (by omega))
  rw [e, hr]
  congr 2
  apply List.ext_getElem?
  intro k
  by_cases hk : k < points.length
  · exact hps k hk
  · rw [List.getElem?_eq_none (by omega), List.getElem?_eq_none (by omega)]

example : regionToRect false (fun n => List.replicate n 0) (some (rectToRegion ⟨-3, 5, 640, 480⟩)) = .ok ⟨-3, 5, 640, 480⟩ :=
  ((C117_rect_partial false (fun n => List.replicate n 0)).2 ⟨-3, 5, 640, 480⟩ (by decide)).2

/-- Three points. -/
example : pointsToRegion (fun n => List.replicate n (.nan, .nan)) [(.ofInt 0, .ofInt 0), (.ofInt 4, .ofInt 0), (.ofInt 4, .ofInt 3)] =
    .ok (.polygon [(.ofInt 0, .ofInt 0), (.ofInt 4, .ofInt 0), (.ofInt 4, .ofInt 3)]) :=
  ((C117_points_partial false (fun n => List.replicate n 0) (fun n => List.replicate n (.nan, .nan)) (by simp)).1 _ (by decide) (by decide)).1

theorem regionToRect_rectangle (legacy : Bool) (fresh : Nat → List UInt8) (x y w h : Flt) :
    regionToRect legacy fresh (some (.rectangle x y w h)) = (roundInt x).bind fun x => (roundInt y).bind fun y =>
      (roundInt w).bind fun w => (roundInt h).map fun h => ⟨x, y, w, h⟩ := rfl

/-- C117, the full claim fails: a rectangle at `2^24 + 1` comes back at `2^24`; one at the largest `int` cannot be
converted back; `region_to_rect` of a special region reads variables that were never set; and one or two points abort
the program. -/
theorem C117_rect_false (legacy : Bool) (fresh : Nat → List UInt8) (freshPoints : Nat → List (Flt × Flt)) :
    regionToRect legacy fresh (some (rectToRegion ⟨16777217, 0, 1, 1⟩)) = .ok ⟨16777216, 0, 1, 1⟩ ∧
    regionToRect legacy fresh (some (rectToRegion ⟨2147483647, 0, 1, 1⟩)) = .ub ∧
    (∀ code, regionToRect legacy fresh (some (.special code)) = .ub) ∧
    ∀ points : List (Flt × Flt), points.length ≤ 2 → pointsToRegion freshPoints points = .abort := by
  refine ⟨?_, ?_, fun code => rfl, fun points h => ?_⟩
  · have hx : roundInt (.ofInt 16777217) = .ok 16777216 := by decide +kernel
    have hy : roundInt (.ofInt 0) = .ok 0 := by decide +kernel
    have h1 : roundInt (.ofInt 1) = .ok 1 := by decide +kernel
    unfold rectToRegion Region.createRectangle
    rw [regionToRect_rectangle, hx, Outcome.bind_ok, hy, Outcome.bind_ok, h1, Outcome.bind_ok]
    rfl
  · have hx : roundInt (.ofInt 2147483647) = .ub := by decide +kernel
    unfold rectToRegion Region.createRectangle
    rw [regionToRect_rectangle, hx]
    rfl
  · unfold pointsToRegion Region.createPolygon
    rw [wrap32_small (by omega), if_neg (by omega)]
    rfl

end Trax
