import Verif.Lemmas.PyValues
import Verif.Props.Matlab

/-!
# Property theorem C137: images in the Python package
-/

namespace Trax
open Py Py.Spec
open Trax.Spec (PixelData pixelBytes FileData)

/-- The library makes a block of the right size. -/
theorem createMemory_ok (fresh : Nat → UInt8) {n w h c : Nat} {f : Int} (hf : (n = 1 ∧ (c = 1 ∧ f = 1 ∨ c = 3 ∧ f = 3)) ∨ (n = 2 ∧ c = 1 ∧ f = 2))
    (hh : 1 ≤ h) (hw : 1 ≤ w) (hs : n * (h * (w * c)) < 2147483648) :
    ∃ data, Image.createMemory fresh w h f = .ok (.memory w h f data) ∧ data.length = n * (h * (w * c)) := by
  have h1 : w * h * (n * c) = n * (h * (w * c)) := by ring
  have hnc : 1 ≤ n * c ∧ Image.depth f * Image.channels f = (n * c : Nat) ∧ Image.depth f = n ∧ Image.channels f = c ∧ (f = 1 ∨ f = 2 ∨ f = 3) := by
    rcases hf with ⟨rfl, ⟨rfl, rfl⟩ | ⟨rfl, rfl⟩⟩ | ⟨rfl, rfl, rfl⟩ <;> decide
  obtain ⟨hnc, -, hd, hc, hff⟩ := hnc
  have h2 : w * h ≤ w * h * (n * c) := Nat.le_mul_of_pos_right _ hnc
  have h3 : w * h * n ≤ w * h * (n * c) := by
    rw [← Nat.mul_assoc]
    refine Nat.le_mul_of_pos_right _ ?_
    rcases Nat.eq_zero_or_pos c with h0 | h0
    · rw [h0, Nat.mul_zero] at hnc; omega
    · exact h0
  refine ⟨(List.range (n * (h * (w * c)))).map fresh, ?_, by simp⟩
  unfold Image.createMemory Image.memorySize
  rw [if_pos hff, hd, hc]
  unfold mul32
  have e1 : (w : Int) * h = (w * h : Nat) := by push_cast; ring
  have e2 : ((w * h : Nat) : Int) * n = (w * h * n : Nat) := by push_cast; ring
  have e3 : ((w * h * n : Nat) : Int) * c = (n * (h * (w * c)) : Nat) := by push_cast; ring
  rw [e1, if_pos (by unfold InInt32; omega), Outcome.bind_ok, e2, if_pos (by unfold InInt32; omega), Outcome.bind_ok, e3, if_pos (by unfold InInt32; omega)]
  rfl

theorem memoryFormat_picture {a : NdArray} {h w c : Nat} {f : Int} (hp : Py.Spec.Picture a h w c f) : memoryFormat a.shape a.dtype.size = some f := by
  unfold memoryFormat
  rcases hp.shape with ⟨hs, rfl⟩ | hs <;> rcases hp.type with ⟨ht, ⟨h1, rfl⟩ | ⟨h1, rfl⟩⟩ | ⟨ht, h1, rfl⟩ <;> (try subst h1) <;> rw [hs, ht] <;> simp_all

theorem picture_shape {a : NdArray} {h w c : Nat} {f : Int} (hp : Py.Spec.Picture a h w c f) : a.shape ≠ [] ∧ a.shape[1]? = some w ∧ a.shape[0]? = some h ∧ a.shape.prod = h * (w * c) := by
  rcases hp.shape with ⟨hs, rfl⟩ | hs <;> rw [hs] <;> simp

theorem picture_sample {a : NdArray} {h w c : Nat} {f : Int} (hp : Py.Spec.Picture a h w c f) {i j k : Nat} (hi : i < h) (hj : j < w) (hk : k < c) :
    Within a ([i, j, k].take a.shape.length) ∧ flat a.shape ([i, j, k].take a.shape.length) = (i * w + j) * c + k := by
  unfold Within
  rcases hp.shape with ⟨hs, rfl⟩ | hs
  · rw [hs]
    obtain rfl : k = 0 := by omega
    refine ⟨.cons hi (.cons hj .nil), ?_⟩
    simp [flat]
  · rw [hs]
    refine ⟨.cons hi (.cons hj (.cons hk .nil)), ?_⟩
    simp [flat]
    ring

theorem picture_kind {a : NdArray} {h w c : Nat} {f : Int} (hp : Py.Spec.Picture a h w c f) :
    (a.dtype.size = 1 ∧ (c = 1 ∧ f = 1 ∨ c = 3 ∧ f = 3)) ∨ (a.dtype.size = 2 ∧ c = 1 ∧ f = 2) := by
  rcases hp.type with ⟨ht, h1⟩ | ⟨ht, h1⟩ <;> rw [ht]
  · exact .inl ⟨rfl, h1⟩
  · exact .inr ⟨rfl, h1⟩

theorem memoryCreate_ok (fresh : Nat → UInt8) {a : NdArray} {h w c : Nat} {f : Int} (hp : Py.Spec.Picture a h w c f) :
    ∃ data, memoryCreate fresh a = .ok (.ok (.memory w h f data)) ∧ PixelData w h f data ∧ data.length = a.dtype.size * (h * (w * c)) ∧
      ∀ i j k b, i < h → j < w → k < c → b < a.dtype.size → data[a.dtype.size * ((i * w + j) * c + k) + b]? = sample a i j k b := by
  obtain ⟨hne, h1, h0, hprod⟩ := picture_shape hp
  have hk := picture_kind hp
  obtain ⟨data, e, hl, hd⟩ := ascontiguous_ok hp.readable hne
  obtain ⟨dest, ec, hdl⟩ := createMemory_ok fresh hk hp.rows hp.columns hp.fits
  have hhw : h ≤ a.dtype.size * (h * (w * c)) ∧ w ≤ a.dtype.size * (h * (w * c)) := by
    have hs : 1 ≤ a.dtype.size ∧ 1 ≤ c := by rcases hk with ⟨h1, ⟨h2, -⟩ | ⟨h2, -⟩⟩ | ⟨h1, h2, -⟩ <;> omega
    have hh := hp.rows
    have hw := hp.columns
    have a1 : h * (w * c) ≤ a.dtype.size * (h * (w * c)) := Nat.le_mul_of_pos_left _ hs.1
    have a2 : h ≤ h * (w * c) := Nat.le_mul_of_pos_right _ (Nat.mul_pos hw hs.2)
    have a3 : w * c ≤ h * (w * c) := Nat.le_mul_of_pos_left _ hh
    have a4 : w ≤ w * c := Nat.le_mul_of_pos_right _ hs.2
    omega
  have hfit := hp.fits
  have hn : a.nbytes = a.dtype.size * (h * (w * c)) := by unfold NdArray.nbytes; rw [hprod]
  have hf0 : f ≠ 0 := by rcases hk with ⟨-, ⟨-, rfl⟩ | ⟨-, rfl⟩⟩ | ⟨-, -, rfl⟩ <;> decide
  refine ⟨data, ?_, ⟨?_, by have := hp.columns; omega, by have := hp.rows; omega, ?_, by rw [hl, hn]; exact hfit⟩, by rw [hl, hn], fun i j k b hi hj hkc hb => ?_⟩
  · unfold memoryCreate
    rw [e, Outcome.bind_ok]
    dsimp only
    rw [h1, h0]
    dsimp only
    rw [memoryFormat_picture hp]
    dsimp only
    rw [if_neg hf0, wrap32_nat (by omega), wrap32_nat (by omega), ec, Outcome.bind_ok]
    unfold Image.rowOffset
    dsimp only
    have := hp.rows
    rw [if_pos (by omega), Outcome.bind_ok]
    have hn' : NdArray.nbytes ⟨a.dtype, a.shape, packed a.dtype.size a.shape, 0, data⟩ = data.length := hl.symm
    rw [hn', readBlock_all (Nat.le_refl _), Outcome.bind_ok, List.take_length, writeBlock_all (by rw [hl, hn, hdl])]
    rfl
  · rcases hk with ⟨-, ⟨-, rfl⟩ | ⟨-, rfl⟩⟩ | ⟨-, -, rfl⟩ <;> decide
  · rw [hl, hn]
    rcases hk with ⟨h1, ⟨rfl, rfl⟩ | ⟨rfl, rfl⟩⟩ | ⟨h1, rfl, rfl⟩ <;> rw [h1] <;> unfold pixelBytes <;> push_cast <;> norm_num <;> ring
  · obtain ⟨hw, hfl⟩ := picture_sample hp hi hj hkc
    rw [← hfl]
    exact hd _ hw b hb

theorem memoryArray_ok {h w c n : Nat} {f : Int} {data : List UInt8} (hp : PixelData w h f data)
    (hk : (n = 1 ∧ (c = 1 ∧ f = 1 ∨ c = 3 ∧ f = 3)) ∨ (n = 2 ∧ c = 1 ∧ f = 2)) :
    ∃ a, memoryArray (.memory w h f data) = .ok (.ok a) ∧ Py.Spec.Picture a h w c f ∧ a.shape = [h, w, c] ∧ a.dtype.size = n ∧
      ∀ i j k b, i < h → j < w → k < c → b < n → sample a i j k b = data[n * ((i * w + j) * c + k) + b]? := by
  have hrow := hp.height
  have hcol := hp.width
  have hfit := hp.fits
  have hlen : data.length = n * (h * (w * c)) := by
    have hl := hp.length
    have : (data.length : Int) = (n * (h * (w * c)) : Nat) := by
      rw [hl]
      rcases hk with ⟨rfl, ⟨rfl, rfl⟩ | ⟨rfl, rfl⟩⟩ | ⟨rfl, rfl, rfl⟩ <;> unfold pixelBytes <;> push_cast <;> norm_num <;> ring
    exact_mod_cast this
  have hdt : ∃ dt : DType, (if f = 2 then uint16 else uint8) = dt ∧ dt.size = n ∧ ((dt = ⟨.unsigned, 1, false⟩ ∧ (c = 1 ∧ f = 1 ∨ c = 3 ∧ f = 3)) ∨ (dt = ⟨.unsigned, 2, false⟩ ∧ c = 1 ∧ f = 2)) ∧
      (if f = 3 then 3 else 1) = c := by
    rcases hk with ⟨rfl, ⟨rfl, rfl⟩ | ⟨rfl, rfl⟩⟩ | ⟨rfl, rfl, rfl⟩
    · exact ⟨uint8, rfl, rfl, .inl ⟨rfl, .inl ⟨rfl, rfl⟩⟩, rfl⟩
    · exact ⟨uint8, rfl, rfl, .inl ⟨rfl, .inr ⟨rfl, rfl⟩⟩, rfl⟩
    · exact ⟨uint16, rfl, rfl, .inr ⟨rfl, rfl, rfl⟩, rfl⟩
  obtain ⟨dt, e1, e2, e3, e4⟩ := hdt
  have hprod : ([h, w, c] : List Nat).prod = h * (w * c) := by simp
  have hr : Readable (newArray dt [h, w, c] data) := readable_new (by rw [hlen, hprod, e2])
  refine ⟨newArray dt [h, w, c] data, ?_, ⟨.inr rfl, e3, by omega, by omega, ?_, hr⟩, rfl, e2, fun i j k b hi hj hkc hb => ?_⟩
  · unfold memoryArray
    dsimp only
    rw [if_neg (by omega)]
    unfold Image.rowOffset
    dsimp only
    rw [if_pos (by omega), Outcome.bind_ok, Int.mul_zero, e1, e4, Int.toNat_natCast, Int.toNat_natCast, hprod, e2, ← hlen, readBlock_all (Nat.le_refl _), List.take_length]
    rfl
  · show dt.size * (h * (w * c)) < _
    rw [e2, ← hlen]; exact hfit
  · show byteAt _ [i, j, k] b = _
    rw [byteAt_new dt [h, w, c] data (idx := [i, j, k]) rfl, e2,
      show flat [h, w, c] [i, j, k] = (i * w + j) * c + k by simp only [flat, List.prod_cons, List.prod_nil]; ring]

/-- **C137, arrays.** Every array that is a picture, in whatever way it is stored, becomes an image of the library with the same pixels, row by row; and the array of this image has the
same pixels and the same type (grey arrays have a third dimension of length one then). -/
theorem C137_arrays_partial (fresh : Nat → UInt8) (a : NdArray) (h w c : Nat) (f : Int) (hp : Py.Spec.Picture a h w c f) :
    ∃ data, memoryCreate fresh a = .ok (.ok (.memory w h f data)) ∧ PixelData w h f data ∧
      (∀ i j k b, i < h → j < w → k < c → b < a.dtype.size → data[a.dtype.size * ((i * w + j) * c + k) + b]? = sample a i j k b) ∧
      ∃ a', memoryArray (.memory w h f data) = .ok (.ok a') ∧ a'.shape = [h, w, c] ∧ a'.dtype = a.dtype ∧ Readable a' ∧
        ∀ i j k b, i < h → j < w → k < c → b < a.dtype.size → sample a' i j k b = sample a i j k b := by
  obtain ⟨data, e, hd, hl, hs⟩ := memoryCreate_ok fresh hp
  obtain ⟨a', e', hp', hsh, hsz, hs'⟩ := memoryArray_ok hd (picture_kind hp)
  refine ⟨data, e, hd, hs, a', e', hsh, ?_, hp'.readable, fun i j k b hi hj hk hb => (hs' i j k b hi hj hk hb).trans (hs i j k b hi hj hk hb)⟩
  rcases hp.type with ⟨h1, -⟩ | ⟨h1, -⟩ <;> rcases hp'.type with ⟨h2, -⟩ | ⟨h2, -⟩ <;> rw [h1, h2] <;> rw [h1, h2] at hsz <;> cases hsz

/-- **C137, images.** Every image of the library becomes an array with the same pixels, and this array the same image. -/
theorem C137_images (fresh : Nat → UInt8) (w h : Nat) (f : Int) (data : List UInt8) (hp : PixelData w h f data) :
    ∃ a c, memoryArray (.memory w h f data) = .ok (.ok a) ∧ Py.Spec.Picture a h w c f ∧
      (∀ i j k b, i < h → j < w → k < c → b < a.dtype.size → sample a i j k b = data[a.dtype.size * ((i * w + j) * c + k) + b]?) ∧
      memoryCreate fresh a = .ok (.ok (.memory w h f data)) := by
  have hk : ∃ n c, (n = 1 ∧ (c = 1 ∧ f = 1 ∨ c = 3 ∧ f = 3)) ∨ (n = 2 ∧ c = 1 ∧ f = 2) := by
    rcases hp.format with rfl | rfl | rfl
    · exact ⟨1, 1, by decide⟩
    · exact ⟨2, 1, by decide⟩
    · exact ⟨1, 3, by decide⟩
  obtain ⟨n, c, hk⟩ := hk
  obtain ⟨a, e, ha, hsh, hsz, hs⟩ := memoryArray_ok hp hk
  obtain ⟨data', e', hd', hl', hs'⟩ := memoryCreate_ok fresh ha
  subst hsz
  have hlen : data.length = a.dtype.size * (h * (w * c)) := by
    have hl := hp.length
    have : (data.length : Int) = (a.dtype.size * (h * (w * c)) : Nat) := by
      rw [hl]
      rcases hk with ⟨h1, ⟨rfl, rfl⟩ | ⟨rfl, rfl⟩⟩ | ⟨h1, rfl, rfl⟩ <;> rw [h1] <;> unfold pixelBytes <;> push_cast <;> norm_num <;> ring
    exact_mod_cast this
  refine ⟨a, c, e, ha, hs, ?_⟩
  rw [e']
  have : data' = data := by
    refine Mex.ext_table (n := a.dtype.size) (A := c) (B := w * h) (by rw [hl']; ring) (by rw [hlen]; ring) fun k q b hkc hq hb => ?_
    have h0 : 0 < w := by have := hp.width; omega
    have hqd : q / w < h := by rw [Nat.div_lt_iff_lt_mul h0, Nat.mul_comm]; exact hq
    have e1 := hs' (q / w) (q % w) k b hqd (Nat.mod_lt _ h0) hkc hb
    have e2 := hs (q / w) (q % w) k b hqd (Nat.mod_lt _ h0) hkc hb
    have e3 : (q / w * w + q % w) * c + k = k + c * q := by rw [Nat.div_add_mod']; ring
    rw [e3] at e1 e2
    rw [e1, e2]
  rw [this]

/-- **C137, other arrays** of at most three dimensions raise an exception. -/
theorem C137_refused_partial (fresh : Nat → UInt8) (a : NdArray) (hr : Readable a) (hd : a.shape.length ≤ 3) (hs : ¬ ImageShape a) :
    ∃ e, memoryCreate fresh a = .ok (.error e) ∧ (e = .trax ∨ e = .index) := by
  obtain ⟨dt, shape, strides, base, mem⟩ := a
  dsimp only at hd
  have hcase : shape = [] ∨ (∃ n, shape = [n]) ∨ (∃ h w, shape = [h, w]) ∨ ∃ h w c, shape = [h, w, c] := by
    match shape, hd with
    | [], _ => exact .inl rfl
    | [n], _ => exact .inr (.inl ⟨n, rfl⟩)
    | [h, w], _ => exact .inr (.inr (.inl ⟨h, w, rfl⟩))
    | [h, w, c], _ => exact .inr (.inr (.inr ⟨h, w, c, rfl⟩))
  rcases hcase with rfl | ⟨n, rfl⟩ | ⟨h, w, rfl⟩ | ⟨h, w, c, rfl⟩
  · obtain ⟨data, h1, -, -⟩ := gather_ok mem dt.size [] strides base hr.strides hr.elements
    exact ⟨.index, by simp [memoryCreate, ascontiguous, h1, Outcome.map, Outcome.bind_ok], .inr rfl⟩
  · obtain ⟨data, h1, -, -⟩ := ascontiguous_ok hr (by simp)
    exact ⟨.index, by simp [memoryCreate, h1, Outcome.bind_ok], .inr rfl⟩
  · obtain ⟨data, h1, -, -⟩ := ascontiguous_ok hr (by simp)
    have hsz : dt.size ≠ 1 ∧ dt.size ≠ 2 := ⟨fun h1 => hs (.inl ⟨⟨h, w, .inl rfl⟩, .inl h1⟩), fun h1 => hs (.inl ⟨⟨h, w, .inl rfl⟩, .inr h1⟩)⟩
    exact ⟨.trax, by simp [memoryCreate, h1, Outcome.bind_ok, memoryFormat, hsz], .inl rfl⟩
  · obtain ⟨data, h1, -, -⟩ := ascontiguous_ok hr (by simp)
    refine ⟨.trax, ?_, .inl rfl⟩
    have h3 : c = 3 → dt.size ≠ 1 := fun hc h1 => hs (.inr ⟨⟨h, w, by rw [← hc]⟩, h1⟩)
    have h4 : c = 1 → dt.size ≠ 1 ∧ dt.size ≠ 2 := fun hc =>
      ⟨fun h1 => hs (.inl ⟨⟨h, w, .inr (by rw [← hc])⟩, .inl h1⟩), fun h1 => hs (.inl ⟨⟨h, w, .inr (by rw [← hc])⟩, .inr h1⟩)⟩
    by_cases hc3 : c = 3
    · subst hc3
      simp [memoryCreate, h1, Outcome.bind_ok, memoryFormat, h3 rfl]
    · by_cases hc1 : c = 1
      · subst hc1
        simp [memoryCreate, h1, Outcome.bind_ok, memoryFormat, h4 rfl]
      · simp [memoryCreate, h1, Outcome.bind_ok, memoryFormat, hc3, hc1]

/-- A transposed view, and a view of every second column from right to left. -/
example : Py.Spec.Picture ⟨uint8, [2, 3], [1, 2], 0, [1, 2, 3, 4, 5, 6]⟩ 2 3 1 1 ∧ sample ⟨uint8, [2, 3], [1, 2], 0, [1, 2, 3, 4, 5, 6]⟩ 1 0 0 0 = some 2 := by
  refine ⟨⟨.inl ⟨rfl, rfl⟩, .inl ⟨rfl, .inl ⟨rfl, rfl⟩⟩, by decide, by decide, by decide, ⟨rfl, ?_⟩⟩, by decide⟩
  intro idx hidx b hb
  cases hidx with
  | @cons i _ _ _ hi h2 => cases h2 with
    | @cons j _ _ _ hj h3 =>
      cases h3
      have hb : b < 1 := hb
      obtain rfl : b = 0 := by omega
      have key : ∀ i < 2, ∀ j < 3, (byteAt ⟨uint8, [2, 3], [1, 2], 0, [1, 2, 3, 4, 5, 6]⟩ [i, j] 0).isSome = true := by decide
      exact key i hi j hj

/-- Such a view becomes an image and an array. -/
example : memoryCreate (fun _ => 0) ⟨uint8, [2, 2], [4, -2], 2, [1, 2, 3, 4, 5, 6, 7, 8]⟩ = .ok (.ok (.memory 2 2 1 [3, 1, 7, 5])) ∧
    memoryArray (.memory 2 2 1 [3, 1, 7, 5]) = .ok (.ok ⟨uint8, [2, 2, 1], [2, 1, 1], 0, [3, 1, 7, 5]⟩) := by decide +kernel

/-- An array that is refused. -/
example : ¬ ImageShape ⟨⟨.float, 4, false⟩, [1, 1], [4, 4], 0, [0, 0, 0, 0]⟩ ∧ memoryCreate (fun _ => 0) ⟨⟨.float, 4, false⟩, [1, 1], [4, 4], 0, [0, 0, 0, 0]⟩ = .ok (.error .trax) := by
  refine ⟨?_, by decide +kernel⟩
  rintro (⟨-, h⟩ | ⟨-, h⟩)
  · exact absurd h (by decide)
  · exact absurd h (by decide)

/-- **C137, files and URLs**: the path or the URL is the text that was given, in any alphabet. -/
theorem C137_texts_partial (t : Text) (ht : CText t) :
    (∃ img, fileCreate t = .ok img ∧ filePath img = .ok (.ok t) ∧ imageKind img = some t!"path") ∧
    ∃ img, urlCreate t = .ok img ∧ urlUrl img = .ok (.ok t) ∧ imageKind img = some t!"url" := by
  obtain ⟨s, hs, hc, hn⟩ := toC_ctext ht
  have hd : decode s = some t := decode_encode hs
  refine ⟨⟨.path (cstr s), ?_, ?_, rfl⟩, ⟨.url (cstr s), ?_, ?_, rfl⟩⟩
  · simp [fileCreate, hc, Except.map, Image.createPath]
  · rw [cstr_of_noNul hn]; simp [filePath, fromC, hd]
  · simp [urlCreate, hc, Except.map, Image.createUrl]
  · rw [cstr_of_noNul hn]; simp [urlUrl, fromC, hd]

example : CText t!"/tmp/日本.png" := by unfold CText Encodable; decide

/-- **C137, buffers**: the data of a file comes back as it was given. -/
theorem C137_buffers_partial (f : Int) (data : List UInt8) (hd : FileData f data) :
    ∃ img, bufferCreate data = .ok img ∧ bufferBuffer img = .ok data ∧ imageKind img = some t!"buffer" := by
  obtain ⟨h5, hk⟩ := hd
  have hv : Image.verifyFormat data ≠ 0 := by
    unfold Image.verifyFormat
    rcases hk with ⟨-, h⟩ | ⟨-, h⟩ <;> rw [h] <;> decide
  refine ⟨.buffer (Image.verifyFormat data) data, ?_, rfl, rfl⟩
  unfold bufferCreate Image.createBuffer
  rw [if_pos ⟨by omega, hv⟩]

example : FileData 1 [0x89, 0x50, 0x4E, 0x47, 0] := by unfold FileData; decide

/-- **C137 (kinds).** The class of a received image, and the name that it gives, are those of the image. -/
theorem C137_kinds (img : Image) : imageKind img = some (match img with
    | .path _ => t!"path"
    | .url _ => t!"url"
    | .memory .. => t!"memory"
    | .buffer .. => t!"buffer") := by
  cases img <;> rfl

/-- **C137, violated for the shape**: every grey picture of two dimensions comes back with three. -/
theorem C137_shape_false (fresh : Nat → UInt8) (a : NdArray) (h w : Nat) (f : Int) (hp : Py.Spec.Picture a h w 1 f) (hs : a.shape = [h, w]) :
    ∃ img a', memoryCreate fresh a = .ok (.ok img) ∧ memoryArray img = .ok (.ok a') ∧ a'.shape ≠ a.shape := by
  obtain ⟨data, h1, -, -, a', h2, h3, -⟩ := C137_arrays_partial fresh a h w 1 f hp
  exact ⟨_, a', h1, h2, by rw [h3, hs]; simp⟩

/-- **C137, violated for other types of the same size**: signed numbers and numbers in the other byte order are accepted, and have other values then. -/
theorem C137_type_false (fresh : Nat → UInt8) :
    (∃ a img a', memoryCreate fresh a = .ok (.ok img) ∧ memoryArray img = .ok (.ok a') ∧ a.dtype = ⟨.signed, 1, false⟩ ∧ value a [0, 0] = some (-1) ∧ value a' [0, 0, 0] = some 255) ∧
    ∃ a img a', memoryCreate fresh a = .ok (.ok img) ∧ memoryArray img = .ok (.ok a') ∧ a.dtype = ⟨.unsigned, 2, true⟩ ∧ value a [0, 0] = some 1 ∧ value a' [0, 0, 0] = some 256 :=
  ⟨⟨⟨⟨.signed, 1, false⟩, [1, 1], [1, 1], 0, [255]⟩, .memory 1 1 1 [255], ⟨uint8, [1, 1, 1], [1, 1, 1], 0, [255]⟩, rfl, rfl, rfl, by decide, by decide⟩,
    ⟨⟨⟨.unsigned, 2, true⟩, [1, 1], [2, 2], 0, [0, 1]⟩, .memory 1 1 2 [0, 1], ⟨uint16, [1, 1, 1], [2, 2, 2], 0, [0, 1]⟩, rfl, rfl, rfl, by decide, by decide⟩⟩

/-- **C137, violated for four dimensions**: more is written than the image has memory. -/
theorem C137_overflow_false (fresh : Nat → UInt8) : memoryCreate fresh ⟨uint8, [1, 1, 1, 2], [2, 2, 2, 1], 0, [1, 2]⟩ = .ub := rfl

/-- **C137, violated for arrays without rows, and for data that is not a file**: the process ends. -/
theorem C137_abort_false (fresh : Nat → UInt8) : memoryCreate fresh ⟨uint8, [0, 5], [5, 1], 0, []⟩ = .abort ∧ bufferCreate b!"GIF89a" = .abort ∧ bufferCreate [] = .abort := by
  refine ⟨rfl, by decide, by decide⟩

/-- **C137, violated for the names of the formats**: every PNG file is called `jpeg`, every JPEG file `png`. -/
theorem C137_names_false (data : List UInt8) (img : Image) (hi : bufferCreate data = .ok img) :
    (FileData 1 data → bufferName img = .ok t!"jpeg") ∧ (FileData 2 data → bufferName img = .ok t!"png") := by
  unfold bufferCreate Image.createBuffer at hi
  split_ifs at hi with h
  cases hi
  refine ⟨?_, ?_⟩
  · rintro ⟨-, ⟨h1, -⟩ | ⟨-, h1⟩⟩
    · exact absurd h1 (by decide)
    · simp only [bufferName, Image.verifyFormat, h1]; decide
  · rintro ⟨-, ⟨-, h1⟩ | ⟨h1, -⟩⟩
    · simp only [bufferName, Image.verifyFormat, h1]; decide
    · exact absurd h1 (by decide)

/-- **C137, violated for paths that are not UTF-8** (they come from C): there is an exception. -/
theorem C137_path_false : filePath (.path [0x2F, 0xFF]) = .ok (.error .unicode) := by decide +kernel

end Trax
