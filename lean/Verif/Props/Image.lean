import Verif.Lemmas.Image

/-!
# Property theorems C24–C29: images

`Image.decode fresh text` gives the decoded image (or NULL) and the number of bytes written behind
the end of its buffer; `fresh` is the unknown content of newly allocated memory.
-/

namespace Trax
open Image
open Spec (PixelData FileData pixelBytes)

/-- **C24.** Every path (every C string) survives encoding and decoding, without memory errors. -/
theorem C24_path_round_trip (fresh : Nat → UInt8) (p : Str) (hp : NoNul p) :
    ∃ text, (createPath p).encode = .ok text ∧ decode fresh text = .ok ⟨some (.path p), 0⟩ := by
  refine ⟨b!"file://" ++ p, by simp [createPath, cstr_of_noNul hp, encode], ?_⟩
  have : b!"file://" ++ p = b!"file" ++ ch%':' :: (b!"//" ++ p) := by simp
  rw [this, decode, parseUri_append _ _ (by decide) (by decide)]
  simp [createPath, cstr_of_noNul hp]

example : NoNul b!"file:///a;b=c \"x\"" := by decide

/-- **C25, violated.** -/
theorem C25_url_round_trip_false :
    ¬ ∀ (fresh : Nat → UInt8) (u : Str), NoNul u → ∀ text, (createUrl u).encode = .ok text →
        decode fresh text = .ok ⟨some (.url u), 0⟩ := by
  intro h
  have := h (fun _ => 0) b!"http://host/a.jpg" (by decide) b!"http://host/a.jpg" (by decide)
  revert this
  decide +kernel

/-- **C25, what happens.** Of every URL with a scheme of up to 15 letters, `+`, `.`, `-` only the
scheme arrives. The full claim would be the URL itself. -/
theorem C25_url_partial (fresh : Nat → UInt8) (scheme rest : Str) (hs : ∀ c ∈ scheme, ch%'a' ≤ c ∧ c ≤ ch%'z' ∨ c ∈ b!"+.-")
    (hl : scheme.length < 16) (hother : scheme ∉ [b!"file", b!"image", b!"data"]) (hn : NoNul rest) :
    ∃ text, (createUrl (scheme ++ b!":" ++ rest)).encode = .ok text ∧
      decode fresh text = .ok ⟨some (.url scheme), 0⟩ := by
  have hsn : NoNul scheme := by
    intro c hc h
    have := hs c hc
    subst h; revert this; decide
  have hs' : ∀ c ∈ scheme, schemeChar c = true := by
    intro c hc
    have := hs c hc
    simp only [UInt8.le_iff_toNat_le, List.mem_cons, List.not_mem_nil, or_false] at this
    simp only [schemeChar, Bool.or_eq_true, Bool.and_eq_true, decide_eq_true_eq]
    rcases this with h | h | h | h
    · exact .inl (.inl (.inl h))
    · exact .inl (.inl (.inr h))
    · exact .inl (.inr h)
    · exact .inr h
  have hnn : NoNul (scheme ++ b!":" ++ rest) := by
    intro c hc
    simp only [List.mem_append, List.mem_singleton] at hc
    rcases hc with (hc | hc) | hc
    · exact hsn c hc
    · subst hc; decide
    · exact hn c hc
  refine ⟨scheme ++ ch%':' :: rest, by rw [createUrl, cstr_of_noNul hnn]; simp [encode], ?_⟩
  rw [decode, parseUri_append _ _ hs' hl]
  simp only [List.mem_cons, List.not_mem_nil, or_false, not_or] at hother
  simp [hother, createUrl, cstr_of_noNul hsn]

example : (∀ c ∈ b!"https", ch%'a' ≤ c ∧ c ≤ ch%'z' ∨ c ∈ b!"+.-") ∧ b!"https" ∉ [b!"file", b!"image", b!"data"] ∧
    NoNul b!"//h/x" := by decide

/-- **C26, violated.** "Decoding never writes outside the pixel buffer" fails. -/
theorem C26_memory_in_bounds_false :
    ¬ ∀ (fresh : Nat → UInt8) (w h f : Int) (data : List UInt8) (text : Str), 1 ≤ w → 1 ≤ h →
        PixelData w h f data → (memory w h f data).encode = .ok text →
        ∃ img, decode fresh text = .ok ⟨img, 0⟩ := by
  intro h
  obtain ⟨img, himg⟩ := h (fun _ => 0) 1 1 1 [7] b!"image:1;1;gray8;Bw==" (by decide) (by decide)
    ⟨by decide, by decide, by decide, by decide, by decide⟩
    (by decide +kernel)
  have : decode (fun _ => 0) b!"image:1;1;gray8;Bw==" = .ok ⟨some (.memory 1 1 1 [7]), 1⟩ := by decide +kernel
  rw [this] at himg
  injection himg with himg
  injection himg with _ h2
  cases h2

/-- **C26, what holds.** Every memory image is received with the same width, height, format and
pixels – and *every* decoding writes one byte (a NUL) behind the pixel buffer. Missing from the
full claim: the memory safety. -/
theorem C26_memory_partial (fresh : Nat → UInt8) (w h f : Int) (data : List UInt8) (hp : PixelData w h f data) :
    (∃ pixels, createMemory fresh w h f = .ok (.memory w h f pixels) ∧ pixels.length = data.length) ∧
    ∃ text, (memory w h f data).encode = .ok text ∧
      decode fresh text = .ok ⟨some (.memory w h f data), 1⟩ := by
  obtain ⟨hf, hw, hh, hs, hwi, hhi⟩ := hp.facts
  refine ⟨⟨_, by rw [createMemory, if_pos hf, hs]; rfl, by simp⟩, ?_⟩
  obtain ⟨name, hname⟩ : ∃ name, memoryFormatName f = some name := by
    rcases hf with rfl | rfl | rfl
    · exact ⟨_, rfl⟩
    · exact ⟨_, rfl⟩
    · exact ⟨_, rfl⟩
  refine ⟨b!"image" ++ ch%':' :: (fmtInt w ++ b!";" ++ fmtInt h ++ b!";" ++ name ++ b!";" ++ Base64.encode data), ?_, ?_⟩
  · simp [encode, hs, hname]
  · rw [decode, parseUri_append _ _ (by decide) (by decide)]
    simp only [show ¬ (b!"image" = b!"file") by decide, if_false, if_true]
    exact decodeMemory_encoded fresh w h f _ name data hw hh hname hs rfl hwi hhi

example : PixelData 2 1 2 b!"abcd" := ⟨by decide, by decide, by decide, by decide, by decide⟩

/-- **C27, violated.** -/
theorem C27_buffer_round_trip_false :
    ¬ ∀ (fresh : Nat → UInt8) (data : List UInt8) (img : Image) (text : Str), createBuffer data = .ok img →
        img.encode = .ok text → decode fresh text = .ok ⟨some img, 0⟩ := by
  intro h
  have := h (fun _ => 0) [137, 80, 78, 71, 1] (.buffer 1 [137, 80, 78, 71, 1]) b!"data:image/png;iVBORwE="
    (by decide +kernel) (by decide +kernel)
  revert this
  decide +kernel

/-- **C27, what happens.** Every accepted buffer is received with the same format and, in front, the
same bytes, but one byte (a NUL) longer; the decoding stays in bounds. The full claim would be
the same length. -/
theorem C27_buffer_partial (fresh : Nat → UInt8) (format : Int) (data : List UInt8) (hd : FileData format data) :
    createBuffer data = .ok (.buffer format data) ∧
    ∃ text, (buffer format data).encode = .ok text ∧
      decode fresh text = .ok ⟨some (.buffer format (data ++ [0])), 0⟩ := by
  have h := hd.create
  refine ⟨h, ?_⟩
  unfold createBuffer at h
  split at h
  · rename_i hc
    injection h with h
    injection h with h
    subst h
    have hdata : data ≠ [] := by rintro rfl; simp at hc
    obtain ⟨e1, e2, e3⟩ := Base64.encode_split data
    have hw' : Base64.decodeWritten (Base64.encode data) = data ++ [0] := by rw [Base64.decodeWritten, e3]
    obtain ⟨name, hname, hdec, hsemi, hlen⟩ : ∃ name, bufferFormatName (verifyFormat data) = some name ∧
        decodeBufferFormat name = verifyFormat data ∧ ch%';' ∉ name ∧ name.length < 32 := by
      have : verifyFormat data = 2 ∨ verifyFormat data = 1 ∨ verifyFormat data = 0 := by
        unfold verifyFormat
        split
        · simp
        · split <;> simp
      rcases this with h | h | h
      · rw [h]; exact ⟨_, rfl, by decide, by decide, by decide⟩
      · rw [h]; exact ⟨_, rfl, by decide, by decide, by decide⟩
      · exact absurd h hc.2
    refine ⟨b!"data" ++ ch%':' :: (name ++ ch%';' :: Base64.encode data), by simp [encode, hname], ?_⟩
    rw [decode, parseUri_append _ _ (by decide) (by decide)]
    simp only [show ¬ (b!"data" = b!"file") by decide, show ¬ (b!"data" = b!"image") by decide, if_false, if_true]
    unfold decodeData
    rw [strntok_append _ _ _ _ hsemi hlen]
    simp only [Base64.decodeLen_encode data (some 0) hdata, hw', hdec]
    rw [show ((data.length : Int) + 1).toNat = (data ++ [0]).length by simp, store_exact]
  · cases h

example : FileData 2 [255, 216, 255, 224, 0, 16] := by simp [FileData]

/-- **C28, violated in three ways:** a text whose padding does not match its content aborts the
process, a large size overflows an `int` (undefined behaviour), and both image schemes write
behind their buffer. -/
theorem C28_image_decode_safe_false :
    decode (fun _ => 0) b!"image:1;1;gray8;!!=" = .abort ∧
    decode (fun _ => 0) b!"image:65536;65536;rgb;AAAA" = .ub ∧
    decode (fun _ => 0) b!"data:image/png;AAAA=" = .ok ⟨some (.buffer 1 [0, 0, 0]), 1⟩ := by decide +kernel

/-- **C28, what holds.** For every text: without a scheme, or with a scheme other than `image`
and `data`, an image is returned and nothing is written out of bounds; with `data` the decoder
always returns; and whenever the decoder returns, it wrote at most one byte out of bounds.
Missing from the full claim: the cases above. -/
theorem C28_image_decode_partial (fresh : Nat → UInt8) (text : Str) :
    ((¬ b!"image:" <+: text ∧ ¬ b!"data:" <+: text) → ∃ img, decode fresh text = .ok ⟨some img, 0⟩) ∧
    (¬ b!"image:" <+: text → ∃ d, decode fresh text = .ok d) ∧
    (∀ d, decode fresh text = .ok d → d.overrun ≤ 1) := by
  have hpre : ∀ scheme rest, parseUri text = some (scheme, rest) → scheme ++ [ch%':'] <+: text := by
    intro scheme rest h
    unfold parseUri at h
    simp only at h
    split at h
    · rename_i hc
      injection h with h
      injection h with h1 h2
      subst h1
      obtain ⟨t, ht⟩ := List.takeWhile_prefix schemeChar (l := text)
      have h3 := hc.2
      rw [← ht, List.getElem?_append_right (by rw [ht]; exact Nat.le_refl _)] at h3
      rw [ht] at h3
      simp only [Nat.sub_self] at h3
      cases t with
      | nil => simp at h3
      | cons c t =>
        simp at h3
        subst h3
        exact ⟨t, by rw [List.append_assoc]; exact ht⟩
    · cases h
  refine ⟨?_, ?_, ?_⟩
  · rintro ⟨h1, h2⟩
    unfold decode
    cases hu : parseUri text with
    | none => exact ⟨_, rfl⟩
    | some sr =>
      obtain ⟨scheme, rest⟩ := sr
      have := hpre _ _ hu
      have hi : scheme ≠ b!"image" := by rintro rfl; exact h1 (by simpa using this)
      have hd : scheme ≠ b!"data" := by rintro rfl; exact h2 (by simpa using this)
      simp only [hi, hd, if_false]
      split
      · exact ⟨_, rfl⟩
      · exact ⟨_, rfl⟩
  · intro h1
    unfold decode
    cases hu : parseUri text with
    | none => exact ⟨_, rfl⟩
    | some sr =>
      obtain ⟨scheme, rest⟩ := sr
      have := hpre _ _ hu
      have hi : scheme ≠ b!"image" := by rintro rfl; exact h1 (by simpa using this)
      simp only [hi, if_false]
      split
      · exact ⟨_, rfl⟩
      · split
        · obtain ⟨d, hd, _⟩ := decodeData_ok fresh rest
          exact ⟨d, hd⟩
        · exact ⟨_, rfl⟩
  · intro d h
    unfold decode at h
    cases hu : parseUri text with
    | none => rw [hu] at h; injection h with h; subst h; simp
    | some sr =>
      obtain ⟨scheme, rest⟩ := sr
      rw [hu] at h
      simp only at h
      split at h
      · injection h with h; subst h; simp
      · split at h
        · exact decodeMemory_over fresh rest d h
        · split at h
          · obtain ⟨d', hd', hle⟩ := decodeData_ok fresh rest
            rw [hd'] at h
            injection h with h; subst h; exact hle
          · injection h with h; subst h; simp

example : ¬ b!"image:" <+: b!"ftp:x" ∧ ¬ b!"data:" <+: b!"ftp:x" := by decide

/-- **C29, violated.** Consecutive rows overlap: row 1 of a 2×2 image starts inside row 0. -/
theorem C29_rows_disjoint_false :
    ¬ ∀ (w h f : Int) (data : List UInt8) (row off : Int), 1 ≤ w → 1 ≤ h → (f = 1 ∨ f = 2 ∨ f = 3) →
        PixelData w h f data → rowOffset (memory w h f data) row = .ok off →
        off = row * (w * pixelBytes f) := by
  intro h
  have := h 2 2 1 [1, 2, 3, 4] 1 1 (by decide) (by decide) (by decide)
    ⟨by decide, by decide, by decide, by decide, by decide⟩ (by decide)
  revert this
  decide

/-- **C29, what holds.** Every accepted row gives a range of `width * pixelBytes` bytes inside
the image; it is the right one exactly for the first row or images of width 1 (only then are
rows disjoint). Missing from the full claim: the right position of the other rows. -/
theorem C29_rows_partial (w h f : Int) (data : List UInt8) (row : Int) (hp : PixelData w h f data) :
    (¬ (0 ≤ row ∧ row < h) → rowOffset (memory w h f data) row = .abort) ∧
    (0 ≤ row → row < h → ∃ off, rowOffset (memory w h f data) row = .ok off ∧ 0 ≤ off ∧
      off + w * pixelBytes f ≤ data.length ∧
      (off = row * (w * pixelBytes f) ↔ w = 1 ∨ row = 0)) := by
  obtain ⟨hf, hw, hh, hs, -, -⟩ := hp.facts
  rw [← depth_channels hf]
  refine ⟨fun hr => by simp [rowOffset, hr], fun h0 h1 => ?_⟩
  have hbpp : 1 ≤ depth f * channels f := by rcases hf with rfl | rfl | rfl <;> decide
  have hlen : (data.length : Int) = w * h * (depth f * channels f) := by
    rw [(memorySize_ok hs).1, Int.mul_assoc]
  refine ⟨depth f * channels f * row, by simp [rowOffset, h0, h1], Int.mul_nonneg (by omega) h0, ?_, ?_⟩
  · rw [hlen]
    generalize depth f * channels f = k at *
    have h2 : row + w ≤ w * h := by
      have : (w - 1) * (h - 1) ≥ 0 := Int.mul_nonneg (by omega) (by omega)
      have e : (w - 1) * (h - 1) = w * h - w - h + 1 := by
        rw [Int.sub_mul, Int.mul_sub, Int.mul_sub]; omega
      omega
    have h3 := Int.mul_le_mul_of_nonneg_left h2 (show 0 ≤ k by omega)
    have e1 : k * (row + w) = k * row + w * k := by rw [Int.mul_add, Int.mul_comm k w]
    have e2 : k * (w * h) = w * h * k := Int.mul_comm _ _
    omega
  · generalize depth f * channels f = k at *
    constructor
    · intro he
      apply Classical.byContradiction
      intro hn
      simp only [not_or] at hn
      have hrow : 1 ≤ row := by omega
      have hpos : 0 < k * row := Int.mul_pos (by omega) (by omega)
      have e : row * (w * k) = w * (k * row) := by
        rw [← Int.mul_assoc, Int.mul_comm row w, Int.mul_assoc, Int.mul_comm row k]
      rw [e] at he
      have h2 : 2 * (k * row) ≤ w * (k * row) := Int.mul_le_mul_of_nonneg_right (by omega) (by omega)
      omega
    · rintro (h | h)
      · subst h; rw [Int.one_mul, Int.mul_comm]
      · subst h; simp

example : PixelData 2 2 1 [1, 2, 3, 4] := ⟨by decide, by decide, by decide, by decide, by decide⟩

end Trax
