import Verif.Model.CliImages
import Verif.Spec.CliImages

/-! Helper lemmas on image sizes and image lists. -/

namespace Trax.Cli
open Trax.Cli.Spec

theorem toNat_ofNat_of_lt {n : Nat} (h : n < 256) : (UInt8.ofNat n).toNat = n := by
  simp [Nat.mod_eq_of_lt h]

theorem be16_value {n : Nat} (h : n < 65536) :
    (UInt8.ofNat (n / 256)).toNat * 256 + (UInt8.ofNat (n % 256)).toNat = n := by
  rw [toNat_ofNat_of_lt (by omega), toNat_ofNat_of_lt (by omega)]
  omega

theorem isFrameMarker_iff (m : UInt8) : isFrameMarker m.toNat = true ↔ m ∈ pictureMarkers := by
  have h256 : ∀ n, n < 256 → (isFrameMarker (UInt8.ofNat n).toNat = true ↔ UInt8.ofNat n ∈ pictureMarkers) := by
    decide +kernel
  have := h256 m.toNat m.toNat_lt
  rwa [UInt8.ofNat_toNat] at this

/-- One segment that does not begin a picture. -/
theorem scanSegments_one (file : List UInt8) (x y : UInt8) (pre tail t : List UInt8) (s : Segment)
    (hs : s.Valid) (hfile : file = pre ++ (s.bytes ++ tail)) (htail : 12 ≤ tail.length) (ht : t.length = 10) :
    scanSegments file ([x, y] ++ (file.drop pre.length).take 12 ++ t) pre.length =
      scanSegments file ([x, y] ++ (file.drop (pre ++ s.bytes).length).take 12 ++ t) (pre ++ s.bytes).length := by
  have hdrop : file.drop pre.length = s.bytes ++ tail := by rw [hfile, List.drop_left]
  have hlen := hs.2
  rw [scanSegments, hdrop]
  have hbytes : (s.bytes ++ tail).take 12 = 0xFF :: s.marker :: UInt8.ofNat ((s.payload.length + 2) / 256) ::
      UInt8.ofNat ((s.payload.length + 2) % 256) :: (s.payload ++ tail).take 8 := by
    simp [Segment.bytes, be16]
  rw [hbytes]
  have h2 : byteAt ([x, y] ++ (0xFF :: s.marker :: UInt8.ofNat ((s.payload.length + 2) / 256) ::
      UInt8.ofNat ((s.payload.length + 2) % 256) :: (s.payload ++ tail).take 8) ++ t) 2 = 0xFF := rfl
  have h3 : byteAt ([x, y] ++ (0xFF :: s.marker :: UInt8.ofNat ((s.payload.length + 2) / 256) ::
      UInt8.ofNat ((s.payload.length + 2) % 256) :: (s.payload ++ tail).take 8) ++ t) 3 = s.marker.toNat := rfl
  have h45 : byteAt ([x, y] ++ (0xFF :: s.marker :: UInt8.ofNat ((s.payload.length + 2) / 256) ::
      UInt8.ofNat ((s.payload.length + 2) % 256) :: (s.payload ++ tail).take 8) ++ t) 4 * 256 +
      byteAt ([x, y] ++ (0xFF :: s.marker :: UInt8.ofNat ((s.payload.length + 2) / 256) ::
      UInt8.ofNat ((s.payload.length + 2) % 256) :: (s.payload ++ tail).take 8) ++ t) 5 = s.payload.length + 2 :=
    be16_value hlen
  have hm : ¬ isFrameMarker s.marker.toNat = true := by
    rw [isFrameMarker_iff]; exact hs.1
  have hl : (pre ++ s.bytes).length = pre.length + (s.payload.length + 4) := by
    simp [Segment.bytes, be16]
  have hn : pre.length + (2 + byteAt ([x, y] ++ (0xFF :: s.marker :: UInt8.ofNat ((s.payload.length + 2) / 256) ::
      UInt8.ofNat ((s.payload.length + 2) % 256) :: (s.payload ++ tail).take 8) ++ t) 4 * 256 +
      byteAt ([x, y] ++ (0xFF :: s.marker :: UInt8.ofNat ((s.payload.length + 2) / 256) ::
      UInt8.ofNat ((s.payload.length + 2) % 256) :: (s.payload ++ tail).take 8) ++ t) 5) = (pre ++ s.bytes).length := by
    rw [hl]; omega
  rw [if_pos h2, h3, if_neg hm]
  simp only [hn]
  rw [if_neg]
  · congr 1
    have h12 : ((s.payload ++ tail).take 8).length = 8 := by simp; omega
    have : ([x, y] ++ (0xFF :: s.marker :: UInt8.ofNat ((s.payload.length + 2) / 256) ::
        UInt8.ofNat ((s.payload.length + 2) % 256) :: (s.payload ++ tail).take 8) ++ t).drop 14 = t := by
      have : ([x, y] ++ (0xFF :: s.marker :: UInt8.ofNat ((s.payload.length + 2) / 256) ::
        UInt8.ofNat ((s.payload.length + 2) % 256) :: (s.payload ++ tail).take 8)).length = 14 := by
        simp only [List.length_append, List.length_cons, h12, List.length_nil]
      rw [← this, List.drop_left]
    rw [this]
    rfl
  · have : file.length = (pre ++ s.bytes).length + tail.length := by rw [hfile]; simp; omega
    omega

/-- All the segments before the picture. -/
theorem scanSegments_all (segs : List Segment) (file : List UInt8) (x y : UInt8) (pre tail t : List UInt8)
    (hs : ∀ s ∈ segs, s.Valid) (hfile : file = pre ++ (segs.flatMap Segment.bytes ++ tail)) (htail : 12 ≤ tail.length)
    (hpic : ∃ m r, tail = 0xFF :: m :: r ∧ m ∈ pictureMarkers) (ht : t.length = 10) :
    scanSegments file ([x, y] ++ (file.drop pre.length).take 12 ++ t) pre.length =
      [x, y] ++ tail.take 12 ++ t := by
  induction segs generalizing pre with
  | nil =>
    obtain ⟨m, r, hr, hm⟩ := hpic
    have hdrop : file.drop pre.length = tail := by rw [hfile]; simp
    rw [scanSegments, hdrop, if_pos (by rw [hr]; rfl), if_pos]
    rw [hr]
    exact (isFrameMarker_iff m).mpr hm
  | cons s segs ih =>
    rw [scanSegments_one file x y pre (segs.flatMap Segment.bytes ++ tail) t s (hs s (by simp))
      (by rw [hfile]; simp) (by simp; omega) ht]
    exact ih _ (fun s h => hs s (by simp [h])) (by rw [hfile]; simp)

/-! ### Image lists -/

theorem findIdx?_append_left {α : Type} (p : α → Bool) (a : List α) (c : α) (b : List α) (ha : ∀ x ∈ a, p x = false)
    (hc : p c = true) : (a ++ c :: b).findIdx? p = some a.length := by
  induction a with
  | nil => simp [List.findIdx?_cons, hc]
  | cons x a ih =>
    rw [List.cons_append, List.findIdx?_cons, ha x (by simp), ih fun x h => ha x (by simp [h])]
    simp

theorem findIdx?_none {α : Type} (p : α → Bool) (a : List α) (ha : ∀ x ∈ a, p x = false) : a.findIdx? p = none := by
  simpa [List.findIdx?_eq_none_iff] using ha

theorem goodLines_line (l rest : Str) (hl : ch%'\n' ∉ l) :
    goodLines (l ++ b!"\n" ++ rest) = l :: goodLines rest := by
  have h : (l ++ b!"\n" ++ rest).findIdx? (· == ch%'\n') = some l.length := by
    rw [List.append_assoc]
    exact findIdx?_append_left _ l _ rest (fun x hx => by
      simp only [beq_eq_false_iff_ne]; rintro rfl; exact hl hx) (by decide)
  rw [goodLines]
  split
  · next pos hp =>
    rw [h] at hp
    cases hp
    congr 1
    · simp
    · rw [List.append_assoc]; simp
  · next hp => rw [h] at hp; cases hp

theorem splitColumns_cons (p rest : Str) (hp : ch%';' ∉ p) :
    splitColumns (p ++ b!";" ++ rest) = p :: splitColumns rest := by
  have h : (p ++ b!";" ++ rest).findIdx? (· == ch%';') = some p.length := by
    rw [List.append_assoc]
    exact findIdx?_append_left _ p _ rest (fun x hx => by
      simp only [beq_eq_false_iff_ne]; rintro rfl; exact hp hx) (by decide)
  rw [splitColumns]
  split
  · next pos hpos =>
    rw [h] at hpos
    cases hpos
    congr 1
    · simp
    · rw [List.append_assoc]; simp
  · next hpos => rw [h] at hpos; cases hpos

theorem splitColumns_last (p : Str) (hp : ch%';' ∉ p) : splitColumns p = [p] := by
  have h : p.findIdx? (· == ch%';') = none :=
    findIdx?_none _ p fun x hx => by simp only [beq_eq_false_iff_ne]; rintro rfl; exact hp hx
  rw [splitColumns]
  split
  · next pos hpos => rw [h] at hpos; cases hpos
  · rfl

theorem splitColumns_row (row : List Str) (hne : row ≠ []) (h : ∀ p ∈ row, ch%';' ∉ p) :
    splitColumns (rowText row) = row := by
  induction row with
  | nil => exact absurd rfl hne
  | cons p row ih =>
    cases row with
    | nil => exact splitColumns_last p (h p (by simp))
    | cons q row =>
      rw [rowText, splitColumns_cons p _ (h p (by simp)), ih (by simp) fun p hp => h p (by simp [hp])]

theorem rowText_noLine (row : List Str) (h : ∀ p ∈ row, ch%'\n' ∉ p) : ch%'\n' ∉ rowText row := by
  induction row with
  | nil => simp [rowText]
  | cons p row ih =>
    cases row with
    | nil => exact h p (by simp)
    | cons q row =>
      rw [rowText]
      simp only [List.mem_append, not_or]
      exact ⟨⟨h p (by simp), by decide⟩, ih fun p hp => h p (by simp [hp])⟩

theorem goodLines_tail (t : Str) (h : ch%'\n' ∉ t) : goodLines t = [] := by
  have hn : t.findIdx? (· == ch%'\n') = none :=
    findIdx?_none _ t fun x hx => by simp only [beq_eq_false_iff_ne]; rintro rfl; exact h hx
  rw [goodLines]
  split
  · next pos hpos => rw [hn] at hpos; cases hpos
  · rfl

end Trax.Cli
