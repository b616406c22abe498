import Verif.Lemmas.FloatValue
import Verif.Model.RegionCodec

/-! Helper lemmas about the text form of regions. -/

namespace Trax
namespace Region

/-- A text that stands for one number in a comma separated sequence. -/
def Reads (t : Str) (v : Flt) : Prop := ch%',' ∉ t ∧ ∀ rest, AtSep rest → atofFloat (t ++ rest) = v

theorem atSep_nil : AtSep [] := Or.inl rfl
theorem atSep_comma (s : Str) : AtSep (ch%',' :: s) := Or.inr rfl

theorem seqTail_skip (t rest : Str) (h : ch%',' ∉ t) : seqTail (t ++ rest) = seqTail rest := by
  induction t with
  | nil => rfl
  | cons c t ih =>
    simp only [List.mem_cons, not_or] at h
    rw [List.cons_append, seqTail, if_neg (fun hc => h.1 hc.symm), ih h.2]

/-- Numbers each behind a comma. -/
def commaTail (ts : List Str) : Str := ts.flatMap fun t => ch%',' :: t

theorem commaTail_cons (t : Str) (ts : List Str) : commaTail (t :: ts) = ch%',' :: (t ++ commaTail ts) := rfl

theorem atSep_commaTail (ts : List Str) : AtSep (commaTail ts) := by
  cases ts with
  | nil => exact atSep_nil
  | cons t ts => exact atSep_comma _

theorem seqTail_commaTail (ts : List Str) (vs : List Flt) (h : List.Forall₂ Reads ts vs) : seqTail (commaTail ts) = vs := by
  induction h with
  | nil => rfl
  | @cons t v ts vs h1 _ ih =>
    rw [commaTail_cons, seqTail, if_pos rfl, seqTail_skip _ _ h1.1, ih, h1.2 _ (atSep_commaTail _)]

theorem parseSequence_join (t : Str) (v : Flt) (ts : List Str) (vs : List Flt) (h0 : Reads t v)
    (h : List.Forall₂ Reads ts vs) : parseSequence (t ++ commaTail ts) = v :: vs := by
  unfold parseSequence
  rw [h0.2 _ (atSep_commaTail _), seqTail_skip _ _ h0.1, seqTail_commaTail _ _ h]

theorem length_seqTail_le (s : Str) : (seqTail s).length ≤ s.length := by
  induction s with
  | nil => simp [seqTail]
  | cons c t ih => rw [seqTail]; split <;> simp <;> omega

/-- The block for the numbers is too small exactly for texts of nothing but commas. -/
theorem sequenceOverrun_eq (s : Str) : sequenceOverrun s = if ∀ c ∈ s, c = ch%',' then 1 else 0 := by
  unfold sequenceOverrun parseSequence
  have key : ∀ s : Str, (seqTail s).length = s.length ↔ ∀ c ∈ s, c = ch%',' := by
    intro s
    induction s with
    | nil => simp [seqTail]
    | cons c t ih =>
      rw [seqTail]
      have := length_seqTail_le t
      by_cases hc : c = ch%','
      · rw [if_pos hc]; simp [ih, hc]
      · rw [if_neg hc]
        simp only [List.length_cons, List.mem_cons, forall_eq_or_imp, hc, false_and, iff_false]
        omega
  have h1 := length_seqTail_le s
  split
  · rename_i h; have := (key s).mpr h; simp; omega
  · rename_i h
    have : (seqTail s).length ≠ s.length := fun hh => h ((key s).mp hh)
    simp; omega

theorem parsePrefix_plain (s : Str) (h : ch%':' ∉ s) : parsePrefix s = (.empty, s) := by
  unfold parsePrefix
  cases hd : s.dropWhile isSchemeChar with
  | nil => rfl
  | cons c rest =>
    have hm : c ∈ s := (List.dropWhile_sublist (p := isSchemeChar) (l := s)).subset (by rw [hd]; simp)
    have : c ≠ ch%':' := fun hc => h (hc ▸ hm)
    simp [this]

theorem parsePrefix_mask (s : Str) : parsePrefix (b!"mask:" ++ s) = (.mask, s) := by
  unfold parsePrefix
  have h1 : (b!"mask:" ++ s).takeWhile isSchemeChar = b!"mask" := by
    simp only [List.cons_append, List.takeWhile]; rfl
  have h2 : (b!"mask:" ++ s).dropWhile isSchemeChar = ch%':' :: s := by
    simp only [List.cons_append, List.dropWhile]; rfl
  rw [h1, h2]
  simp only [List.length_cons, List.length_nil, if_true]
  have e1 : schemeMatches b!"mask" b!"rect" = false := by decide
  have e2 : schemeMatches b!"mask" b!"poly" = false := by decide
  have e3 : schemeMatches b!"mask" b!"mask" = true := by decide
  simp [e1, e2, e3]

/-! ## Numbers -/

/-- What is read for a printed coordinate. -/
def readCoord : Flt → Flt
  | .nan => .nan
  | .inf neg => .inf neg
  | .fin neg m => .fin neg (readBack (10 ^ 4) m)

theorem numChars : ∀ c : UInt8, isDigit c = true → c ≠ 44 ∧ c ≠ 58 := by
  apply forall_byte'; decide +kernel

/-- The characters of numbers: no comma and no colon. -/
theorem fmtFloat_chars (w : Nat) (x : Flt) : ∀ c ∈ fmtFloat w x, c ≠ ch%',' ∧ c ≠ ch%':' := by
  cases x with
  | nan => show ∀ c ∈ b!"nan", _; decide
  | inf neg => show ∀ c ∈ (if neg then b!"-inf" else b!"inf"), _; cases neg <;> decide
  | fin neg m =>
    unfold fmtFloat
    simp only
    intro c hc
    simp only [List.mem_append] at hc
    rcases hc with ((h | h) | h) | h
    · cases neg <;> simp at h; subst h; decide
    · exact numChars c (natDigits_digits _ c h)
    · simp at h; subst h; decide
    · unfold padDigits at h
      rcases List.mem_append.mp h with h | h
      · rw [List.eq_of_mem_replicate h]; decide
      · exact numChars c (natDigits_digits _ c h)

theorem fmtInt_sep (n : Int) : ∀ c ∈ fmtInt n, c ≠ ch%',' ∧ c ≠ ch%':' := by
  intro c hc
  rcases fmtInt_chars n c hc with h | h
  · exact numChars c h
  · subst h; decide

theorem strtodNum_inf (neg : Bool) (rest : Str) (hr : AtSep rest) :
    strtodNum ((if neg then b!"-inf" else b!"inf") ++ rest) = some (neg, .inf, rest) := by
  have hsign : splitSign (((if neg then b!"-inf" else b!"inf") ++ rest).dropWhile isSpace) = (neg, b!"inf" ++ rest) := by
    cases neg
    · simp [splitSign, show isSpace 105 = false by decide]
    · simp [splitSign, show isSpace 45 = false by decide]
  unfold strtodNum
  rw [hsign]
  have h1 : eqNoCase ((b!"inf" ++ rest).take 3) b!"inf" = true := by
    simp only [List.cons_append, List.nil_append, List.take_succ_cons, List.take_zero]; decide
  have h2 : eqNoCase ((b!"inf" ++ rest).take 8) b!"infinity" = false := by
    rcases hr with h | h
    · subst h; decide
    · cases rest with
      | nil => simp at h
      | cons c t =>
        simp at h; subst h
        simp only [List.cons_append, List.nil_append, List.take_succ_cons]
        simp [eqNoCase, show toLower 44 = 44 by decide, show toLower 105 = 105 by decide]
  simp only [h1, h2, if_true, Bool.false_eq_true, if_false]
  rfl

theorem strtodNum_nan (rest : Str) (hr : AtSep rest) : strtodNum (b!"nan" ++ rest) = some (false, .nan, rest) := by
  have hsign : splitSign ((b!"nan" ++ rest).dropWhile isSpace) = (false, b!"nan" ++ rest) := by
    simp [splitSign, show isSpace 110 = false by decide]
  unfold strtodNum
  rw [hsign]
  have h0 : eqNoCase ((b!"nan" ++ rest).take 3) b!"inf" = false := by
    simp only [List.cons_append, List.nil_append, List.take_succ_cons, List.take_zero]; decide
  have h1 : eqNoCase ((b!"nan" ++ rest).take 3) b!"nan" = true := by
    simp only [List.cons_append, List.nil_append, List.take_succ_cons, List.take_zero]; decide
  have h2 : skipNanChars rest = rest := by
    rcases hr with h | h
    · subst h; rfl
    · cases rest with
      | nil => rfl
      | cons c t => simp at h; subst h; simp [skipNanChars]
  simp only [h0, h1, if_true, Bool.false_eq_true, if_false]
  simp [h2]

theorem atofFloat_of {s rest : Str} {neg : Bool} {x : Num} (h : strtodNum s = some (neg, x, rest)) :
    atofFloat s = (x.toDouble neg).toFloat := by
  unfold atofFloat strtod
  rw [h]

theorem reads_coord (x : Flt) (hx : x.IsFloat) : Reads (fmtFloat 4 x) (readCoord x) := by
  refine ⟨fun h => (fmtFloat_chars 4 x _ h).1 rfl, ?_⟩
  intro rest hr
  cases x with
  | nan => exact atofFloat_of (strtodNum_nan rest hr)
  | inf neg => exact atofFloat_of (strtodNum_inf neg rest hr)
  | fin neg m =>
    rw [atofFloat_of (strtodNum_fmtFloat 3 neg m rest hr)]
    exact (read_decimal neg m (10 ^ 4) (by decide) (by decide) hx).1

/-- The single precision number read for an integer. -/
def readInt (n : Int) : Flt := .fin (decide (n < 0)) (fround 24 (n.natAbs * 2 ^ 149) 1)

theorem reads_int (n : Int) (h : n.natAbs < 2 ^ 53) : Reads (fmtInt n) (readInt n) := by
  refine ⟨fun h => (fmtInt_sep n _ h).1 rfl, ?_⟩
  intro rest hr
  rw [atofFloat_of (strtodNum_fmtInt n rest hr), read_int_float _ _ h]
  rfl

theorem readCoord_nan (x : Flt) : readCoord x = .nan ↔ x = .nan := by cases x <;> simp [readCoord]

theorem fround_int_exact {n : Nat} (h : Rep 24 n) : fround 24 (n * 2 ^ 149) 1 = n * 2 ^ 149 := by
  have := fround_exact (d := 1) (by omega) (h.scale (Nat.le_refl _) 149)
  rwa [Nat.mul_one] at this

theorem readInt_toInt {n : Int} (h : Rep 24 n.natAbs) (hn : InInt32 n) : (readInt n).toInt = .ok n := by
  unfold readInt Flt.toInt
  simp only [fround_int_exact h, Nat.mul_div_cancel _ (Nat.two_pow_pos 149)]
  have : (if decide (n < 0) = true then -(n.natAbs : Int) else (n.natAbs : Int)) = n := by
    split
    · rename_i h0; have := of_decide_eq_true h0; omega
    · rename_i h0
      have : ¬ n < 0 := fun hlt => h0 (decide_eq_true hlt)
      omega
  rw [this, if_pos hn]

/-- The number read is a whole number. -/
theorem fround_int_whole (n : Nat) : 2 ^ 149 ∣ fround 24 (n * 2 ^ 149) 1 := by
  by_cases hlt : n < 2 ^ 24
  · rw [fround_int_exact (rep_of_lt hlt)]; exact Nat.dvd_mul_left _ _
  · unfold fround
    simp only [Nat.div_one]
    have h0 : n ≠ 0 := by have := Nat.two_pow_pos 24; omega
    have hl : 24 ≤ n.log2 := (Nat.le_log2 h0).mpr (by omega)
    rw [log2_mul_pow n 149 h0]
    exact Nat.dvd_trans (Nat.pow_dvd_pow 2 (by omega)) (Nat.dvd_mul_left _ _)

theorem readInt_toInt_conv {n m : Int} (h : (readInt n).toInt = .ok m) :
    Rep 24 m.natAbs ∧ InInt32 m ∧ (m = n → Rep 24 n.natAbs) := by
  unfold readInt Flt.toInt at h
  simp only at h
  obtain ⟨c, hc⟩ := fround_int_whole n.natAbs
  have hrep : Rep 24 (fround 24 (n.natAbs * 2 ^ 149) 1) := fround_rep 24 _ 1 (by omega) (by omega)
  rw [hc, Nat.mul_comm] at hrep
  have hrc := hrep.unscale
  rw [hc, Nat.mul_div_cancel_left _ (Nat.two_pow_pos 149)] at h
  obtain ⟨v, hv⟩ : ∃ v : Int, v = if decide (n < 0) = true then -(c : Int) else (c : Int) := ⟨_, rfl⟩
  rw [← hv] at h
  by_cases hr : InInt32 v
  · rw [if_pos hr] at h
    simp only [Outcome.ok.injEq] at h
    rw [h] at hr
    have hmc : m.natAbs = c := by rw [← h, hv]; split <;> omega
    exact ⟨by rw [hmc]; exact hrc, hr, fun he => by rw [← he, hmc]; exact hrc⟩
  · rw [if_neg hr] at h; cases h

end Region
end Trax

namespace Trax
namespace Region

/-! ## Whole regions -/

theorem flat_reads (xs : List Flt) (hx : ∀ x ∈ xs, x.IsFloat) :
    List.Forall₂ Reads (xs.map (fmtFloat 4)) (xs.map readCoord) := by
  induction xs with
  | nil => exact .nil
  | cons x t ih => exact .cons (reads_coord x (hx x (by simp))) (ih fun y hy => hx y (by simp [hy]))

/-- The coordinates of a polygon one after the other. -/
def flatten (ps : List (Flt × Flt)) : List Flt := ps.flatMap fun p => [p.1, p.2]

theorem fmtPoints_eq (p : Flt × Flt) (ps : List (Flt × Flt)) :
    fmtPoints (p :: ps) = fmtFloat 4 p.1 ++ commaTail ((p.2 :: flatten ps).map (fmtFloat 4)) := by
  induction ps generalizing p with
  | nil => simp [fmtPoints, flatten, commaTail]
  | cons q qs ih =>
    rw [fmtPoints, ih q]
    · simp [flatten, commaTail]
    · simp

theorem pairUp_flatten (f : Flt → Flt) (ps : List (Flt × Flt)) :
    pairUp ((flatten ps).map f) = ps.map fun p => (f p.1, f p.2) := by
  induction ps with
  | nil => rfl
  | cons p ps ih => simpa [flatten, pairUp] using ih

theorem length_flatten (ps : List (Flt × Flt)) : (flatten ps).length = 2 * ps.length := by
  induction ps with
  | nil => rfl
  | cons p ps ih =>
    have : flatten (p :: ps) = p.1 :: p.2 :: flatten ps := rfl
    rw [this, List.length_cons, List.length_cons, ih, List.length_cons]; omega

theorem no_colon_commaTail (ts : List Str) (h : ∀ t ∈ ts, ch%':' ∉ t) : ch%':' ∉ commaTail ts := by
  unfold commaTail
  intro hm
  rw [List.mem_flatMap] at hm
  obtain ⟨t, ht, hm⟩ := hm
  rcases List.mem_cons.mp hm with h1 | h1
  · exact absurd h1 (by decide)
  · exact h t ht h1

theorem no_colon_floats (xs : List Flt) : ∀ t ∈ xs.map (fmtFloat 4), ch%':' ∉ t := by
  intro t ht
  rw [List.mem_map] at ht
  obtain ⟨x, _, rfl⟩ := ht
  exact fun h => (fmtFloat_chars 4 x _ h).2 rfl

theorem fmtFloat_ne_nil (w : Nat) (x : Flt) : fmtFloat w x ≠ [] := by
  cases x with
  | nan => simp [fmtFloat]
  | inf neg => cases neg <;> simp [fmtFloat]
  | fin neg m => simp [fmtFloat]

/-- A text with a number at its start does not overrun the block. -/
theorem no_overrun {t rest : Str} (h1 : t ≠ []) (h2 : ch%',' ∉ t) : sequenceOverrun (t ++ rest) = 0 := by
  rw [sequenceOverrun_eq, if_neg]
  intro h
  cases t with
  | nil => contradiction
  | cons c t => exact h2 (by rw [← h c (by simp)]; simp)

/-- Parsing a sequence of printed coordinates. -/
theorem parse_coords (x : Flt) (xs : List Flt) (hx : x.IsFloat) (hxs : ∀ y ∈ xs, y.IsFloat) :
    parse (fmtFloat 4 x ++ commaTail (xs.map (fmtFloat 4))) =
      (ofSequence .empty (readCoord x :: xs.map readCoord)).map
        fun r => ⟨if r.isSome then 1 else 0, r, 0⟩ := by
  unfold parse
  rw [if_neg (by simp [fmtFloat_ne_nil])]
  have hcolon : ch%':' ∉ fmtFloat 4 x ++ commaTail (xs.map (fmtFloat 4)) := by
    rw [List.mem_append, not_or]
    exact ⟨fun h => (fmtFloat_chars 4 x _ h).2 rfl, no_colon_commaTail _ (no_colon_floats xs)⟩
  rw [parsePrefix_plain _ hcolon]
  simp only
  rw [parseSequence_join _ _ _ _ (reads_coord x hx) (flat_reads xs hxs),
    no_overrun (fmtFloat_ne_nil 4 x) (fun h => (fmtFloat_chars 4 x _ h).1 rfl)]

theorem any_nan_false (xs : List Flt) (h : ∀ x ∈ xs, x ≠ .nan) :
    (xs.map readCoord).any (fun x => decide (x = .nan)) = false := by
  rw [List.any_eq_false]
  intro y hy
  rw [List.mem_map] at hy
  obtain ⟨x, hx, rfl⟩ := hy
  simp only [decide_eq_true_eq, readCoord_nan]
  exact h x hx

theorem parse_rectangle (x y w h : Flt) (hf : ∀ c ∈ [x, y, w, h], c.IsFloat) (hn : ∀ c ∈ [x, y, w, h], c ≠ .nan) :
    ∃ t, string (.rectangle x y w h) = .ok (some t) ∧
      parse t = .ok ⟨1, some (.rectangle (readCoord x) (readCoord y) (readCoord w) (readCoord h)), 0⟩ := by
  refine ⟨fmtFloat 4 x ++ commaTail ([y, w, h].map (fmtFloat 4)), by simp [string, commaTail], ?_⟩
  rw [parse_coords x [y, w, h] (hf x (by simp)) (fun c hc => hf c (by simp at hc ⊢; tauto))]
  have hany := any_nan_false [x, y, w, h] hn
  unfold ofSequence
  simp only [List.map_cons, List.map_nil] at hany ⊢
  rw [hany]
  rfl

theorem parse_polygon (ps : List (Flt × Flt)) (h3 : 3 ≤ ps.length)
    (hf : ∀ p ∈ ps, p.1.IsFloat ∧ p.2.IsFloat) (hn : ∀ p ∈ ps, p.1 ≠ .nan ∧ p.2 ≠ .nan) :
    ∃ t, string (.polygon ps) = .ok (some t) ∧
      parse t = .ok ⟨1, some (.polygon (ps.map fun p => (readCoord p.1, readCoord p.2))), 0⟩ := by
  cases ps with
  | nil => simp at h3
  | cons p ps =>
    refine ⟨fmtPoints (p :: ps), by simp [string], ?_⟩
    have hff : ∀ c ∈ flatten (p :: ps), c.IsFloat := by
      intro c hc
      unfold flatten at hc
      rw [List.mem_flatMap] at hc
      obtain ⟨q, hq, hc⟩ := hc
      simp at hc
      rcases hc with rfl | rfl
      · exact (hf q hq).1
      · exact (hf q hq).2
    have hnn : ∀ c ∈ flatten (p :: ps), c ≠ .nan := by
      intro c hc
      unfold flatten at hc
      rw [List.mem_flatMap] at hc
      obtain ⟨q, hq, hc⟩ := hc
      simp at hc
      rcases hc with rfl | rfl
      · exact (hn q hq).1
      · exact (hn q hq).2
    have hfl : flatten (p :: ps) = p.1 :: p.2 :: flatten ps := rfl
    rw [fmtPoints_eq, parse_coords p.1 (p.2 :: flatten ps) (hff _ (by simp [hfl])) (fun c hc => hff c (by rw [hfl]; simp at hc ⊢; tauto))]
    have hany := any_nan_false _ hnn
    have hpair := pairUp_flatten readCoord (p :: ps)
    have hlen := length_flatten (p :: ps)
    rw [hfl] at hany hpair hlen
    have e : readCoord p.1 :: (p.2 :: flatten ps).map readCoord = (p.1 :: p.2 :: flatten ps).map readCoord := rfl
    rw [e]
    unfold ofSequence
    rw [hany]
    simp only [Bool.false_eq_true, if_false, List.length_map, if_true]
    rw [hlen]
    have h1 : ¬ (2 * (p :: ps).length = 1) := by omega
    have h2 : ¬ (2 * (p :: ps).length = 4) := by omega
    have h4 : 6 ≤ 2 * (p :: ps).length ∧ 2 * (p :: ps).length % 2 = 0 := by omega
    rw [if_neg h1, if_neg h2, if_pos h4]
    simp only
    rw [if_pos h4, hpair]
    rfl

/-! ## Masks -/

/-- The pixel values that a decoded mask has. -/
def norm (p : UInt8) : UInt8 := if p ≠ 0 then 1 else 0

theorem rep24_of_le {n : Nat} (h : n ≤ 2 ^ 24) : Rep 24 n := by
  by_cases he : n = 2 ^ 24
  · rw [he]; exact rep_two_pow 24 24 (by omega)
  · exact rep_of_lt (by omega)

theorem readInt_run {n : Nat} (h : n ≤ 2 ^ 24) : (readInt n).toInt = .ok (n : Int) := by
  apply readInt_toInt
  · exact rep24_of_le (by simpa using h)
  · have : (2 : Nat) ^ 24 = 16777216 := by norm_num
    unfold InInt32; omega

theorem decodeRuns_maskRuns (value : Bool) (count : Nat) (ps : List UInt8) (h : count + ps.length ≤ 2 ^ 24) :
    decodeRuns value (count + ps.length) ((maskRuns value count ps).map fun n : Nat => readInt n) =
      .ok (List.replicate count (if value then 1 else 0) ++ ps.map norm) := by
  induction ps generalizing value count with
  | nil =>
    simp only [List.length_nil, Nat.add_zero, maskRuns, List.map_nil, List.append_nil] at h ⊢
    cases value
    · simp [decodeRuns]
    · by_cases hc : count = 0
      · subst hc; simp [decodeRuns]
      · simp only [ne_eq, hc, not_false_eq_true, and_self, if_true, List.map_cons, List.map_nil, decodeRuns,
          readInt_run h, Outcome.bind_ok, fillRun]
        rw [if_pos (by omega)]
        simp [Outcome.map]
  | cons p ps ih =>
    rw [List.length_cons] at h ⊢
    rw [maskRuns]
    split
    · rename_i hp
      have := ih value (count + 1) (by omega)
      rw [show count + 1 + ps.length = count + (ps.length + 1) by omega] at this
      rw [this]
      have hn : norm p = if value then 1 else 0 := by
        unfold norm
        cases value <;> simp at hp <;> simp [hp]
      rw [List.map_cons, hn, List.replicate_succ', List.append_assoc]
      rfl
    · rename_i hp
      have := ih (!value) 1 (by omega)
      rw [List.map_cons, decodeRuns, readInt_run (by omega), Outcome.bind_ok]
      have hfill : fillRun (count : Int) (count + (ps.length + 1)) = .ok count := by
        unfold fillRun; rw [if_pos (by omega)]; simp
      rw [hfill, Outcome.bind_ok, show count + (ps.length + 1) - count = 1 + ps.length by omega, this]
      have hn : norm p = if !value then 1 else 0 := by
        unfold norm
        cases value <;> simp at hp <;> simp [hp]
      rw [List.map_cons, hn]
      simp [Outcome.map]

theorem maskRuns_ne_nil (count : Nat) (ps : List UInt8) (h : ∃ p ∈ ps, p ≠ 0) : maskRuns false count ps ≠ [] := by
  induction ps generalizing count with
  | nil => simp at h
  | cons p ps ih =>
    rw [maskRuns]
    split
    · rename_i hp
      simp at hp
      apply ih
      obtain ⟨q, hq, hne⟩ := h
      rcases List.mem_cons.mp hq with h1 | h1
      · exact absurd (h1 ▸ hp) hne
      · exact ⟨q, h1, hne⟩
    · simp

/-- The runs as they are printed. -/
def printedRuns (data : List UInt8) : List Nat :=
  match data with
  | [] => []
  | p :: _ => if p ≠ 0 then 0 :: maskRuns true 0 data else maskRuns false 0 data

theorem decode_printedRuns (data : List UInt8) (h : data.length ≤ 2 ^ 24) :
    decodeRuns false data.length ((printedRuns data).map fun n : Nat => readInt n) = .ok (data.map norm) := by
  cases data with
  | nil => rfl
  | cons p ps =>
    unfold printedRuns
    simp only
    split
    · have := decodeRuns_maskRuns true 0 (p :: ps) (by simpa using h)
      rw [Nat.zero_add] at this
      rw [List.map_cons, decodeRuns, readInt_run (by omega), Outcome.bind_ok]
      have hfill : fillRun ((0 : Nat) : Int) (p :: ps).length = .ok 0 := by
        unfold fillRun; simp
      rw [hfill, Outcome.bind_ok, Nat.sub_zero, Bool.not_false, this]
      simp [Outcome.map]
    · have := decodeRuns_maskRuns false 0 (p :: ps) (by simpa using h)
      rw [Nat.zero_add] at this
      simpa using this

theorem maskRuns_norm (value : Bool) (count : Nat) (ps : List UInt8) :
    maskRuns value count (ps.map norm) = maskRuns value count ps := by
  induction ps generalizing value count with
  | nil => rfl
  | cons p ps ih =>
    rw [List.map_cons, maskRuns, maskRuns, ih, ih]
    have : (decide (norm p ≠ 0)) = decide (p ≠ 0) ∧ decide (norm p = 0) = decide (p = 0) := by
      unfold norm; by_cases hp : p = 0 <;> simp [hp]
    rw [this.1, this.2]

theorem printedRuns_norm (data : List UInt8) : printedRuns (data.map norm) = printedRuns data := by
  cases data with
  | nil => rfl
  | cons p ps =>
    have e : (p :: ps).map norm = norm p :: ps.map norm := rfl
    unfold printedRuns
    rw [← maskRuns_norm true 0 (p :: ps), ← maskRuns_norm false 0 (p :: ps), e]
    simp only
    by_cases hp : p = 0
    · subst hp
      have hnz : norm 0 = 0 := by decide
      simp [hnz]
    · have hnz : norm p ≠ 0 := by simp [norm, hp]
      simp [hp, hnz]

theorem string_mask (x y w h : Int) (data : List UInt8) (hlen : (data.length : Int) = w * h) (hpos : data ≠ [])
    (hr : InInt32 (w * h)) :
    string (.mask x y w h data) = .ok (some (b!"mask:" ++ (fmtInt x ++
      commaTail ([y, w, h].map fmtInt ++ (printedRuns data).map fun n : Nat => fmtInt n)))) := by
  unfold string mul32
  simp only [hr, if_true, Outcome.bind_ok]
  cases data with
  | nil => contradiction
  | cons p ps =>
    simp only
    rw [if_neg (by omega)]
    have ht : (p :: ps).take (w * h).toNat = p :: ps := by
      apply List.take_of_length_le; omega
    rw [ht]
    have hfm : ∀ l : List Nat, l.flatMap fmtRun = commaTail (l.map fun n : Nat => fmtInt n) := by
      intro l
      induction l with
      | nil => rfl
      | cons a t ih => rw [List.flatMap_cons, ih, List.map_cons, commaTail_cons]; rfl
    have hca : ∀ a b : List Str, commaTail (a ++ b) = commaTail a ++ commaTail b := by
      intro a b; simp [commaTail]
    have h0 : fmtInt 0 = b!"0" := by decide
    rw [hca, ← hfm]
    unfold printedRuns
    by_cases hp : p ≠ 0
    · simp [hp, commaTail, fmtRun, h0]
    · simp [hp, commaTail]

theorem forall2_ints (ns : List Int) (h : ∀ n ∈ ns, n.natAbs < 2 ^ 53) :
    List.Forall₂ Reads (ns.map fmtInt) (ns.map readInt) := by
  induction ns with
  | nil => exact .nil
  | cons n t ih => exact .cons (reads_int n (h n (by simp))) (ih fun m hm => h m (by simp [hm]))

theorem maskRuns_le (value : Bool) (count : Nat) (ps : List UInt8) : ∀ n ∈ maskRuns value count ps, n ≤ count + ps.length := by
  induction ps generalizing value count with
  | nil => intro n hn; rw [maskRuns] at hn; split at hn <;> simp at hn; omega
  | cons p ps ih =>
    intro n hn
    rw [maskRuns] at hn
    rw [List.length_cons]
    split at hn
    · have := ih value (count + 1) n hn; omega
    · rcases List.mem_cons.mp hn with h | h
      · omega
      · have := ih _ 1 n h; omega

theorem printedRuns_le (data : List UInt8) : ∀ n ∈ printedRuns data, n ≤ data.length := by
  intro n hn
  cases data with
  | nil => simp [printedRuns] at hn
  | cons p ps =>
    unfold printedRuns at hn
    simp only at hn
    split at hn
    · rcases List.mem_cons.mp hn with h | h
      · omega
      · have := maskRuns_le _ _ _ n h; omega
    · have := maskRuns_le _ _ _ n hn; omega

theorem printedRuns_ne_nil (data : List UInt8) (h : ∃ p ∈ data, p ≠ 0) : printedRuns data ≠ [] := by
  cases data with
  | nil => simp at h
  | cons p ps =>
    unfold printedRuns
    simp only
    split
    · simp
    · exact maskRuns_ne_nil 0 _ h

theorem ofSequence_mask {fx fy fw fh r : Flt} {runs : List Flt} {x y w h : Int} {pixels : List UInt8}
    (hany : (fx :: fy :: fw :: fh :: r :: runs).any (fun x => decide (x = .nan)) = false)
    (hx : fx.toInt = .ok x) (hy : fy.toInt = .ok y) (hw : fw.toInt = .ok w) (hh : fh.toInt = .ok h)
    (hr : InInt32 (w * h)) (hd : decodeRuns false (w * h).toNat (r :: runs) = .ok pixels) :
    ofSequence .mask (fx :: fy :: fw :: fh :: r :: runs) = .ok (some (.mask x y w h pixels)) := by
  unfold ofSequence
  rw [hany]
  simp only [Bool.false_eq_true, if_false, reduceCtorEq, hx, hy, hw, hh, Outcome.bind_ok, mul32, hr, if_true, hd]
  rfl

/-- Parsing the text of a mask. -/
theorem parse_mask (x y w h : Int) (data : List UInt8)
    (hx : x.natAbs ≤ 2 ^ 24) (hy : y.natAbs ≤ 2 ^ 24) (hw : 0 < w) (hh : 0 < h)
    (hlen : (data.length : Int) = w * h) (hsize : data.length ≤ 2 ^ 24) (hfg : ∃ p ∈ data, p ≠ 0) :
    parse (b!"mask:" ++ (fmtInt x ++ commaTail ([y, w, h].map fmtInt ++ (printedRuns data).map fun n : Nat => fmtInt n))) =
      .ok ⟨1, some (.mask x y w h (data.map norm)), 0⟩ := by
  have h24 : (2 : Nat) ^ 24 = 16777216 := by norm_num
  have hw2 : w ≤ w * h := by nlinarith
  have hh2 : h ≤ w * h := by nlinarith
  have hwa : w.natAbs ≤ 2 ^ 24 := by omega
  have hha : h.natAbs ≤ 2 ^ 24 := by omega
  have h53 : (2 : Nat) ^ 53 = 9007199254740992 := by norm_num
  unfold parse
  rw [if_neg (by simp), parsePrefix_mask]
  simp only
  have hmap : ((printedRuns data).map fun n : Nat => fmtInt n) = ((printedRuns data).map fun n : Nat => (n : Int)).map fmtInt := by simp
  have hmap2 : ((printedRuns data).map fun n : Nat => readInt n) = ((printedRuns data).map fun n : Nat => (n : Int)).map readInt := by simp
  have hfn : fmtInt x ≠ [] := by cases x <;> simp [fmtInt, natDigits_ne_nil]
  rw [hmap, ← List.map_append, parseSequence_join _ _ _ _ (reads_int x (by omega))
    (forall2_ints _ (by
      intro n hn
      rcases List.mem_append.mp hn with hn | hn
      · simp at hn; rcases hn with rfl | rfl | rfl <;> omega
      · rw [List.mem_map] at hn
        obtain ⟨k, hk, rfl⟩ := hn
        have := printedRuns_le data k hk
        omega)),
    no_overrun hfn (fun h => (fmtInt_sep x _ h).1 rfl)]
  rw [List.map_append, ← hmap2]
  have hne := printedRuns_ne_nil data hfg
  have hdec := decode_printedRuns data hsize
  cases hpr : printedRuns data with
  | nil => contradiction
  | cons r runs =>
    rw [hpr] at hdec
    have hany : (readInt x :: ([y, w, h].map readInt ++ (r :: runs).map fun n : Nat => readInt n)).any (fun x => decide (x = .nan)) = false := by
      rw [List.any_eq_false]
      intro z hz
      have : ∃ n, z = readInt n := by
        rcases List.mem_cons.mp hz with h | h
        · exact ⟨x, h⟩
        · rcases List.mem_append.mp h with h | h
          · rw [List.mem_map] at h; obtain ⟨n, _, rfl⟩ := h; exact ⟨n, rfl⟩
          · rw [List.mem_map] at h; obtain ⟨n, _, rfl⟩ := h; exact ⟨n, rfl⟩
      obtain ⟨n, rfl⟩ := this
      simp [readInt]
    have i1 : InInt32 x := by unfold InInt32; omega
    have i2 : InInt32 y := by unfold InInt32; omega
    have i3 : InInt32 w := by unfold InInt32; omega
    have i4 : InInt32 h := by unfold InInt32; omega
    have i5 : InInt32 (w * h) := by unfold InInt32; omega
    have hl : (w * h).toNat = data.length := by omega
    have := ofSequence_mask (pixels := data.map norm) hany (readInt_toInt (rep24_of_le hx) i1)
      (readInt_toInt (rep24_of_le hy) i2) (readInt_toInt (rep24_of_le hwa) i3)
      (readInt_toInt (rep24_of_le hha) i4) i5 (by rw [hl]; exact hdec)
    have e : readInt x :: ([y, w, h].map readInt ++ (r :: runs).map fun n : Nat => readInt n) =
      readInt x :: readInt y :: readInt w :: readInt h :: readInt r :: runs.map fun n : Nat => readInt n := by
      simp only [List.map_cons, List.map_nil, List.cons_append, List.nil_append]
    rw [e, this]
    simp [Outcome.map]

end Region
end Trax
