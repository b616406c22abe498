import Verif.Lemmas.RegionCodec
import Verif.Lemmas.FloatOps
import Verif.Spec.RegionText

/-! Helper lemmas about the texts of regions as users write them. -/

namespace Trax
open Spec
namespace Region

/-- The text behind a number. -/
def Stops (s : Str) : Prop := ∀ c, s.head? = some c → isDigit c = false ∧ c ≠ ch%'.' ∧ toLower c ≠ ch%'e' ∧ toLower c ≠ ch%'x'

theorem Stops.noExp {s : Str} (h : Stops s) : splitExponent ch%'e' s = (0, s) := by
  cases s with
  | nil => rfl
  | cons c t => simp [splitExponent, (h c rfl).2.2.1]

theorem AtSep.stops {s : Str} (h : AtSep s) : Stops s := by
  intro c hc
  rcases h with h | h
  · simp [h] at hc
  · rw [h] at hc; simp only [Option.some.injEq] at hc; subst hc; decide

theorem splitSign_text (neg plus : Bool) (t : Str) (ht : ∀ c, t.head? = some c → c ≠ ch%'-' ∧ c ≠ ch%'+') :
    splitSign (signText neg plus ++ t) = (neg, t) := by
  cases neg
  · cases plus
    · cases t with
      | nil => rfl
      | cons c t => simp [signText, splitSign, (ht c rfl).1, (ht c rfl).2]
    · simp [signText, splitSign]
  · simp [signText, splitSign]

theorem digit_sign : ∀ c : UInt8, isDigit c = true ∨ c = ch%'.' → c ≠ ch%'-' ∧ c ≠ ch%'+' ∧ isSpace c = false ∧ toLower c ≠ 105 ∧ toLower c ≠ 110 := by
  apply forall_byte'; decide +kernel

/-- A number as `strtod` reads it. -/
theorem strtodNum_general (neg plus : Bool) (c : UInt8) (u ip fp mrest rest : Str) (e : Int) (hc : isDigit c = true ∨ c = ch%'.')
    (hu : ∀ d, u.head? = some d → toLower d ≠ 120) (hsplit : splitMantissa isDigit (c :: u) = (ip, fp, mrest)) (hip : ip ++ fp ≠ [])
    (hexp : splitExponent ch%'e' mrest = (e, rest)) :
    strtodNum (signText neg plus ++ c :: u) = some (neg, scaled (digitsValue (ip ++ fp)) 10 (e - (fp.length : Int)), rest) := by
  obtain ⟨hm, hp, hsp, l1, l2⟩ := digit_sign c hc
  have hdrop : (signText neg plus ++ c :: u).dropWhile isSpace = signText neg plus ++ c :: u := by
    cases neg
    · cases plus
      · simp [signText, hsp]
      · simp [signText, show isSpace 43 = false by decide]
    · simp [signText, show isSpace 45 = false by decide]
  have hsign := splitSign_text neg plus (c :: u) (by intro d hd; simp at hd; subst hd; exact ⟨hm, hp⟩)
  unfold strtodNum
  rw [hdrop, hsign]
  have ninf : eqNoCase ((c :: u).take 3) b!"inf" = false := by
    simp [eqNoCase, show toLower 105 = 105 by decide, l1]
  have nnan : eqNoCase ((c :: u).take 3) b!"nan" = false := by
    simp [eqNoCase, show toLower 110 = 110 by decide, l2]
  have nx : eqNoCase ((c :: u).take 2) b!"0x" = false := by
    cases u with
    | nil => simp [eqNoCase]
    | cons d v =>
      have := hu d rfl
      simp [eqNoCase, show toLower 120 = 120 by decide, this]
  simp only [ninf, nnan, nx, hsplit, hexp, Bool.false_eq_true, if_false, false_and]
  rw [if_neg hip]

/-- The text behind the digits of a number. -/
def Ends (s : Str) : Prop := ∀ c, s.head? = some c → isDigit c = false ∧ c ≠ ch%'.' ∧ toLower c ≠ ch%'x'

theorem split_mantissa (ip : Str) (fp : Option Str) (tail : Str) (hi : ∀ c ∈ ip, isDigit c = true) (hf : ∀ c ∈ fp.getD [], isDigit c = true) (ht : Ends tail) :
    splitMantissa isDigit (ip ++ (pointText fp ++ tail)) = (ip, fp.getD [], tail) := by
  cases fp with
  | none =>
    have hs := takeWhile_append_stop isDigit ip tail hi (fun c h => (ht c h).1)
    unfold splitMantissa
    rw [show pointText none ++ tail = tail from rfl, hs.1, hs.2]
    cases tail with
    | nil => rfl
    | cons d v => simp [(ht d rfl).2.1]
  | some fs =>
    have hs := takeWhile_append_stop isDigit ip (b!"." ++ (fs ++ tail)) hi (by intro d h; simp at h; subst h; decide)
    have hs2 := takeWhile_append_stop isDigit fs tail hf (fun c h => (ht c h).1)
    unfold splitMantissa
    rw [show pointText (some fs) ++ tail = b!"." ++ (fs ++ tail) by simp [pointText], hs.1, hs.2]
    simp [hs2.1, hs2.2]

theorem strtodNum_mantissa (neg plus : Bool) (ip : Str) (fp : Option Str) (tail rest : Str) (e : Int) (hi : ∀ c ∈ ip, isDigit c = true)
    (hf : ∀ c ∈ fp.getD [], isDigit c = true) (hne : ip ++ fp.getD [] ≠ []) (ht : Ends tail) (he : splitExponent ch%'e' tail = (e, rest)) :
    strtodNum (signText neg plus ++ (ip ++ (pointText fp ++ tail))) =
      some (neg, scaled (digitsValue (ip ++ fp.getD [])) 10 (e - ((fp.getD []).length : Int)), rest) := by
  have hs := split_mantissa ip fp tail hi hf ht
  have hsecond : ∀ (fp : Option Str), (∀ c ∈ fp.getD [], isDigit c = true) → ∀ d,
      (pointText fp ++ tail).head? = some d → toLower d ≠ 120 := by
    intro fp hf d hd
    cases fp with
    | none => exact (ht d (by simpa [pointText] using hd)).2.2
    | some fs => simp [pointText] at hd; subst hd; decide
  cases ip with
  | nil =>
    cases fp with
    | none => exact absurd rfl hne
    | some fs =>
      refine strtodNum_general neg plus ch%'.' (fs ++ tail) [] fs tail rest e (Or.inr rfl) ?_ (by simpa [pointText] using hs) hne he
      intro d hd
      cases fs with
      | nil => exact absurd rfl hne
      | cons f fs => simp at hd; subst hd; exact (digit_lower _ (hf _ (by simp))).2.2.1
  | cons c ip =>
    refine strtodNum_general neg plus c _ (c :: ip) (fp.getD []) tail rest e (Or.inl (hi c (by simp))) ?_ hs hne he
    intro d hd
    cases ip with
    | nil => exact hsecond fp hf d hd
    | cons f ip => simp at hd; subst hd; exact (digit_lower _ (hi _ (by simp))).2.2.1

theorem strtodNum_blanks (b s : Str) (hb : ∀ c ∈ b, isSpace c = true) : strtodNum (b ++ s) = strtodNum s := by
  unfold strtodNum
  have : (b ++ s).dropWhile isSpace = s.dropWhile isSpace := by
    induction b with
    | nil => rfl
    | cons c t ih =>
      rw [List.cons_append, List.dropWhile_cons_of_pos (hb c (by simp)), ih fun c hc => hb c (by simp [hc])]
  rw [this]

theorem digits_eq (s : Str) : digits s = digitsValue s := by
  unfold digits digitsValue
  congr 1
  funext n c
  ring

theorem digit_of {c : UInt8} (h : ch%'0' ≤ c ∧ c ≤ ch%'9') : isDigit c = true := by
  have h1 := UInt8.le_iff_toNat_le.mp h.1
  have h2 := UInt8.le_iff_toNat_le.mp h.2
  simp only [isDigit, Bool.and_eq_true, decide_eq_true_eq]
  exact ⟨h1, h2⟩

theorem stops_blanks {a rest : Str} (ha : ∀ c ∈ a, c = ch%' ' ∨ c = ch%'\t') (hr : Stops rest) : Stops (a ++ rest) := by
  intro c hc
  cases a with
  | nil => exact hr c hc
  | cons d t =>
    simp at hc
    subst hc
    rcases ha d (by simp) with rfl | rfl <;> decide

/-- The power of ten behind the digits of the number. -/
def tens (n : Numeral) : Int := exponentValue n.exponent - ((n.frac.getD []).length : Int)

/-- What is read for a number. -/
def readNumeral (n : Numeral) : Flt := ((scaled (digitsValue (n.whole ++ n.frac.getD [])) 10 (tens n)).toDouble n.neg).toFloat

/-- The text behind the digits, with an exponent. -/
theorem splitExponent_numeral (n : Numeral) (hv : n.WellFormed) (tail : Str) (ht : Stops tail) :
    splitExponent ch%'e' (exponentText n.exponent ++ tail) =
      (exponentValue n.exponent, tail) := by
  cases he : n.exponent with
  | none => exact ht.noExp
  | some e =>
    obtain ⟨h1, h2⟩ := hv.exponent e he
    have hd : ∀ c ∈ e.digits, isDigit c = true := fun c hc => digit_of (h2 c hc)
    have hs := takeWhile_append_stop isDigit e.digits tail hd (fun c h => (ht c h).1)
    have hsg := splitSign_text e.neg e.plus (e.digits ++ tail) (by
      intro c hc
      obtain ⟨f, t, ht', hf⟩ := digits_head hd h1
      rw [ht'] at hc
      simp at hc
      subst hc
      exact ⟨(digit_sign _ (Or.inl hf)).1, (digit_sign _ (Or.inl hf)).2.1⟩)
    have key : ∀ m : UInt8, toLower m = ch%'e' → splitExponent ch%'e' (m :: (signText e.neg e.plus ++ (e.digits ++ tail))) = (e.value, tail) := by
      intro m hm
      simp only [splitExponent, hm, if_true, hsg, hs.1, hs.2, h1, if_false]
      congr 1
      unfold Exponent.value
      rw [digits_eq]
      cases e.neg <;> simp
    have : e.text ++ tail = (if e.capital then ch%'E' else ch%'e') :: (signText e.neg e.plus ++ (e.digits ++ tail)) := by
      unfold Exponent.text
      cases e.capital <;> simp
    show splitExponent ch%'e' (e.text ++ tail) = _
    rw [this]
    apply key
    cases e.capital <;> decide

theorem ends_numeral (n : Numeral) (tail : Str) (ht : Stops tail) :
    Ends (exponentText n.exponent ++ tail) := by
  cases n.exponent with
  | none => intro c hc; exact ⟨(ht c hc).1, (ht c hc).2.1, (ht c hc).2.2.2⟩
  | some e =>
    intro c hc
    have : c = if e.capital then ch%'E' else ch%'e' := by
      unfold exponentText Exponent.text at hc
      simp only at hc
      cases hcap : e.capital <;> rw [hcap] at hc <;> simp at hc <;> exact hc.symm
    rw [this]
    cases e.capital <;> decide

/-- The number is read. -/
theorem atof_numeral (n : Numeral) (hv : n.WellFormed) (rest : Str) (hr : AtSep rest) :
    atofFloat (n.text ++ rest) = readNumeral n := by
  have hb := hv.blanks
  have hst : Stops (n.after ++ rest) := stops_blanks (fun c hc => hb c (by simp [hc])) (AtSep.stops hr)
  have hnum := strtodNum_mantissa n.neg n.plus n.whole n.frac _ _ _ (fun c hc => digit_of (hv.digits c (by simp [hc])))
    (fun c hc => digit_of (hv.digits c (by simp [hc]))) hv.nonempty (ends_numeral n _ hst) (splitExponent_numeral n hv _ hst)
  have e : n.text ++ rest = n.before ++ (signText n.neg n.plus ++ (n.whole ++ (pointText n.frac ++
      (exponentText n.exponent ++ (n.after ++ rest))))) := by
    unfold Numeral.text
    simp only [List.append_assoc]
  rw [e]
  have hnum' := (strtodNum_blanks n.before _ (by
      intro c hc
      rcases hb c (by simp [hc]) with rfl | rfl <;> decide)).trans hnum
  rw [atofFloat_of hnum']
  rfl

theorem numeral_chars (n : Numeral) (hv : n.WellFormed) : ch%',' ∉ n.text ∧ ch%':' ∉ n.text ∧ n.text ≠ [] := by
  obtain ⟨hb, hw, hd, hx⟩ := hv
  have hsign : ∀ (neg plus : Bool) (c : UInt8), c ∈ signText neg plus → c ≠ ch%',' ∧ c ≠ ch%':' := by
    intro neg plus c hc
    cases neg
    · cases plus
      · simp [signText] at hc
      · simp [signText] at hc; subst hc; decide
    · simp [signText] at hc; subst hc; decide
  have key : ∀ c ∈ n.text, c ≠ ch%',' ∧ c ≠ ch%':' := by
    intro c hc
    simp only [Numeral.text, List.mem_append] at hc
    rcases hc with ((((h | h) | h) | h) | h) | h
    · rcases hb c (by simp [h]) with rfl | rfl <;> decide
    · exact hsign _ _ c h
    · exact numChars c (digit_of (hd c (by simp [h])))
    · cases hf : n.frac with
      | none => rw [hf] at h; simp [pointText] at h
      | some fs =>
        rw [hf] at h
        simp only [pointText, List.mem_append, List.mem_singleton] at h
        rcases h with h | h
        · subst h; decide
        · exact numChars c (digit_of (hd c (by simp [hf, h])))
    · cases he : n.exponent with
      | none => rw [he] at h; simp [exponentText] at h
      | some e =>
        rw [he] at h
        simp only [exponentText, Exponent.text, List.mem_append] at h
        rcases h with (h | h) | h
        · cases hcap : e.capital <;> rw [hcap] at h <;> simp at h <;> subst h <;> decide
        · exact hsign _ _ c h
        · exact numChars c (digit_of ((hx e he).2 c h))
    · rcases hb c (by simp [h]) with rfl | rfl <;> decide
  refine ⟨fun h => (key _ h).1 rfl, fun h => (key _ h).2 rfl, ?_⟩
  intro h
  unfold Numeral.text at h
  simp only [List.append_eq_nil_iff] at h
  apply hw
  rw [h.1.1.1.2, List.nil_append]
  cases hf : n.frac with
  | none => rfl
  | some d => rw [hf] at h; simp [pointText] at h

theorem numeral_reads (n : Numeral) (hv : n.WellFormed) : Reads n.text (readNumeral n) :=
  ⟨(numeral_chars n hv).1, fun rest hr => atof_numeral n hv rest hr⟩

/-! ### The value that is read -/

theorem scaled_value (m : Nat) (e : Int) : ∃ a b : Nat, scaled m 10 e = .fin a b ∧ 0 < b ∧ (m : ℚ) * 10 ^ e = a / b := by
  cases e with
  | ofNat k => exact ⟨_, _, rfl, by omega, by push_cast; simp⟩
  | negSucc k =>
    refine ⟨_, _, rfl, Nat.pow_pos (by omega), ?_⟩
    rw [zpow_negSucc]
    push_cast
    rw [div_eq_mul_inv]

/-- The number as a fraction. -/
theorem numeral_fraction (n : Numeral) : ∃ a b : Nat, 0 < b ∧ n.value = (if n.neg then -1 else 1) * ((a : ℚ) / b) ∧
    readNumeral n = ((Num.fin a b).toDouble n.neg).toFloat := by
  obtain ⟨a, b, h1, h2, h3⟩ := scaled_value (digitsValue (n.whole ++ n.frac.getD [])) (tens n)
  refine ⟨a, b, h2, ?_, by unfold readNumeral; rw [h1]⟩
  rw [← h3]
  unfold Numeral.value tens
  rw [digits_eq, zpow_sub₀ (by norm_num : (10 : ℚ) ≠ 0), zpow_natCast]
  ring

theorem abs_fraction (s : Bool) (a b : Nat) : |(if s then (-1 : ℚ) else 1) * ((a : ℚ) / b)| = (a : ℚ) / b := by
  have : |(if s = true then (-1 : ℚ) else 1)| = 1 := by cases s <;> simp
  rw [abs_mul, this, one_mul, abs_of_nonneg (by positivity)]

/-- The error of rounding to `p` bits. -/
theorem fround_error (p n d : Nat) (hp : 0 < p) (hd : 0 < d) :
    2 * ((fround p n d * d : Nat) - (n : Int)).natAbs ≤ d ∨ ((fround p n d * d : Nat) - (n : Int)).natAbs * 2 ^ p ≤ n := by
  have hdk : 0 < d * 2 ^ ((n / d).log2 + 1 - p) := Nat.mul_pos hd (Nat.two_pow_pos _)
  have hcomm : fround p n d * d = rhe n (d * 2 ^ ((n / d).log2 + 1 - p)) * (d * 2 ^ ((n / d).log2 + 1 - p)) := by
    unfold fround; ring
  have herr : 2 * ((fround p n d * d : Nat) - (n : Int)).natAbs ≤ d * 2 ^ ((n / d).log2 + 1 - p) := by
    rw [hcomm]
    obtain ⟨h1, h2, -, -⟩ := rhe_spec n (d * 2 ^ ((n / d).log2 + 1 - p)) hdk
    generalize d * 2 ^ ((n / d).log2 + 1 - p) = D at *
    generalize rhe n D * D = Q at *
    omega
  by_cases hk : (n / d).log2 + 1 ≤ p
  · left
    rw [Nat.sub_eq_zero_of_le hk, pow_zero, Nat.mul_one] at herr
    exact herr
  · right
    have hq : n / d ≠ 0 := by
      intro h0
      rw [h0] at hk
      simp [Nat.log2] at hk
      omega
    have h1 : 2 ^ (n / d).log2 ≤ n / d := Nat.log2_self_le hq
    have h2 : d * 2 ^ (n / d).log2 ≤ n := le_trans (Nat.mul_le_mul_left d h1) (Nat.mul_div_le n d)
    have h3 : 2 ^ ((n / d).log2 + 1 - p) * 2 ^ p = 2 * 2 ^ (n / d).log2 := by
      rw [← pow_add, ← pow_succ']
      congr 1
      omega
    have h4 : 2 * ((fround p n d * d : Nat) - (n : Int)).natAbs * 2 ^ p ≤ d * 2 ^ ((n / d).log2 + 1 - p) * 2 ^ p := Nat.mul_le_mul_right _ herr
    rw [Nat.mul_assoc d, h3] at h4
    have h5 : 2 * (((fround p n d * d : Nat) - (n : Int)).natAbs * 2 ^ p) ≤ 2 * (d * 2 ^ (n / d).log2) := by
      rw [← Nat.mul_assoc, Nat.mul_left_comm 2 d]
      exact h4
    exact le_trans (Nat.le_of_mul_le_mul_left h5 (by omega)) h2

theorem double_le (a b : Nat) (hb : 0 < b) (h : a ≤ (2 ^ 24 - 1) * 2 ^ 104 * b) :
    fround 53 (a * 2 ^ 1074) b ≤ (2 ^ 24 - 1) * 2 ^ 253 * 2 ^ 925 := by
  have hrep : Rep 53 ((2 ^ 24 - 1) * 2 ^ 1178) := (rep_of_lt (p := 24) (by norm_num)).scale (by omega) 1178
  have e : (2 ^ 24 - 1) * 2 ^ 253 * 2 ^ 925 = (2 ^ 24 - 1) * 2 ^ 1178 := by
    rw [Nat.mul_assoc, ← pow_add]
  have e2 : (2 : Nat) ^ 1178 = 2 ^ 104 * 2 ^ 1074 := by rw [← pow_add]
  have h2 : a * 2 ^ 1074 ≤ (2 ^ 24 - 1) * 2 ^ 1178 * b := by
    rw [e2]
    generalize (2 : Nat) ^ 1074 = u
    generalize (2 : Nat) ^ 104 = v at *
    generalize (2 : Nat) ^ 24 - 1 = w at *
    calc a * u ≤ w * v * b * u := Nat.mul_le_mul_right _ h
      _ = w * (v * u) * b := by ring
  have h3 := fround_le_rep _ _ _ (by omega : 0 < 53) hb hrep h2
  rw [e]
  exact h3

theorem double_finite {D : Nat} (h : D ≤ (2 ^ 24 - 1) * 2 ^ 253 * 2 ^ 925) : D < 2 ^ 2098 := by
  have h1 : (2 : Nat) ^ 1202 = 2 ^ 24 * 2 ^ 253 * 2 ^ 925 := by rw [← pow_add, ← pow_add]
  have h2 : (2 : Nat) ^ 1202 < 2 ^ 2098 := Nat.pow_lt_pow_right (by omega) (by omega)
  have h3 : (2 ^ 24 - 1) * 2 ^ 253 * 2 ^ 925 ≤ 2 ^ 24 * 2 ^ 253 * 2 ^ 925 :=
    Nat.mul_le_mul_right _ (Nat.mul_le_mul_right _ (Nat.sub_le _ _))
  rw [← h1] at h3
  exact lt_of_le_of_lt (le_trans h h3) h2

theorem double_apart (s : Bool) (a b D : Nat) (U : ℚ) (hU : 0 < U) (hb : 0 < b) (u : Nat) (hu : (u : ℚ) = U)
    (h : 2 * ((D * b : Nat) - ((a * u : Nat) : Int)).natAbs ≤ b ∨ ((D * b : Nat) - ((a * u : Nat) : Int)).natAbs * 2 ^ 53 ≤ a * u) :
    2 * |(if s then (-1 : ℚ) else 1) * ((D : ℚ) / U) - (if s then -1 else 1) * ((a : ℚ) / b)| ≤ (a : ℚ) / b / 2 ^ 52 + 1 / U := by
  have hbq : (0 : ℚ) < b := by exact_mod_cast hb
  have hs : |(if s = true then (-1 : ℚ) else 1)| = 1 := by cases s <;> simp
  have e : (D : ℚ) / U - (a : ℚ) / b = ((D : ℚ) * b - a * U) / (b * U) := by field_simp
  rw [← mul_sub, abs_mul, hs, one_mul, e, abs_div, abs_of_pos (mul_pos hbq hU)]
  have hn : |(D : ℚ) * b - a * U| = ((((D * b : Nat) - ((a * u : Nat) : Int)).natAbs : Nat) : ℚ) := by
    rw [Nat.cast_natAbs]
    push_cast
    rw [hu]
  rw [hn]
  generalize ((D * b : Nat) - ((a * u : Nat) : Int)).natAbs = E at *
  have hbU : (0 : ℚ) < b * U := mul_pos hbq hU
  have ha : (0 : ℚ) ≤ (a : ℚ) / b / 2 ^ 52 := by positivity
  have h1U : (0 : ℚ) ≤ 1 / U := by positivity
  rcases h with h | h
  · have h' : (2 : ℚ) * E ≤ b := by exact_mod_cast h
    have : 2 * ((E : ℚ) / (b * U)) ≤ 1 / U := by
      rw [← mul_div_assoc, div_le_div_iff₀ hbU hU]
      nlinarith
    linarith
  · have h' : (E : ℚ) * 2 ^ 53 ≤ a * U := by rw [← hu]; exact_mod_cast h
    have : 2 * ((E : ℚ) / (b * U)) ≤ (a : ℚ) / b / 2 ^ 52 := by
      rw [← mul_div_assoc, div_div, div_le_div_iff₀ hbU (by positivity)]
      have : 2 * (E : ℚ) * (b * 2 ^ 52) = b * (E * 2 ^ 53) := by ring
      rw [this]
      calc (b : ℚ) * (E * 2 ^ 53) ≤ b * (a * U) := mul_le_mul_of_nonneg_left h' (le_of_lt hbq)
        _ = a * (b * U) := by ring
    linarith

/-- Numbers in the range of single precision are read nearly as well as possible. -/
theorem numeral_close (n : Numeral) (h : |n.value| ≤ (2 ^ 24 - 1) * 2 ^ 104) : Close n.value (readNumeral n) := by
  obtain ⟨a, b, hb, hval, hread⟩ := numeral_fraction n
  rw [hval, abs_fraction] at h
  have hbq : (0 : ℚ) < b := by exact_mod_cast hb
  rw [div_le_iff₀ hbq] at h
  have hab : a ≤ (2 ^ 24 - 1) * 2 ^ 104 * b := by
    have e : (((2 ^ 24 - 1) * 2 ^ 104 * b : Nat) : ℚ) = (2 ^ 24 - 1) * 2 ^ 104 * b := by push_cast; norm_num
    rw [← e] at h
    exact_mod_cast h
  have hD := double_le a b hb hab
  have hfin := double_finite hD
  have herr := fround_error 53 (a * 2 ^ 1074) b (by omega) hb
  have hr : readNumeral n = mkFloat n.neg (fround 53 (a * 2 ^ 1074) b) (2 ^ 925) := by
    rw [hread]
    unfold Num.toDouble mkDouble
    simp only
    rw [if_neg (by omega)]
    rfl
  have hpow : ((2 ^ 925 : Nat) : ℚ) * 2 ^ 149 = 2 ^ 1074 := by
    rw [Nat.cast_pow, Nat.cast_ofNat, ← pow_add]
  have hpos := Nat.two_pow_pos 925
  have hnear : Spec.Nearest ((if n.neg then -1 else 1) * (((fround 53 (a * 2 ^ 1074) b : Nat) : ℚ) / 2 ^ 1074)) (readNumeral n) := by
    rw [hr, ← hpow]
    generalize (2 : Nat) ^ 925 = d at *
    exact Flt.mkFloat_nearest hpos hD
  have hap := double_apart n.neg a b (fround 53 (a * 2 ^ 1074) b) (2 ^ 1074) (by positivity) hb (2 ^ 1074) (by rw [Nat.cast_pow, Nat.cast_ofNat]) herr
  refine ⟨hnear.1, hnear.2.1, fun z hz hzf => ?_⟩
  have h1 := hnear.2.2 z hz hzf
  rw [hval, abs_fraction]
  generalize (if n.neg = true then (-1 : ℚ) else 1) * ((a : ℚ) / b) = q at *
  generalize (if n.neg = true then (-1 : ℚ) else 1) * (((fround 53 (a * 2 ^ 1074) b : Nat) : ℚ) / 2 ^ 1074) = d at *
  generalize (a : ℚ) / b / 2 ^ 52 + 1 / 2 ^ 1074 = ε at *
  have t1 : |(readNumeral n).value - q| ≤ |(readNumeral n).value - d| + |d - q| := abs_sub_le _ _ _
  have t2 : |z.value - d| ≤ |z.value - q| + |d - q| := by
    rw [abs_sub_comm d q]
    exact abs_sub_le _ _ _
  linarith

/-- Numbers beyond the range are read as infinite ones. -/
theorem numeral_infinite (n : Numeral) (h : 2 ^ 128 ≤ |n.value|) : readNumeral n = .inf n.neg := by
  obtain ⟨a, b, hb, hval, hread⟩ := numeral_fraction n
  rw [hval, abs_fraction] at h
  have hbq : (0 : ℚ) < b := by exact_mod_cast hb
  rw [le_div_iff₀ hbq] at h
  have hab : 2 ^ 128 * b ≤ a := by exact_mod_cast h
  have hD : 2 ^ 1202 ≤ fround 53 (a * 2 ^ 1074) b := by
    have e2 : (2 : Nat) ^ 1202 = 2 ^ 128 * 2 ^ 1074 := by rw [← pow_add]
    have h2 : 2 ^ 1202 * b ≤ a * 2 ^ 1074 := by
      rw [e2]
      generalize (2 : Nat) ^ 1074 = u
      generalize (2 : Nat) ^ 128 = v at *
      calc v * u * b = v * b * u := by ring
        _ ≤ a * u := Nat.mul_le_mul_right _ hab
    exact rep_le_fround _ _ _ (by omega) hb (rep_two_pow 53 1202 (by omega)) h2
  rw [hread]
  unfold Num.toDouble mkDouble
  simp only
  generalize fround 53 (a * 2 ^ 1074) b = D at *
  by_cases hbig : 2 ^ 2098 ≤ D
  · rw [if_pos hbig]; rfl
  · rw [if_neg hbig]
    unfold Flt.toFloat mkFloat
    simp only
    have : 2 ^ 277 ≤ fround 24 D (2 ^ 925) := by
      apply rep_le_fround _ _ _ (by omega) (Nat.two_pow_pos _) (rep_two_pow 24 277 (by omega))
      rw [← pow_add]
      exact hD
    rw [if_pos this]

/-- Short numbers are read as well as possible. -/
theorem numeral_nearest (n : Numeral) (hs : n.Short) : Nearest n.value (readNumeral n) := by
  have hS : 0 < 10 ^ (n.frac.getD []).length := Nat.pow_pos (by omega)
  have hS2 : 10 ^ (n.frac.getD []).length ≤ 2 ^ 28 :=
    le_trans (Nat.pow_le_pow_right (by omega) hs.decimals) (by norm_num)
  have hval : n.value = (if n.neg = true then (-1 : ℚ) else 1) *
      ((digitsValue (n.whole ++ n.frac.getD []) : ℚ) / (10 ^ (n.frac.getD []).length : ℕ)) := by
    unfold Numeral.value
    rw [hs.exponent, digits_eq]
    push_cast
    rw [exponentValue, zpow_zero, mul_one]
  have hscaled : scaled (digitsValue (n.whole ++ n.frac.getD [])) 10 (tens n) =
      .fin (digitsValue (n.whole ++ n.frac.getD [])) (10 ^ (n.frac.getD []).length) := by
    unfold tens
    rw [hs.exponent, exponentValue]
    cases hl : (n.frac.getD []).length with
    | zero => simp [scaled]
    | succ w =>
      have : (0 : Int) - ((w + 1 : Nat) : Int) = Int.negSucc w := by omega
      simp only [this, scaled]
  have hsm := hs.small
  rw [hval, abs_fraction] at hsm
  rw [hval]
  unfold readNumeral
  rw [hscaled]
  generalize digitsValue (n.whole ++ n.frac.getD []) = N at *
  generalize 10 ^ (n.frac.getD []).length = S at *
  have hSq : (0 : ℚ) < S := by exact_mod_cast hS
  rw [div_lt_iff₀ hSq] at hsm
  have hlt : N < S * 2 ^ 24 := by
    rw [Nat.mul_comm]
    exact_mod_cast hsm
  have hDlt : fround 53 (N * 2 ^ 1074) S < 2 ^ 2098 := by
    apply double_finite
    apply double_le _ _ hS
    calc N ≤ S * 2 ^ 24 := by omega
      _ = 2 ^ 24 * S := by ring
      _ ≤ (2 ^ 24 - 1) * 2 ^ 104 * S := Nat.mul_le_mul_right _ (by norm_num)
  have hround : fround 24 (fround 53 (N * 2 ^ 1074) S) (2 ^ 925) = fround 24 (N * 2 ^ 149) S := by
    by_cases h0 : N = 0
    · rw [h0, Nat.zero_mul, Nat.zero_mul, fround_zero _ _ hS, fround_zero _ _ hS, fround_zero _ _ (Nat.two_pow_pos _)]
    · exact double_round _ _ (by omega) hS hS2 hlt
  have hr : ((Num.fin N S).toDouble n.neg).toFloat = mkFloat n.neg (N * 2 ^ 149) S := by
    unfold Num.toDouble mkDouble
    simp only
    rw [if_neg (by omega)]
    unfold Flt.toFloat mkFloat
    simp only
    rw [hround]
  rw [hr]
  have hb : N * 2 ^ 149 ≤ (2 ^ 24 - 1) * 2 ^ 253 * S := by
    calc N * 2 ^ 149 ≤ S * 2 ^ 24 * 2 ^ 149 := Nat.mul_le_mul_right _ (by omega)
      _ = 2 ^ 173 * S := by ring
      _ ≤ (2 ^ 24 - 1) * 2 ^ 253 * S := Nat.mul_le_mul_right _ (by
        calc 2 ^ 173 ≤ 1 * 2 ^ 253 := by rw [Nat.one_mul]; exact Nat.pow_le_pow_right (by omega) (by omega)
          _ ≤ _ := Nat.mul_le_mul_right _ (by norm_num))
  have := Flt.mkFloat_nearest (neg := n.neg) hS hb
  have e : ((N * 2 ^ 149 : ℕ) : ℚ) / ((S : ℚ) * 2 ^ 149) = (N : ℚ) / S := by
    rw [Nat.cast_mul, Nat.cast_pow, Nat.cast_ofNat, mul_div_mul_right _ _ (ne_of_gt Flt.U_pos)]
  rw [e] at this
  exact this

theorem numeral_readAs (n : Numeral) : n.ReadAs (readNumeral n) :=
  ⟨numeral_nearest n, numeral_close n, numeral_infinite n⟩

theorem readNumeral_ne_nan (n : Numeral) : readNumeral n ≠ .nan := by
  obtain ⟨a, b, -, -, h⟩ := numeral_fraction n
  rw [h]
  unfold Num.toDouble mkDouble
  simp only
  split
  · intro h; cases h
  · unfold Flt.toFloat mkFloat
    simp only
    split <;> (intro h; cases h)

/-- Whole numbers of at most 24 bits are read exactly. -/
theorem readNumeral_toInt (n : Numeral) (k : Int) (hk24 : |k| ≤ 2 ^ 24) (hk : n.value = k) : (readNumeral n).toInt = .ok k := by
  obtain ⟨a, b, hb, hval, hread⟩ := numeral_fraction n
  have hbq : (0 : ℚ) < b := by exact_mod_cast hb
  have habs : (a : ℚ) / b = (k.natAbs : ℚ) := by
    rw [← abs_fraction n.neg a b, ← hval, hk, Nat.cast_natAbs, Int.cast_abs]
  have ha : a = k.natAbs * b := by
    rw [div_eq_iff (ne_of_gt hbq)] at habs
    exact_mod_cast habs
  have hsign : (if n.neg = true then -(k.natAbs : Int) else k.natAbs) = k := by
    have h1 : (if n.neg = true then (-1 : ℚ) else 1) * (k.natAbs : ℚ) = k := by rw [← habs, ← hval, hk]
    cases hn : n.neg
    · rw [hn] at h1
      simp only [Bool.false_eq_true, if_false, one_mul] at h1 ⊢
      have h2 : ((k.natAbs : Int) : ℚ) = (k : ℚ) := by rw [Int.cast_natCast]; exact h1
      exact Int.cast_injective h2
    · rw [hn] at h1
      simp only [if_true] at h1 ⊢
      have h2 : ((-(k.natAbs : Int) : Int) : ℚ) = (k : ℚ) := by rw [Int.cast_neg, Int.cast_natCast, ← h1, neg_one_mul]
      exact Int.cast_injective h2
  obtain ⟨hr24, -⟩ := Flt.rep24_small hk24
  have hkn : k.natAbs ≤ 2 ^ 24 := by
    rw [Int.abs_eq_natAbs] at hk24
    exact_mod_cast hk24
  have hround : fround 53 (a * 2 ^ 1074) b = k.natAbs * 2 ^ 1074 := by
    rw [ha, Nat.mul_right_comm]
    exact fround_exact hb (hr24.scale (by omega) 1074)
  have hround2 : fround 24 (k.natAbs * 2 ^ 1074) (2 ^ 925) = k.natAbs * 2 ^ 149 := by
    rw [show (1074 : Nat) = 149 + 925 by norm_num, pow_add, ← Nat.mul_assoc]
    exact fround_exact (Nat.two_pow_pos _) (hr24.scale (Nat.le_refl _) 149)
  have hlt1 : ¬ 2 ^ 2098 ≤ k.natAbs * 2 ^ 1074 := by
    rw [Nat.not_le]
    calc k.natAbs * 2 ^ 1074 ≤ 2 ^ 24 * 2 ^ 1074 := Nat.mul_le_mul_right _ hkn
      _ = 2 ^ 1098 := by rw [← pow_add]
      _ < 2 ^ 2098 := Nat.pow_lt_pow_right (by omega) (by omega)
  have hlt2 : ¬ 2 ^ 277 ≤ k.natAbs * 2 ^ 149 := by
    rw [Nat.not_le]
    calc k.natAbs * 2 ^ 149 ≤ 2 ^ 24 * 2 ^ 149 := Nat.mul_le_mul_right _ hkn
      _ = 2 ^ 173 := by rw [← pow_add]
      _ < 2 ^ 277 := Nat.pow_lt_pow_right (by omega) (by omega)
  rw [hread]
  unfold Num.toDouble mkDouble
  simp only
  rw [hround, if_neg hlt1]
  unfold Flt.toFloat mkFloat
  simp only
  rw [hround2, if_neg hlt2]
  unfold Flt.toInt
  simp only
  rw [Nat.mul_div_cancel _ (Nat.two_pow_pos 149), hsign, if_pos]
  unfold InInt32
  omega

/-! ### Sequences -/

theorem joined_eq (n : Numeral) (ns : List Numeral) : joined (n :: ns) = n.text ++ commaTail (ns.map Numeral.text) := by
  induction ns generalizing n with
  | nil => simp [joined, commaTail]
  | cons m ms ih =>
    rw [joined, ih m]
    · simp [commaTail]
    · simp

theorem forall2_reads (ns : List Numeral) (h : ∀ n ∈ ns, n.WellFormed) :
    List.Forall₂ Reads (ns.map Numeral.text) (ns.map readNumeral) := by
  induction ns with
  | nil => exact .nil
  | cons n ns ih => exact .cons (numeral_reads n (h n (by simp))) (ih fun m hm => h m (by simp [hm]))

theorem sequence_joined (n : Numeral) (ns : List Numeral) (h : ∀ m ∈ n :: ns, m.WellFormed) :
    parseSequence (joined (n :: ns)) = (n :: ns).map readNumeral ∧ sequenceOverrun (joined (n :: ns)) = 0 := by
  rw [joined_eq]
  have hn := h n (by simp)
  refine ⟨?_, no_overrun (numeral_chars n hn).2.2 (numeral_chars n hn).1⟩
  exact parseSequence_join _ _ _ _ (numeral_reads n hn) (forall2_reads ns fun m hm => h m (by simp [hm]))

theorem joined_no_colon (ns : List Numeral) (h : ∀ m ∈ ns, m.WellFormed) : ch%':' ∉ joined ns := by
  cases ns with
  | nil => simp [joined]
  | cons n ns =>
    rw [joined_eq, List.mem_append, not_or]
    refine ⟨(numeral_chars n (h n (by simp))).2.1, no_colon_commaTail _ ?_⟩
    intro t ht
    obtain ⟨m, hm, rfl⟩ := List.mem_map.mp ht
    exact (numeral_chars m (h m (by simp [hm]))).2.1

theorem parsePrefix_scheme (scheme s : Str) (h : ∀ c ∈ scheme, isSchemeChar c = true) (hl : scheme.length < 16) :
    parsePrefix (scheme ++ b!":" ++ s) = ((parsePrefix (scheme ++ b!":")).1, s) := by
  have hstop : ∀ t : Str, ∀ c, (b!":" ++ t).head? = some c → isSchemeChar c = false := by
    intro t c hc; simp at hc; subst hc; decide
  have h1 := takeWhile_append_stop isSchemeChar scheme (b!":" ++ s) h (hstop s)
  have h2 := takeWhile_append_stop isSchemeChar scheme (b!":" ++ []) h (hstop [])
  rw [List.append_nil] at h2
  unfold parsePrefix
  rw [List.append_assoc, h1.1, h1.2, h2.1, h2.2]
  simp [hl]

theorem parse_joined (type : RegionType) (pre : Str) (n : Numeral) (ns : List Numeral) (h : ∀ m ∈ n :: ns, m.WellFormed)
    (hp : parsePrefix (pre ++ joined (n :: ns)) = (type, joined (n :: ns))) :
    parse (pre ++ joined (n :: ns)) =
      (ofSequence type ((n :: ns).map readNumeral)).map fun r => ⟨if r.isSome then 1 else 0, r, 0⟩ := by
  unfold parse
  have hne : joined (n :: ns) ≠ [] := by
    rw [joined_eq]; simp [(numeral_chars n (h n (by simp))).2.2]
  rw [if_neg (by simp [hne]), hp]
  simp only
  rw [(sequence_joined n ns h).1, (sequence_joined n ns h).2]

theorem prefix_cases {pre : Str} {names : List Str} {type : RegionType} (ns : List Numeral) (h : ∀ m ∈ ns, m.WellFormed)
    (hpre : pre = [] ∨ ∃ name ∈ names, pre = name ++ b!":")
    (hnames : ∀ name ∈ names, (∀ c ∈ name, isSchemeChar c = true) ∧ name.length < 16 ∧
      ((parsePrefix (name ++ b!":")).1 = type ∨ (parsePrefix (name ++ b!":")).1 = .empty)) :
    ∃ t, (t = type ∨ t = .empty) ∧ parsePrefix (pre ++ joined ns) = (t, joined ns) := by
  rcases hpre with rfl | ⟨name, hn, rfl⟩
  · exact ⟨.empty, Or.inr rfl, by rw [List.nil_append]; exact parsePrefix_plain _ (joined_no_colon ns h)⟩
  · obtain ⟨h1, h2, h3⟩ := hnames name hn
    exact ⟨_, h3, parsePrefix_scheme name _ h1 h2⟩

theorem any_nan_map (ns : List Numeral) : (ns.map readNumeral).any (fun x => decide (x = .nan)) = false := by
  rw [List.any_eq_false]
  intro x hx
  obtain ⟨n, -, rfl⟩ := List.mem_map.mp hx
  simpa using readNumeral_ne_nan n

theorem pairUp_pairs (ps : List (Numeral × Numeral)) :
    pairUp ((ps.flatMap fun p => [p.1, p.2]).map readNumeral) = ps.map fun p => (readNumeral p.1, readNumeral p.2) := by
  induction ps with
  | nil => rfl
  | cons p ps ih => simp only [List.flatMap_cons, List.map_cons, List.cons_append,
      List.nil_append, pairUp, ih]

theorem ofSequence_special {t : RegionType} (ht : t = .special ∨ t = .empty) {x : Flt} {code : Int}
    (hn : [x].any (fun x => decide (x = .nan)) = false) (hx : x.toInt = .ok code) :
    ofSequence t [x] = .ok (some (.special code)) := by
  unfold ofSequence
  rw [hn]
  rcases ht with rfl | rfl
  · simp only [Bool.false_eq_true, if_false, reduceCtorEq, hx]; rfl
  · simp only [Bool.false_eq_true, if_false, if_true, List.length_cons, List.length_nil, hx]; rfl

theorem decodeRuns_unrolled (rs : List Numeral) (ks : List Nat) (hk24 : ∀ k ∈ ks, k ≤ 2 ^ 24)
    (hk : List.Forall₂ (fun (m : Numeral) (k : Nat) => m.value = k) rs ks) (value : Bool) (size : Nat) :
    decodeRuns value size (rs.map readNumeral) = .ok (unrolled (if value then 1 else 0) ks size) := by
  induction hk generalizing value size with
  | nil => rfl
  | @cons m k rs ks h1 _ ih =>
    have hle := hk24 k (by simp)
    have := readNumeral_toInt m (k : Int) (by rw [abs_of_nonneg (by omega)]; exact_mod_cast hle) (by rw [h1]; push_cast; rfl)
    rw [List.map_cons, decodeRuns, this, Outcome.bind_ok, fillRun, if_pos (by omega), Outcome.bind_ok,
      Int.toNat_natCast, ih (fun j hj => hk24 j (by simp [hj]))]
    have e : (1 : UInt8) - (if value then 1 else 0) = if (!value) then 1 else 0 := by cases value <;> rfl
    have e2 : size - min k size = size - k := by omega
    simp only [Outcome.map, Outcome.bind, unrolled, e, e2]

/-! ### Arbitrary texts -/

theorem schemeChar_iff (c : UInt8) :
    isSchemeChar c = true ↔ (ch%'a' ≤ c ∧ c ≤ ch%'z') ∨ c = ch%'+' ∨ c = ch%'.' ∨ c = ch%'-' := by
  have h1 : ch%'a' ≤ c ↔ 97 ≤ c.toNat := UInt8.le_iff_toNat_le
  have h2 : c ≤ ch%'z' ↔ c.toNat ≤ 122 := UInt8.le_iff_toNat_le
  simp only [isSchemeChar, Bool.or_eq_true, Bool.and_eq_true, decide_eq_true_eq, h1, h2]
  tauto

theorem onlyCommas_iff (s : Str) : OnlyCommas s ↔ ∀ c ∈ (parsePrefix s).2, c = ch%',' := by
  constructor
  · rintro ⟨front, commas, rfl, hc, rfl | ⟨name, rfl, hl, hn⟩⟩
    · rw [List.nil_append, parsePrefix_plain]
      · exact hc
      · intro h; have := hc _ h; revert this; decide
    · rw [parsePrefix_scheme _ _ (fun c h => (schemeChar_iff c).mpr (hn c h)) (by omega)]
      exact hc
  · intro h
    unfold parsePrefix at h
    simp only at h
    split at h
    · rename_i c rest hd
      split at h
      · rename_i hif
        refine ⟨s.takeWhile isSchemeChar ++ b!":", rest, ?_, h, Or.inr ⟨_, rfl, by omega, ?_⟩⟩
        · conv_lhs => rw [← List.takeWhile_append_dropWhile (p := isSchemeChar) (l := s), hd, hif.1]
          simp
        · intro c hc
          exact (schemeChar_iff c).mp (List.all_eq_true.mp (List.all_takeWhile (l := s) (p := isSchemeChar)) c hc)
      · exact ⟨[], s, rfl, h, Or.inl rfl⟩
    · exact ⟨[], s, rfl, h, Or.inl rfl⟩

theorem mem_parseSequence {s : Str} {x : Flt} (h : x ∈ parseSequence s) : ∃ rest, NumberAt s rest ∧ x = atofFloat rest := by
  unfold parseSequence at h
  rcases List.mem_cons.mp h with h | h
  · exact ⟨s, Or.inl rfl, h⟩
  · suffices ∀ s : Str, x ∈ seqTail s → ∃ front rest, s = front ++ b!"," ++ rest ∧ x = atofFloat rest by
      obtain ⟨f, r, e, hx⟩ := this s h
      exact ⟨r, Or.inr ⟨f, e⟩, hx⟩
    intro s
    clear h
    induction s with
    | nil => simp [seqTail]
    | cons c t ih =>
      intro h
      unfold seqTail at h
      have go : x ∈ seqTail t → ∃ front rest, c :: t = front ++ b!"," ++ rest ∧ x = atofFloat rest := by
        intro h
        obtain ⟨f, r, e, hx⟩ := ih h
        exact ⟨c :: f, r, by rw [e]; rfl, hx⟩
      split at h
      · rename_i hc
        rcases List.mem_cons.mp h with h | h
        · exact ⟨[], t, by rw [hc]; rfl, h⟩
        · exact go h
      · exact go h

theorem numberAt_mem {s rest : Str} (h : NumberAt s rest) : atofFloat rest ∈ parseSequence s := by
  rcases h with rfl | ⟨front, rfl⟩
  · simp [parseSequence]
  · refine List.mem_cons_of_mem _ ?_
    induction front with
    | nil => simp [seqTail]
    | cons c t ih =>
      have e : c :: t ++ b!"," ++ rest = c :: (t ++ b!"," ++ rest) := rfl
      rw [e, seqTail]
      split
      · exact List.mem_cons_of_mem _ ih
      · exact ih

end Region
end Trax
