import Verif.Lemmas.Float

/-! Helper lemmas: reading back the numbers printed by `%d` and `%.4f`. -/

namespace Trax

theorem forall_byte' {P : UInt8 → Prop} (h : ∀ n : Fin 256, P (UInt8.ofNat n.val)) (c : UInt8) : P c := by
  have := h ⟨c.toNat, c.toNat_lt⟩
  simpa using this

theorem digit_lower : ∀ c : UInt8, isDigit c = true →
    toLower c ≠ 105 ∧ toLower c ≠ 110 ∧ toLower c ≠ 120 ∧ c ≠ 46 ∧ c ≠ 44 := by
  apply forall_byte'; decide +kernel

theorem comma_facts : isDigit 44 = false ∧ toLower 44 = 44 ∧ (44 : UInt8) ≠ 46 ∧ (44 : UInt8) ≠ 0 := by decide

/-- The text behind a number: nothing or a comma. -/
def AtSep (s : Str) : Prop := s = [] ∨ s.head? = some 44

theorem AtSep.notDigit {s : Str} (h : AtSep s) : ∀ c, s.head? = some c → isDigit c = false := by
  intro c hc
  rcases h with h | h
  · simp [h] at hc
  · rw [h] at hc; simp only [Option.some.injEq] at hc; subst hc; decide

theorem AtSep.noExp {s : Str} (h : AtSep s) : splitExponent ch%'e' s = (0, s) := by
  rcases h with h | h
  · subst h; rfl
  · cases s with
    | nil => simp at h
    | cons c t => simp at h; subst h; simp [splitExponent, comma_facts]

theorem strtodNum_num (neg : Bool) (c : UInt8) (u ip fp mrest : Str) (hc : isDigit c = true)
    (hu : ∀ d, u.head? = some d → toLower d ≠ 120)
    (hsplit : splitMantissa isDigit (c :: u) = (ip, fp, mrest)) (hip : ip ≠ [])
    (hexp : splitExponent ch%'e' mrest = (0, mrest)) :
    strtodNum ((if neg then b!"-" else []) ++ c :: u) =
      some (neg, scaled (digitsValue (ip ++ fp)) 10 (0 - (fp.length : Int)), mrest) := by
  obtain ⟨_, _, hsp, hm, hp, _⟩ := isDigit_facts hc
  obtain ⟨l1, l2, _, _, _⟩ := digit_lower c hc
  have hsign : splitSign (((if neg then b!"-" else []) ++ c :: u).dropWhile isSpace) = (neg, c :: u) := by
    cases neg
    · simp [hsp, splitSign, hm, hp]
    · simp [splitSign, show isSpace 45 = false by decide]
  unfold strtodNum
  rw [hsign]
  have ninf : eqNoCase ((c :: u).take 3) b!"inf" = false := by
    simp [eqNoCase, show toLower 105 = 105 by decide, l1]
  have nnan : eqNoCase ((c :: u).take 3) b!"nan" = false := by
    simp [eqNoCase, show toLower 110 = 110 by decide, l2]
  have nx : eqNoCase ((c :: u).take 2) b!"0x" = false := by
    cases u with
    | nil => simp [eqNoCase]
    | cons d v =>
      have := hu d rfl
      simp [eqNoCase, show toLower 120 = 120 by decide, this]
  simp only [ninf, nnan, nx, hsplit, hexp, Bool.false_eq_true, if_false, false_and]
  simp [hip]

theorem digits_head {ds : Str} (hd : ∀ c ∈ ds, isDigit c = true) (hne : ds ≠ []) :
    ∃ c t, ds = c :: t ∧ isDigit c = true := by
  cases ds with
  | nil => contradiction
  | cons c t => exact ⟨c, t, rfl, hd c (by simp)⟩

/-- An integer followed by nothing or a comma. -/
theorem strtodNum_digits (neg : Bool) (ds rest : Str) (hd : ∀ c ∈ ds, isDigit c = true) (hne : ds ≠ [])
    (hr : AtSep rest) :
    strtodNum ((if neg then b!"-" else []) ++ (ds ++ rest)) = some (neg, .fin (digitsValue ds) 1, rest) := by
  obtain ⟨c, t, rfl, hc⟩ := digits_head hd hne
  have hs := takeWhile_append_stop isDigit (c :: t) rest hd hr.notDigit
  have hsplit : splitMantissa isDigit (c :: (t ++ rest)) = (c :: t, [], rest) := by
    unfold splitMantissa
    have e : c :: (t ++ rest) = (c :: t) ++ rest := rfl
    rw [e, hs.1, hs.2]
    rcases hr with h | h
    · subst h; rfl
    · cases rest with
      | nil => rfl
      | cons d v => simp at h; subst h; simp
  have := strtodNum_num neg c (t ++ rest) (c :: t) [] rest hc ?_ hsplit (by simp) hr.noExp
  · rw [List.cons_append, this]
    simp [scaled]
  · intro d hdd
    cases t with
    | nil =>
      rcases hr with h | h
      · subst h; simp at hdd
      · simp only [List.nil_append] at hdd; rw [h] at hdd; simp at hdd; subst hdd; decide
    | cons e v =>
      simp at hdd; subst hdd
      exact (digit_lower _ (hd _ (by simp))).2.2.1

/-- A decimal fraction followed by nothing or a comma. -/
theorem strtodNum_frac (neg : Bool) (ds fs rest : Str) (hd : ∀ c ∈ ds, isDigit c = true) (hne : ds ≠ [])
    (hf : ∀ c ∈ fs, isDigit c = true) (hr : AtSep rest) :
    strtodNum ((if neg then b!"-" else []) ++ (ds ++ (b!"." ++ (fs ++ rest)))) =
      some (neg, scaled (digitsValue (ds ++ fs)) 10 (0 - (fs.length : Int)), rest) := by
  obtain ⟨c, t, rfl, hc⟩ := digits_head hd hne
  have hs := takeWhile_append_stop isDigit (c :: t) (b!"." ++ (fs ++ rest)) hd
    (by intro d h; simp at h; subst h; decide)
  have hs2 := takeWhile_append_stop isDigit fs rest hf hr.notDigit
  have hsplit : splitMantissa isDigit (c :: (t ++ (b!"." ++ (fs ++ rest)))) = (c :: t, fs, rest) := by
    unfold splitMantissa
    have e : c :: (t ++ (b!"." ++ (fs ++ rest))) = (c :: t) ++ (b!"." ++ (fs ++ rest)) := rfl
    rw [e, hs.1, hs.2]
    simp [hs2.1, hs2.2]
  refine strtodNum_num neg c (t ++ (b!"." ++ (fs ++ rest))) (c :: t) fs rest hc ?_ hsplit (by simp) hr.noExp
  intro d hdd
  cases t with
  | nil => simp at hdd; subst hdd; decide
  | cons e v =>
    simp at hdd; subst hdd
    exact (digit_lower _ (hd _ (by simp))).2.2.1

theorem digitsValue_concat (a b : Str) : digitsValue (a ++ b) = digitsValue a * 10 ^ b.length + digitsValue b := by
  induction b generalizing a with
  | nil => simp [digitsValue]
  | cons c b ih =>
    have e1 : a ++ c :: b = (a ++ [c]) ++ b := by simp
    have e2 : c :: b = ([] ++ [c]) ++ b := by simp
    rw [e1, ih, digitsValue_append, e2, ih, digitsValue_append]
    simp [pow_succ, digitsValue]; ring

theorem digitsAux_length (fuel n k : Nat) (h : n < 10 ^ (k + 1)) : (digitsAux fuel n).length ≤ k + 1 := by
  induction fuel generalizing n k with
  | zero => simp [digitsAux]
  | succ f ih =>
    rw [digitsAux]
    split
    · simp
    · cases k with
      | zero => simp at h; omega
      | succ k =>
        have := ih (n / 10) k (by rw [pow_succ] at h; omega)
        simp; omega

theorem padDigits_spec (w n : Nat) (h : n < 10 ^ (w + 1)) :
    (padDigits (w + 1) n).length = w + 1 ∧ digitsValue (padDigits (w + 1) n) = n ∧
    ∀ c ∈ padDigits (w + 1) n, isDigit c = true := by
  unfold padDigits
  have hl := digitsAux_length (n.log2 + 1) n w h
  have hl : (natDigits n).length ≤ w + 1 := hl
  refine ⟨by simp; omega, ?_, ?_⟩
  · rw [digitsValue_concat, natDigits_value]
    have : ∀ k, digitsValue (List.replicate k 48) = 0 := by
      intro k
      induction k with
      | zero => rfl
      | succ k ih => rw [List.replicate_succ', digitsValue_append, ih]; decide
    simp [this]
  · intro c hc
    rcases List.mem_append.mp hc with h | h
    · rw [List.eq_of_mem_replicate h]; decide
    · exact natDigits_digits n c h

/-- Reading a number printed with `%.<w+1>f`. -/
theorem strtodNum_fmtFloat (w : Nat) (neg : Bool) (m : Nat) (rest : Str) (hr : AtSep rest) :
    strtodNum (fmtFloat (w + 1) (.fin neg m) ++ rest) =
      some (neg, .fin (rhe (m * 10 ^ (w + 1)) (2 ^ 149)) (10 ^ (w + 1)), rest) := by
  unfold fmtFloat
  simp only
  generalize rhe (m * 10 ^ (w + 1)) (2 ^ 149) = N
  have hp : 0 < 10 ^ (w + 1) := Nat.pow_pos (by omega)
  obtain ⟨p1, p2, p3⟩ := padDigits_spec w (N % 10 ^ (w + 1)) (Nat.mod_lt _ hp)
  have := strtodNum_frac neg (natDigits (N / 10 ^ (w + 1))) (padDigits (w + 1) (N % 10 ^ (w + 1))) rest
    (natDigits_digits _) (natDigits_ne_nil _) p3 hr
  have e : ∀ a b c d : Str, a ++ b ++ b!"." ++ c ++ d = a ++ (b ++ (b!"." ++ (c ++ d))) := by simp
  rw [e, this, digitsValue_concat, p1, p2, natDigits_value, Nat.div_add_mod']
  simp only [Nat.cast_add, Nat.cast_one]
  have : (0 : Int) - (w + 1) = Int.negSucc w := by omega
  rw [this, scaled]

/-- Reading a number printed with `%d`. -/
theorem strtodNum_fmtInt (n : Int) (rest : Str) (hr : AtSep rest) :
    strtodNum (fmtInt n ++ rest) = some (decide (n < 0), .fin n.natAbs 1, rest) := by
  cases n with
  | ofNat m =>
    have := strtodNum_digits false (natDigits m) rest (natDigits_digits _) (natDigits_ne_nil _) hr
    rw [natDigits_value] at this
    have h0 : ¬ ((m : Int) < 0) := by omega
    simpa [fmtInt, h0] using this
  | negSucc m =>
    have := strtodNum_digits true (natDigits (m + 1)) rest (natDigits_digits _) (natDigits_ne_nil _) hr
    rw [natDigits_value] at this
    simpa [fmtInt, Int.negSucc_lt_zero] using this

end Trax
