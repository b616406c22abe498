import Verif.Model.Decimal
import Verif.Model.Outcome

/-! Helper lemmas about decimal numbers. -/

namespace Trax

theorem digitChar (n : Nat) (h : n < 10) : isDigit (UInt8.ofNat (48 + n)) = true ∧
    (UInt8.ofNat (48 + n)).toNat - 48 = n := by
  have : ∀ n : Fin 10, isDigit (UInt8.ofNat (48 + n.val)) = true ∧ (UInt8.ofNat (48 + n.val)).toNat - 48 = n.val := by
    decide
  exact this ⟨n, h⟩

theorem digitsValue_append (a : Str) (c : UInt8) :
    digitsValue (a ++ [c]) = digitsValue a * 10 + (c.toNat - 48) := by
  simp [digitsValue]

theorem digitsAux_spec (fuel n : Nat) (h : n < 10 ^ fuel) :
    digitsValue (digitsAux fuel n) = n ∧ (∀ c ∈ digitsAux fuel n, isDigit c = true) := by
  induction fuel generalizing n with
  | zero => simp at h; subst h; simp [digitsAux, digitsValue]
  | succ fuel ih =>
    rw [digitsAux]
    split
    · rename_i hn
      obtain ⟨h1, h2⟩ := digitChar n hn
      exact ⟨by rw [← List.nil_append [_], digitsValue_append, h2]; simp [digitsValue], by simpa using h1⟩
    · obtain ⟨h1, h2⟩ := digitChar (n % 10) (by omega)
      obtain ⟨i1, i2⟩ := ih (n / 10) (by rw [Nat.pow_succ] at h; omega)
      refine ⟨by rw [digitsValue_append, i1, h2]; omega, ?_⟩
      intro c hc
      rcases List.mem_append.mp hc with hc | hc
      · exact i2 c hc
      · simp only [List.mem_singleton] at hc; rw [hc]; exact h1

theorem lt_ten_pow_log2 (n : Nat) : n < 10 ^ (n.log2 + 1) := by
  have h1 : n < 2 ^ (n.log2 + 1) := Nat.lt_log2_self
  exact Nat.lt_of_lt_of_le h1 (Nat.pow_le_pow_left (by omega) _)

theorem natDigits_value (n : Nat) : digitsValue (natDigits n) = n :=
  (digitsAux_spec _ _ (lt_ten_pow_log2 n)).1

theorem natDigits_digits (n : Nat) : ∀ c ∈ natDigits n, isDigit c = true :=
  (digitsAux_spec _ _ (lt_ten_pow_log2 n)).2

theorem natDigits_ne_nil (n : Nat) : natDigits n ≠ [] := by
  unfold natDigits digitsAux
  split <;> simp

theorem isDigit_facts {c : UInt8} (h : isDigit c = true) :
    c ≠ 0 ∧ c.toNat < 128 ∧ isSpace c = false ∧ c ≠ ch%'-' ∧ c ≠ ch%'+' ∧ c ≠ ch%'=' ∧ c ≠ ch%';' ∧ c ≠ ch%'.' := by
  have key : ∀ n : Fin 256, isDigit (UInt8.ofNat n.val) = true →
      UInt8.ofNat n.val ≠ 0 ∧ (UInt8.ofNat n.val).toNat < 128 ∧ isSpace (UInt8.ofNat n.val) = false ∧
      UInt8.ofNat n.val ≠ ch%'-' ∧ UInt8.ofNat n.val ≠ ch%'+' ∧ UInt8.ofNat n.val ≠ ch%'=' ∧
      UInt8.ofNat n.val ≠ ch%';' ∧ UInt8.ofNat n.val ≠ ch%'.' := by
    decide +kernel
  have := key ⟨c.toNat, c.toNat_lt⟩
  simp only [UInt8.ofNat_toNat] at this
  exact this h

theorem takeWhile_append_stop {α : Type} (p : α → Bool) (a : List α) (rest : List α) (ha : ∀ c ∈ a, p c = true)
    (hr : ∀ c, rest.head? = some c → p c = false) :
    (a ++ rest).takeWhile p = a ∧ (a ++ rest).dropWhile p = rest := by
  induction a with
  | nil =>
    cases rest with
    | nil => simp
    | cons c t => simp [hr c rfl]
  | cons c t ih =>
    simp [ha c (by simp), ih (fun c hc => ha c (by simp [hc]))]

theorem strtol_natDigits (n : Nat) (rest : Str) (hr : ∀ c, rest.head? = some c → isDigit c = false)
    (hn : n ≤ 9223372036854775807) : strtol (natDigits n ++ rest) = ((n : Int), rest) := by
  have hd := natDigits_digits n
  have hv := natDigits_value n
  have hne := natDigits_ne_nil n
  generalize natDigits n = ds at hd hv hne
  match ds, hne with
  | c :: t, _ =>
    obtain ⟨_, _, h3, h4, h5, _⟩ := isDigit_facts (hd c (by simp))
    have h1 : (c :: t ++ rest).dropWhile isSpace = c :: t ++ rest := by simp [h3]
    have h2 : splitSign (c :: t ++ rest) = (false, c :: t ++ rest) := by simp [splitSign, h4, h5]
    obtain ⟨h6, h7⟩ := takeWhile_append_stop isDigit (c :: t) rest hd hr
    unfold strtol
    simp only [h1, h2, h6, h7, hv]
    simp
    omega

theorem strtol_fmtInt (n : Int) (rest : Str) (hr : ∀ c, rest.head? = some c → isDigit c = false)
    (hn : InInt32 n) : strtol (fmtInt n ++ rest) = (n, rest) := by
  cases n with
  | ofNat m => exact strtol_natDigits m rest hr (by have := hn.2; simp only [Int.ofNat_eq_natCast] at this; omega)
  | negSucc m =>
    have hn : m ≤ 2147483647 := by have := hn.1; omega
    have hd := natDigits_digits (m + 1)
    have hv := natDigits_value (m + 1)
    have hne := natDigits_ne_nil (m + 1)
    obtain ⟨h6, h7⟩ := takeWhile_append_stop isDigit (natDigits (m + 1)) rest hd hr
    have h1 : (ch%'-' :: natDigits (m + 1) ++ rest).dropWhile isSpace = ch%'-' :: natDigits (m + 1) ++ rest := by
      simp [isSpace]
    have h2 : splitSign (ch%'-' :: natDigits (m + 1) ++ rest) = (true, natDigits (m + 1) ++ rest) := by
      simp [splitSign]
    unfold strtol fmtInt
    simp only [h1, h2, h6, h7, hv, hne, if_false]
    simp
    omega

theorem wrap32_id {n : Int} (h : InInt32 n) : wrap32 n = n := by
  unfold InInt32 at h
  unfold wrap32
  omega

/-- The characters of a printed integer. -/
theorem fmtInt_chars (n : Int) : ∀ c ∈ fmtInt n, isDigit c = true ∨ c = ch%'-' := by
  intro c hc
  match n with
  | .ofNat m => exact Or.inl (natDigits_digits m c hc)
  | .negSucc m =>
    simp only [fmtInt, List.mem_cons] at hc
    rcases hc with hc | hc
    · exact Or.inr hc
    · exact Or.inl (natDigits_digits _ c hc)

end Trax
