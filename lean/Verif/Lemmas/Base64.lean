import Verif.Model.Base64

/-! Helper lemmas about Base64. -/

namespace Trax.Base64

/-- The characters of the Base64 alphabet. -/
def InAlphabet (c : UInt8) : Prop := isAlnum c = true ∨ c = ch%'+' ∨ c = ch%'/'

instance (c : UInt8) : Decidable (InAlphabet c) := inferInstanceAs (Decidable (_ ∨ _))

/-- Facts about all bytes, by enumeration. -/
theorem forall_byte {P : UInt8 → Prop} (h : ∀ n : Fin 256, P (UInt8.ofNat n.val)) (a : UInt8) : P a := by
  have := h ⟨a.toNat, a.toNat_lt⟩
  simpa using this

theorem pr2six_basis64 : ∀ i : Fin 64, pr2six (basis64 (UInt8.ofNat i.val)) = UInt8.ofNat i.val := by
  decide +kernel

theorem pr2six_basis (i : UInt8) (h : i.toNat < 64) : pr2six (basis64 i) = i := by
  have := pr2six_basis64 ⟨i.toNat, h⟩
  simpa using this

theorem basis_mem (i : UInt8) (h : i.toNat < 64) :
    InAlphabet (basis64 i) := by
  have : ∀ i : Fin 64, InAlphabet (basis64 (UInt8.ofNat i.val)) := by decide +kernel
  simpa using this ⟨i.toNat, h⟩

theorem basis_alphabet (i : UInt8) (h : i.toNat < 64) : pr2six (basis64 i) ≤ 63 := by
  rw [pr2six_basis i h]
  exact UInt8.le_iff_toNat_le.mpr (by simp; omega)

/-- The pieces of a byte. -/
theorem hi6_lt (a : UInt8) : ((a >>> 2) &&& 0x3F).toNat < 64 := by
  revert a; exact forall_byte (by decide +kernel)
theorem lo6_lt (a : UInt8) : (a &&& 0x3F).toNat < 64 := by
  revert a; exact forall_byte (by decide +kernel)
theorem lo2_lt (a : UInt8) : (a &&& 0x3).toNat < 4 := by
  revert a; exact forall_byte (by decide +kernel)
theorem lo4_lt (a : UInt8) : (a &&& 0xF).toNat < 16 := by
  revert a; exact forall_byte (by decide +kernel)
theorem hi4_lt (a : UInt8) : ((a &&& 0xF0) >>> 4).toNat < 16 := by
  revert a; exact forall_byte (by decide +kernel)
theorem hi2_lt (a : UInt8) : ((a &&& 0xC0) >>> 6).toNat < 4 := by
  revert a; exact forall_byte (by decide +kernel)
theorem byte_62 (a : UInt8) : ((a >>> 2) &&& 0x3F) <<< 2 ||| (a &&& 0x3) = a := by
  revert a; exact forall_byte (by decide +kernel)
theorem byte_44 (a : UInt8) : ((a &&& 0xF0) >>> 4) <<< 4 ||| (a &&& 0xF) = a := by
  revert a; exact forall_byte (by decide +kernel)
theorem byte_26 (a : UInt8) : ((a &&& 0xC0) >>> 6) <<< 6 ||| (a &&& 0x3F) = a := by
  revert a; exact forall_byte (by decide +kernel)

/-- Joining two bits and four bits. -/
theorem join24 (x y : UInt8) (hx : x.toNat < 4) (hy : y.toNat < 16) :
    ((x <<< 4) ||| y).toNat < 64 ∧ ((x <<< 4) ||| y) >>> 4 = x ∧ ((x <<< 4) ||| y) <<< 4 = y <<< 4 ∧
    (x <<< 4).toNat < 64 ∧ (x <<< 4) >>> 4 = x := by
  have : ∀ (i : Fin 4) (j : Fin 16), let x := UInt8.ofNat i.val; let y := UInt8.ofNat j.val
      ((x <<< 4) ||| y).toNat < 64 ∧ ((x <<< 4) ||| y) >>> 4 = x ∧ ((x <<< 4) ||| y) <<< 4 = y <<< 4 ∧
      (x <<< 4).toNat < 64 ∧ (x <<< 4) >>> 4 = x := by
    decide +kernel
  simpa using this ⟨x.toNat, hx⟩ ⟨y.toNat, hy⟩

/-- Joining four bits and two bits. -/
theorem join42 (x y : UInt8) (hx : x.toNat < 16) (hy : y.toNat < 4) :
    ((x <<< 2) ||| y).toNat < 64 ∧ ((x <<< 2) ||| y) >>> 2 = x ∧ ((x <<< 2) ||| y) <<< 6 = y <<< 6 ∧
    (x <<< 2).toNat < 64 ∧ (x <<< 2) >>> 2 = x := by
  have : ∀ (i : Fin 16) (j : Fin 4), let x := UInt8.ofNat i.val; let y := UInt8.ofNat j.val
      ((x <<< 2) ||| y).toNat < 64 ∧ ((x <<< 2) ||| y) >>> 2 = x ∧ ((x <<< 2) ||| y) <<< 6 = y <<< 6 ∧
      (x <<< 2).toNat < 64 ∧ (x <<< 2) >>> 2 = x := by
    decide +kernel
  simpa using this ⟨x.toNat, hx⟩ ⟨y.toNat, hy⟩

theorem not_alphabet_pad : ¬ (pr2six ch%'=' ≤ 63) := by decide
theorem not_alphabet_nul : ¬ (pr2six 0 ≤ 63) := by decide

/-- One encoded group is decoded to its three bytes. -/
theorem group_encode (a b c : UInt8) :
    group (basis64 ((a >>> 2) &&& 0x3F)) (basis64 (((a &&& 0x3) <<< 4) ||| ((b &&& 0xF0) >>> 4)))
      (basis64 (((b &&& 0xF) <<< 2) ||| ((c &&& 0xC0) >>> 6))) (basis64 (c &&& 0x3F)) = [a, b, c] := by
  obtain ⟨h1, h2, h3, _⟩ := join24 _ _ (lo2_lt a) (hi4_lt b)
  obtain ⟨g1, g2, g3, _⟩ := join42 _ _ (lo4_lt b) (hi2_lt c)
  unfold group
  rw [pr2six_basis _ (hi6_lt a), pr2six_basis _ h1, pr2six_basis _ g1, pr2six_basis _ (lo6_lt c),
    h2, h3, g2, g3, byte_62, byte_44, byte_26]

/-- Number of data bytes for `n` alphabet characters. -/
theorem decodeChars_length (s : Str) : (decodeChars s).length = s.length * 3 / 4 := by
  induction s using decodeChars.induct with
  | case1 a b c d t ih => simp [decodeChars, group, ih]; omega
  | case2 => simp [decodeChars, group]
  | case3 => simp [decodeChars, group]
  | case4 s h1 h2 h3 =>
    match s, h1, h2, h3 with
    | [], _, _, _ => rfl
    | [a], _, _, _ => simp [decodeChars]
    | [a, b], _, _, h3 => exact absurd rfl (h3 a b)
    | [a, b, c], _, h2, _ => exact absurd rfl (h2 a b c)
    | a :: b :: c :: d :: t, h1, _, _ => exact absurd rfl (h1 a b c d t)

/-- Encoding, then splitting off the padding. -/
theorem encode_split (s : List UInt8) :
    (∀ c ∈ alphabetPrefix (encode s), InAlphabet c) ∧
    encode s = alphabetPrefix (encode s) ++ List.replicate ((3 - s.length % 3) % 3) ch%'=' ∧
    decodeChars (alphabetPrefix (encode s)) = s := by
  induction s using encode.induct with
  | case1 a b c t ih =>
    obtain ⟨i1, i2, i3⟩ := ih
    obtain ⟨h1, _⟩ := join24 _ _ (lo2_lt a) (hi4_lt b)
    obtain ⟨g1, _⟩ := join42 _ _ (lo4_lt b) (hi2_lt c)
    have hp : alphabetPrefix (encode (a :: b :: c :: t)) =
        basis64 ((a >>> 2) &&& 0x3F) :: basis64 (((a &&& 0x3) <<< 4) ||| ((b &&& 0xF0) >>> 4)) ::
        basis64 (((b &&& 0xF) <<< 2) ||| ((c &&& 0xC0) >>> 6)) :: basis64 (c &&& 0x3F) ::
        alphabetPrefix (encode t) := by
      simp [encode, alphabetPrefix, List.takeWhile_cons, basis_alphabet _ (hi6_lt a), basis_alphabet _ h1,
        basis_alphabet _ g1, basis_alphabet _ (lo6_lt c)]
    refine ⟨?_, ?_, ?_⟩
    · rw [hp]
      intro x hx
      simp only [List.mem_cons] at hx
      rcases hx with rfl | rfl | rfl | rfl | hx
      · exact basis_mem _ (hi6_lt a)
      · exact basis_mem _ h1
      · exact basis_mem _ g1
      · exact basis_mem _ (lo6_lt c)
      · exact i1 x hx
    · rw [hp]
      simp only [encode, List.cons_append]
      have : (a :: b :: c :: t).length % 3 = t.length % 3 := by simp only [List.length_cons]; omega
      rw [this, ← i2]
    · rw [hp, decodeChars, group_encode, i3]; rfl
  | case2 a b =>
    obtain ⟨h1, h2, h3, _⟩ := join24 _ _ (lo2_lt a) (hi4_lt b)
    obtain ⟨_, _, _, g1, g2⟩ := join42 _ 0 (lo4_lt b) (by decide)
    have hp : alphabetPrefix (encode [a, b]) =
        [basis64 ((a >>> 2) &&& 0x3F), basis64 (((a &&& 0x3) <<< 4) ||| ((b &&& 0xF0) >>> 4)),
         basis64 ((b &&& 0xF) <<< 2)] := by
      simp [encode, alphabetPrefix, List.takeWhile_cons, basis_alphabet _ (hi6_lt a), basis_alphabet _ h1,
        basis_alphabet _ g1, not_alphabet_pad]
    refine ⟨?_, ?_, ?_⟩
    · rw [hp]
      intro x hx
      simp only [List.mem_cons, List.not_mem_nil, or_false] at hx
      rcases hx with rfl | rfl | rfl
      · exact basis_mem _ (hi6_lt a)
      · exact basis_mem _ h1
      · exact basis_mem _ g1
    · rw [hp]; rfl
    · rw [hp]
      simp [decodeChars, group, pr2six_basis _ (hi6_lt a), pr2six_basis _ h1, pr2six_basis _ g1, h2, h3, g2,
        byte_62, byte_44]
  | case3 a =>
    obtain ⟨_, _, _, h1, h2⟩ := join24 _ 0 (lo2_lt a) (by decide)
    have hp : alphabetPrefix (encode [a]) =
        [basis64 ((a >>> 2) &&& 0x3F), basis64 ((a &&& 0x3) <<< 4)] := by
      simp [encode, alphabetPrefix, List.takeWhile_cons, basis_alphabet _ (hi6_lt a), basis_alphabet _ h1,
        not_alphabet_pad]
    refine ⟨?_, ?_, ?_⟩
    · rw [hp]
      intro x hx
      simp only [List.mem_cons, List.not_mem_nil, or_false] at hx
      rcases hx with rfl | rfl
      · exact basis_mem _ (hi6_lt a)
      · exact basis_mem _ h1
    · rw [hp]; rfl
    · rw [hp]
      simp [decodeChars, group, pr2six_basis _ (hi6_lt a), pr2six_basis _ h1, h2, byte_62]
  | case4 => exact ⟨by simp [encode, alphabetPrefix], rfl, rfl⟩

theorem encode_length (s : List UInt8) : (encode s).length = (s.length + 2) / 3 * 4 := by
  induction s using encode.induct with
  | case1 a b c t ih => simp [encode, ih]; omega
  | case2 => simp [encode]
  | case3 => simp [encode]
  | case4 => rfl

theorem decodeReturn_eq (text : Str) : decodeReturn text = (decodeChars (alphabetPrefix text)).length := by
  rw [decodeChars_length]
  simp only [decodeReturn]
  generalize (alphabetPrefix text).length = n
  rcases Nat.eq_zero_or_pos n with h | h
  · subst h; simp
  · rw [if_neg (by omega)]
    obtain ⟨q, r, hr, hq⟩ : ∃ q r, r < 4 ∧ n = 4 * q + r + 1 := ⟨(n - 1) / 4, (n - 1) % 4, by omega, by omega⟩
    subst hq
    have h1 : (4 * q + r + 1 - 1) % 4 = r := by omega
    rw [h1]
    have : r = 0 ∨ r = 1 ∨ r = 2 ∨ r = 3 := by omega
    rcases this with rfl | rfl | rfl | rfl <;> omega

theorem takeWhile_length_le' (p : UInt8 → Bool) (l : Str) : (l.takeWhile p).length ≤ l.length := by
  induction l with
  | nil => simp
  | cons a t ih => rw [List.takeWhile_cons]; split <;> simp <;> omega

/-- Padding characters at the end are not alphabet characters. -/
theorem alphabetPrefix_append_pad (s t : Str) : alphabetPrefix (s ++ ch%'=' :: t) = alphabetPrefix s := by
  unfold alphabetPrefix
  induction s with
  | nil => simp [not_alphabet_pad]
  | cons a s ih =>
    rw [List.cons_append, List.takeWhile_cons, List.takeWhile_cons]
    split
    · rw [ih]
    · rfl

theorem decodeLen_append (before : Option UInt8) (s : Str) (c : UInt8) (hc : c ≠ ch%'=') :
    decodeLen before (s ++ [c]) = some (((s.length + 1 : Nat) : Int) * 3 / 4 + 1) := by
  have h1 : ¬ ((s.length : Int) < -1) := by omega
  have h2 : ¬ ((s.length : Int) = -1) := by omega
  simp [decodeLen, h1, h2, hc]

theorem decodeLen_append_one (before : Option UInt8) (s : Str) (c : UInt8) (hc : c ≠ ch%'=') :
    decodeLen before (s ++ [c, ch%'=']) = some (((s.length + 2 : Nat) : Int) * 3 / 4) := by
  have h1 : ¬ ((s.length : Int) + 2 - 1 < -1) := by omega
  have h2 : ¬ ((s.length : Int) + 2 - 1 = -1) := by omega
  have h3 : ¬ ((s.length : Int) < -1) := by omega
  have h4 : ¬ ((s.length : Int) = -1) := by omega
  have h5 : ((s.length : Int) + 2 - 1).toNat = s.length + 1 := by omega
  simp [decodeLen, h1, h2, h3, h4, h5, hc]

theorem decodeLen_append_two (before : Option UInt8) (s : Str) :
    decodeLen before (s ++ [ch%'=', ch%'=']) = some (((s.length + 2 : Nat) : Int) * 3 / 4 - 1) := by
  have h1 : ¬ ((s.length : Int) + 2 - 1 < -1) := by omega
  have h2 : ¬ ((s.length : Int) + 2 - 1 = -1) := by omega
  have h3 : ¬ ((s.length : Int) < -1) := by omega
  have h4 : ¬ ((s.length : Int) = -1) := by omega
  have h5 : ((s.length : Int) + 2 - 1).toNat = s.length + 1 := by omega
  simp [decodeLen, h1, h2, h3, h4, h5]
  omega

/-- The decoder writes at most one byte more than declared. -/
theorem decodeWritten_le (text : Str) (before : Option UInt8) (n : Int)
    (hb : before ≠ some ch%'=') (h : decodeLen before text = some n) :
    ((decodeWritten text).length : Int) ≤ n + 1 := by
  have hlen : ∀ t, (decodeWritten t).length = (alphabetPrefix t).length * 3 / 4 + 1 := by
    intro t; simp [decodeWritten, decodeChars_length]
  have hle : ∀ t, (alphabetPrefix t).length ≤ t.length := fun t => takeWhile_length_le' _ t
  rcases List.eq_nil_or_concat text with rfl | ⟨s, c, rfl⟩
  · rw [hlen]
    cases before with
    | none => simp [decodeLen] at h
    | some b =>
      by_cases hb : b = ch%'='
      · subst hb
        simp [decodeLen] at h
      · simp [decodeLen, hb] at h
        subst h; simp [alphabetPrefix]
  · rw [List.concat_eq_append] at *
    by_cases hc : c = ch%'='
    · subst hc
      rcases List.eq_nil_or_concat s with rfl | ⟨s, d, rfl⟩
      · rw [hlen]
        have : (alphabetPrefix ([] ++ [ch%'='])).length = 0 := by simp [alphabetPrefix, not_alphabet_pad]
        rw [this]
        cases before with
        | none => simp [decodeLen] at h
        | some b =>
          simp [decodeLen] at h
          have hb : b ≠ ch%'=' := fun hh => hb (by rw [hh])
          simp [hb] at h; omega
      · rw [List.concat_eq_append] at *
        rw [List.append_assoc] at *
        simp only [List.cons_append, List.nil_append] at *
        rw [hlen]
        by_cases hd : d = ch%'='
        · subst hd
          rw [decodeLen_append_two] at h
          rw [alphabetPrefix_append_pad]
          have := hle s
          injection h with h
          omega
        · rw [decodeLen_append_one _ _ _ hd] at h
          have h2 : alphabetPrefix (s ++ [d, ch%'=']) = alphabetPrefix (s ++ [d]) := by
            rw [show s ++ [d, ch%'='] = (s ++ [d]) ++ ch%'=' :: [] by simp, alphabetPrefix_append_pad]
          rw [h2]
          have := hle (s ++ [d])
          simp at this
          injection h with h
          omega
    · rw [decodeLen_append _ _ _ hc] at h
      rw [hlen]
      have := hle (s ++ [c])
      simp at this
      injection h with h
      omega

/-- For encoder output the declared length is exact. -/
theorem decodeLen_encode (s : List UInt8) (before : Option UInt8) (hs : s ≠ []) :
    decodeLen before (encode s) = some ((s.length : Int) + 1) := by
  have hl := encode_length s
  obtain ⟨h1, h2, _⟩ := encode_split s
  have hpad : (3 - s.length % 3) % 3 = 0 ∨ (3 - s.length % 3) % 3 = 1 ∨ (3 - s.length % 3) % 3 = 2 := by omega
  have hpos : 0 < s.length := List.length_pos_iff.mpr hs
  have hne : ∀ c ∈ alphabetPrefix (encode s), c ≠ ch%'=' := by
    intro c hc h
    have := h1 c hc
    subst h
    revert this; decide
  generalize alphabetPrefix (encode s) = b at h2 hne
  have hb : b ≠ [] := by
    intro hb
    subst hb
    rw [h2] at hl
    simp at hl
    omega
  rcases List.eq_nil_or_concat b with rfl | ⟨b', c, rfl⟩
  · exact absurd rfl hb
  · rw [List.concat_eq_append] at *
    have hc : c ≠ ch%'=' := hne c (by simp)
    rw [h2] at hl ⊢
    rcases hpad with hp | hp | hp
    · rw [hp] at hl ⊢
      simp only [List.replicate_zero, List.append_nil] at hl ⊢
      rw [decodeLen_append _ _ _ hc]
      simp at hl
      congr 1
      omega
    · rw [hp] at hl ⊢
      simp only [List.replicate_one, List.append_assoc, List.cons_append, List.nil_append] at hl ⊢
      rw [decodeLen_append_one _ _ _ hc]
      simp at hl
      congr 1
      omega
    · rw [hp] at hl ⊢
      simp only [List.replicate_succ, List.replicate_zero] at hl ⊢
      rw [decodeLen_append_two]
      simp at hl
      congr 1
      simp only [List.length_append, List.length_cons, List.length_nil]
      omega

end Trax.Base64
