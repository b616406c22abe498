import Verif.Lemmas.FloatValue
import Verif.Lemmas.MessageOps
import Verif.Model.NumText
import Verif.Props.Message

/-!
# Property theorems C20, C21, C71: numbers in properties
-/

namespace Trax
open Spec

/-! ## C20 -/

theorem fmtInt_ne_nil (n : Int) : fmtInt n ≠ [] := by
  cases n <;> simp [fmtInt, natDigits_ne_nil]

theorem fmtInt_plain (n : Int) : Plain (fmtInt n) := by
  intro c hc
  rcases fmtInt_chars n c hc with h | h
  · exact ⟨(isDigit_facts h).1, (isDigit_facts h).2.1⟩
  · subst h; decide

theorem plain_noNul {s : Str} (h : Plain s) : NoNul s := fun c hc => (h c hc).1

theorem strtod_fmtInt (n : Int) (h : InInt32 n) :
    strtod (fmtInt n) = (.fin (decide (n < 0)) (n.natAbs * 2 ^ 1074), some []) := by
  have h1 := strtodNum_fmtInt n [] (Or.inl rfl)
  rw [List.append_nil] at h1
  unfold strtod
  rw [h1]
  have hlt : n.natAbs < 2 ^ 53 := by
    unfold InInt32 at h
    have : (2 : Nat) ^ 53 = 9007199254740992 := by norm_num
    omega
  simp only [read_int_double _ _ (rep_of_lt hlt) hlt]

theorem doubleToInt_int (n : Int) (h : InInt32 n) :
    (Flt.fin (decide (n < 0)) (n.natAbs * 2 ^ 1074)).doubleToInt = .ok n := by
  unfold Flt.doubleToInt
  simp only [Nat.mul_div_cancel _ (Nat.two_pow_pos 1074)]
  have : (if decide (n < 0) = true then -(n.natAbs : Int) else (n.natAbs : Int)) = n := by
    split
    · rename_i h0; have := of_decide_eq_true h0; omega
    · rename_i h0
      have : ¬ n < 0 := fun hlt => h0 (decide_eq_true hlt)
      omega
  rw [this, if_pos h]

theorem getInt_of_get {p : Properties} {k : Str} {n : Int} (hg : p.get k = some (fmtInt n)) (h : InInt32 n)
    (dflt : Int) : p.getInt k dflt = .ok n := by
  unfold Properties.getInt
  rw [hg]
  simp only [fmtInt_ne_nil, if_false, strtod_fmtInt n h, doubleToInt_int n h, if_true]
  rfl

/-- **C20.** An integer property reads back as the same integer: at once, … -/
theorem C20_int_round_trip (kvs : List (Str × Str)) (k : Str) (n : Int) (h : InInt32 n) (dflt : Int) :
    ((Properties.ofPairs kvs).setInt k n).getInt k dflt = .ok n := by
  apply getInt_of_get _ h
  unfold Properties.setInt
  rw [Properties.get_set (Properties.wf_ofPairs _), if_pos rfl, cstr_of_noNul (plain_noNul (fmtInt_plain n))]

/-- **C20 (over the wire).** … and also after the properties were sent in a message, for any way
the transport cuts the writes and the reads. -/
theorem C20_int_round_trip_sent (kvs : List (Str × Str)) (k : Str) (n : Int) (h : InInt32 n) (dflt : Int)
    (t : MsgType) (args : List Str) (hd : Deliverable args kvs) (hk : ValidKey k)
    (script : List WriteRes) (hscript : .fail ∉ script) (mt : Option MsgType)
    (input : ChunkIn) (rest : List InEv)
    (hin : input.events =
      bytes ((⟨script, false, [], []⟩ : Writer).writeMessage t args ((Properties.ofPairs kvs).setInt k n)).sent ++ rest) :
    (readMessageChunked mt Properties.create input).props.getInt k dflt = .ok n := by
  have e : (Properties.ofPairs kvs).setInt k n = Properties.ofPairs (kvs ++ [(k, fmtInt n)]) := by
    simp [Properties.setInt, Properties.ofPairs]
  have hd' : Deliverable args (kvs ++ [(k, fmtInt n)]) :=
    ⟨hd.args_plain, hd.args_clear,
      by intro kv hkv; rcases List.mem_append.mp hkv with h | h
         · exact hd.keys_valid kv h
         · simp at h; subst h; exact hk,
      by intro kv hkv; rcases List.mem_append.mp hkv with h | h
         · exact hd.values_plain kv h
         · simp at h; subst h; exact fmtInt_plain n⟩
  have := C01_round_trip ⟨t, args, kvs ++ [(k, fmtInt n)]⟩ hd' script hscript mt input rest (e ▸ hin)
  rw [this.2.2.1, ← e]
  exact C20_int_round_trip kvs k n h dflt

example : ((Properties.ofPairs [(b!"a", b!"7")]).setInt b!"time" (-2147483648)).getInt b!"time" 5 = .ok (-2147483648) ∧
    InInt32 (-2147483648) ∧ Deliverable [b!"x"] [(b!"a", b!"7")] := by
  refine ⟨by decide +kernel, by decide, ⟨by decide, ?_, by decide, by decide⟩⟩
  intro a ha
  simp at ha
  subst ha
  rintro ⟨k, v, h, _⟩
  have := congrArg List.length h
  match k, v with
  | [], [] => simp at h
  | [], _ :: _ => simp at this
  | _ :: _, _ => simp at this

/-! ## C21 -/

/-- **C21, violated.** For an empty text, and for a number outside the range of `int`, the result
of `trax_properties_get_int` is undefined; for an empty text also that of `trax_properties_get_float`. -/
theorem C21_default_false :
    (Properties.create.set b!"a" []).getInt b!"a" 3 = .ub ∧
    (Properties.create.set b!"a" b!"10000000000").getInt b!"a" 3 = .ub ∧
    (Properties.create.set b!"a" b!"nanometer").getInt b!"a" 3 = .ub ∧
    (Properties.create.set b!"a" []).getFloat b!"a" (.fin false 0) = .ub := by
  decide +kernel

/-- Text that begins like a number (after blanks and a sign). -/
def Spec.BeginsLikeNumber (s : Str) : Prop :=
  ∃ c, (splitSign (s.dropWhile isSpace)).2.head? = some c ∧
    (isDigit c = true ∨ c ∈ b!".iInN")

theorem lower_head : ∀ c : UInt8, (toLower c = 105 → c ∈ b!".iInN") ∧ (toLower c = 110 → c ∈ b!".iInN") ∧
    (toLower c = 48 → isDigit c = true) := by
  apply forall_byte'; decide +kernel

theorem strtodNum_none {s : Str} (h : ¬ BeginsLikeNumber s) : strtodNum s = none := by
  unfold BeginsLikeNumber at h
  unfold strtodNum
  generalize splitSign (s.dropWhile isSpace) = st at *
  obtain ⟨neg, t⟩ := st
  simp only at h ⊢
  cases t with
  | nil => decide +revert
  | cons c u =>
    have hc : ¬ (isDigit c = true ∨ c ∈ b!".iInN") := fun hh => h ⟨c, rfl, hh⟩
    rw [not_or] at hc
    obtain ⟨hd, hm⟩ := hc
    obtain ⟨l1, l2, l3⟩ := lower_head c
    have ninf : eqNoCase ((c :: u).take 3) b!"inf" = false := by
      have : toLower c ≠ 105 := fun hh => hm (l1 hh)
      simp [eqNoCase, show toLower 105 = 105 by decide, this]
    have nnan : eqNoCase ((c :: u).take 3) b!"nan" = false := by
      have : toLower c ≠ 110 := fun hh => hm (l2 hh)
      simp [eqNoCase, show toLower 110 = 110 by decide, this]
    have nx : eqNoCase ((c :: u).take 2) b!"0x" = false := by
      have : toLower c ≠ 48 := fun hh => hd (l3 hh)
      simp [eqNoCase, show toLower 48 = 48 by decide, this]
    have hdot : c ≠ ch%'.' := fun hh => hm (by rw [hh]; decide)
    have hsplit : splitMantissa isDigit (c :: u) = ([], [], c :: u) := by
      simp [splitMantissa, hd, hdot]
    simp only [ninf, nnan, nx, hsplit, Bool.false_eq_true, if_false, false_and]
    simp

/-- **C21, what holds (1).** A missing key, or a text that does not even begin like a number, gives the
default. -/
theorem C21_default_partial (p : Properties) (k : Str) (dflt : Int) (fdflt : Flt)
    (h : p.get k = none ∨ ∃ v, p.get k = some v ∧ v ≠ [] ∧ ¬ BeginsLikeNumber v) :
    p.getInt k dflt = .ok dflt ∧ p.getFloat k fdflt = .ok fdflt := by
  unfold Properties.getInt Properties.getFloat
  rcases h with h | ⟨v, h, hne, hb⟩
  · rw [h]; exact ⟨rfl, rfl⟩
  · rw [h]
    have : strtod v = (.fin false 0, none) := by unfold strtod; rw [strtodNum_none hb]
    simp only [hne, if_false, this]
    refine ⟨?_, by simp⟩
    have : (Flt.fin false 0).doubleToInt = .ok 0 := by decide +kernel
    rw [this]
    simp [Outcome.map]

/-- The texts of (signed) integers and decimal fractions. -/
def Spec.decimalText (neg : Bool) (ip : Str) (frac : Option Str) : Str :=
  (if neg then b!"-" else []) ++ ip ++ (match frac with | none => [] | some fp => b!"." ++ fp)

/-- The number of steps of `10^-k` that the digits stand for, `k` being the number of decimals. -/
def Spec.decimalSteps (ip : Str) (frac : Option Str) : Nat := digitsValue (ip ++ frac.getD [])

theorem strtodNum_decimalText (neg : Bool) (ip : Str) (frac : Option Str) (hip : ip ≠ [])
    (hd : ∀ c ∈ ip ++ frac.getD [], isDigit c = true) (rest : Str) (hr : AtSep rest) :
    strtodNum (decimalText neg ip frac ++ rest) =
      some (neg, .fin (decimalSteps ip frac) (10 ^ (frac.getD []).length), rest) := by
  have h1 : ∀ c ∈ ip, isDigit c = true := fun c hc => hd c (by simp [hc])
  cases frac with
  | none =>
    have := strtodNum_digits neg ip rest h1 hip hr
    simpa [decimalText, decimalSteps] using this
  | some fp =>
    have h2 : ∀ c ∈ fp, isDigit c = true := fun c hc => hd c (by simp [hc])
    have := strtodNum_frac neg ip fp rest h1 hip h2 hr
    simp only [decimalText, decimalSteps, Option.getD_some]
    rw [List.append_assoc, List.append_assoc, List.append_assoc, this]
    cases hl : fp.length with
    | zero => simp [scaled]
    | succ w =>
      have : (0 : Int) - ((w + 1 : Nat) : Int) = Int.negSucc w := by omega
      rw [this, scaled]

/-- **C21, what holds (2).** For a decimal number, `get_int` gives the whole part of the double
precision number nearest to it (the text `n/10^k` is a rational number; it is exact for integers, see
C20), and `get_float` that number as a `float`. Trailing characters after it give the default.
Missing from the full claim: the cases of `C21_default_false`, and numbers with an exponent,
hexadecimal numbers, infinities and NaN, which are read as C's `strtod` reads them (model `strtod`)
but not stated separately. -/
theorem C21_decimal_partial (p : Properties) (k : Str) (dflt : Int) (fdflt : Flt)
    (neg : Bool) (ip : Str) (frac : Option Str) (rest : Str) (hip : ip ≠ [])
    (hd : ∀ c ∈ ip ++ frac.getD [], isDigit c = true) (hr : AtSep rest)
    (hg : p.get k = some (decimalText neg ip frac ++ rest)) :
    let m := fround 53 (decimalSteps ip frac * 2 ^ 1074) (10 ^ (frac.getD []).length)
    let whole : Int := ((m / 2 ^ 1074 : Nat) : Int)
    m < 2 ^ 2098 →
    (InInt32 (if neg then -whole else whole) →
      p.getInt k dflt = .ok (if rest = [] then (if neg then -whole else whole) else dflt)) ∧
    p.getFloat k fdflt = .ok (if rest = [] then (Flt.fin neg m).toFloat else fdflt) := by
  intro m whole hm
  have hs : strtod (decimalText neg ip frac ++ rest) = (.fin neg m, some rest) := by
    unfold strtod
    rw [strtodNum_decimalText neg ip frac hip hd rest hr]
    simp only [Num.toDouble, mkDouble]
    rw [if_neg (by omega)]
  have hne : decimalText neg ip frac ++ rest ≠ [] := by
    unfold decimalText; simp [hip]
  unfold Properties.getInt Properties.getFloat
  rw [hg]
  simp only [hne, if_false, hs, Option.some.injEq, and_true]
  intro hrange
  have : (Flt.fin neg m).doubleToInt = .ok (if neg then -whole else whole) := by
    show (if InInt32 (if neg then -whole else whole) then _ else _) = _
    rw [if_pos hrange]
  rw [this]; rfl

example : decimalText true b!"12" (some b!"75") = b!"-12.75" ∧
    (Properties.create.set b!"a" b!"-12.75").getInt b!"a" 3 = .ok (-12) ∧
    (Properties.create.set b!"a" b!"-12.75,1").getInt b!"a" 3 = .ok 3 ∧
    (Properties.create.set b!"a" b!"left").getInt b!"a" 3 = .ok 3 := by decide +kernel

/-! ## C71: float properties -/

theorem fmtFloat_noNul (w : Nat) (x : Flt) : NoNul (fmtFloat w x) := by
  cases x with
  | nan => show NoNul b!"nan"; decide
  | inf neg => show NoNul (if neg then b!"-inf" else b!"inf"); cases neg <;> decide
  | fin neg m =>
    unfold fmtFloat
    simp only
    intro c hc
    simp only [List.mem_append] at hc
    rcases hc with ((h | h) | h) | h
    · cases neg <;> simp at h; subst h; decide
    · exact (isDigit_facts (natDigits_digits _ c h)).1
    · simp at h; subst h; decide
    · unfold padDigits at h
      rcases List.mem_append.mp h with h | h
      · rw [List.eq_of_mem_replicate h]; decide
      · exact (isDigit_facts (natDigits_digits _ c h)).1

/-- **C71.** A finite `float` set as a property is read back as the single precision number nearest
to its text with six decimals; so it is within 10⁻⁶ of the original, and a value with at most six
decimals comes back exactly (as a number). Setting what was read gives the same text again. -/
theorem C71_float_round_trip (kvs : List (Str × Str)) (k : Str) (x : Flt) (hx : x.IsFloat) (hf : x.IsFinite)
    (dflt : Flt) :
    ∃ y, ((Properties.ofPairs kvs).setFloat k x).getFloat k dflt = .ok y ∧
      WrittenAndRead (10 ^ 6) x y ∧ |y.value - x.value| ≤ 1 / 10 ^ 6 ∧
      (∀ c : ℤ, x.value = c / 10 ^ 6 → y.value = x.value) ∧
      (Properties.ofPairs kvs).setFloat k y = (Properties.ofPairs kvs).setFloat k x := by
  match x, hf with
  | .fin neg m, _ =>
    have h6 : 10 ^ 6 ≤ 2 ^ 28 := by decide
    obtain ⟨hr, hy⟩ := read_decimal neg m (10 ^ 6) (by decide) h6 hx
    have hwr := writtenAndRead (10 ^ 6) (by decide) neg m hx hy
    have h10 : ((10 ^ 6 : Nat) : ℚ) = 10 ^ 6 := by norm_num
    refine ⟨.fin neg (readBack (10 ^ 6) m), ?_, hwr, ?_, ?_, ?_⟩
    · have hg : ((Properties.ofPairs kvs).setFloat k (.fin neg m)).get k = some (fmtFloat 6 (.fin neg m)) := by
        unfold Properties.setFloat
        rw [Properties.get_set (Properties.wf_ofPairs _), if_pos rfl, cstr_of_noNul (fmtFloat_noNul _ _)]
      have hs := strtodNum_fmtFloat 5 neg m [] (Or.inl rfl)
      rw [List.append_nil] at hs
      have hne : fmtFloat 6 (.fin neg m) ≠ [] := by
        unfold fmtFloat; simp
      unfold Properties.getFloat
      rw [hg]
      simp only [hne, if_false]
      unfold strtod
      rw [hs]
      simp only [if_true]
      have : ((Num.fin (rhe (m * 10 ^ (5 + 1)) (2 ^ 149)) (10 ^ (5 + 1))).toDouble neg).toFloat = _ := hr
      rw [this]
    · have := hwr.near (by decide) hx trivial
      rwa [h10] at this
    · intro c hc
      exact hwr.exact (by decide) hx trivial c (by rw [h10]; exact hc)
    · unfold Properties.setFloat fmtFloat
      have : decimalOf (10 ^ 6) (readBack (10 ^ 6) m) = decimalOf (10 ^ 6) m := decimalOf_readBack (by decide) hx.1
      unfold decimalOf at this
      simp only [this]

/-- 0.1 as a `float` is a finite single precision number. -/
example : (atofFloat b!"0.1").IsFloat ∧ (atofFloat b!"0.1").IsFinite ∧
    fmtFloat 6 (atofFloat b!"0.1") = b!"0.100000" := by decide +kernel

/-- **C71 (buffer).** The text of every number, with its terminating NUL, fits the buffers of 128
characters of `trax_properties_set_int` and `trax_properties_set_float`. -/
theorem C71_text_fits (n : Int) (hn : InInt32 n) (x : Flt) (hx : x.IsFloat) :
    (fmtInt n).length + 1 ≤ 128 ∧ (fmtFloat 6 x).length + 1 ≤ 128 := by
  have hd : ∀ m : Nat, m < 10 ^ 39 → (natDigits m).length ≤ 39 := fun m hm => digitsAux_length _ m 38 hm
  constructor
  · cases n with
    | ofNat m =>
      have := hd m (by unfold InInt32 at hn; simp only [Int.ofNat_eq_natCast] at hn; omega)
      simp [fmtInt]; omega
    | negSucc m =>
      have := hd (m + 1) (by unfold InInt32 at hn; omega)
      simp [fmtInt]; omega
  · cases x with
    | nan => decide
    | inf neg => cases neg <;> decide
    | fin neg m =>
      unfold fmtFloat
      simp only
      have hN : rhe (m * 10 ^ 6) (2 ^ 149) / 10 ^ 6 < 10 ^ 39 := by
        obtain ⟨a1, -, -, -⟩ := rhe_spec (m * 10 ^ 6) (2 ^ 149) (Nat.two_pow_pos _)
        generalize rhe (m * 10 ^ 6) (2 ^ 149) = N at *
        have hm := hx.2
        have h277 : (2 : Nat) ^ 277 = 2 ^ 128 * 2 ^ 149 := by decide +kernel
        have h128 : (2 : Nat) ^ 128 < 10 ^ 39 := by norm_num
        rw [h277] at hm
        rw [Nat.div_lt_iff_lt_mul (by decide)]
        by_contra hge
        have h1 : 10 ^ 39 * 10 ^ 6 * 2 ^ 149 ≤ N * 2 ^ 149 := Nat.mul_le_mul_right _ (by omega)
        omega
      have h1 := hd _ hN
      have h2 := (padDigits_spec 5 (rhe (m * 10 ^ 6) (2 ^ 149) % 10 ^ 6) (Nat.mod_lt _ (by decide))).1
      simp only [List.length_append]
      have h3 : (if neg = true then b!"-" else []).length ≤ 1 := by cases neg <;> decide
      have h4 : (b!".").length = 1 := rfl
      have h2' : (padDigits 6 (rhe (m * 10 ^ 6) (2 ^ 149) % 10 ^ 6)).length = 6 := h2
      rw [h2', h4]
      omega

end Trax
