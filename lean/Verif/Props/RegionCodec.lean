import Verif.Lemmas.RegionText

/-!
# Property theorems C34–C38: the text form of regions

`Region.string` is `trax_region_encode`, `Region.parse` is `trax_region_decode` (with the return code
of `region_parse` and the number of stray writes). Coordinates are IEEE single precision numbers,
`Flt`; `Flt.value` is the rational number they stand for.
-/

namespace Trax
open Spec Region

/-! ## C34: special codes -/

/-- **C34, violated.** Codes go through single precision numbers: 16777217 comes back as 16777216,
and reading the largest code is undefined behaviour. -/
theorem C34_special_codes_false :
    string (.special 16777217) = .ok (some b!"16777217") ∧
    parse b!"16777217" = .ok ⟨1, some (.special 16777216), 0⟩ ∧
    string (.special 2147483647) = .ok (some b!"2147483647") ∧ parse b!"2147483647" = .ub := by
  decide +kernel

theorem parse_int (n : Int) (hn : InInt32 n) :
    parse (fmtInt n) = (readInt n).toInt.map fun c => ⟨1, some (.special c), 0⟩ := by
  have hfn : fmtInt n ≠ [] := by cases n <;> simp [fmtInt, natDigits_ne_nil]
  have hlt : n.natAbs < 2 ^ 53 := by
    have : (2 : Nat) ^ 53 = 9007199254740992 := by norm_num
    unfold InInt32 at hn; omega
  unfold parse
  rw [if_neg hfn, parsePrefix_plain _ (fun h => (fmtInt_sep n _ h).2 rfl)]
  simp only
  have hs := parseSequence_join (fmtInt n) _ [] [] (reads_int n hlt) .nil
  have ho := no_overrun (rest := commaTail []) hfn (fun h => (fmtInt_sep n _ h).1 rfl)
  rw [show commaTail [] = [] from rfl, List.append_nil] at hs ho
  rw [hs, ho]
  unfold ofSequence
  have : ([readInt n].any fun x => decide (x = .nan)) = false := by simp [readInt]
  rw [this]
  simp only [Bool.false_eq_true, if_false, List.length_cons, List.length_nil, Nat.zero_add, if_true]
  generalize (readInt n).toInt = o
  cases o <;> rfl

/-- **C34, what holds.** Exactly the codes that have at most 24 significant bits come back
unchanged; in particular all codes from −16777216 to 16777216. -/
theorem C34_special_codes_partial (code : Int) (hn : InInt32 code) :
    ∃ t, string (.special code) = .ok (some t) ∧
      (parse t = .ok ⟨1, some (.special code), 0⟩ ↔ ∃ a e : Nat, a < 2 ^ 24 ∧ code.natAbs = a * 2 ^ e) ∧
      (code.natAbs ≤ 2 ^ 24 → parse t = .ok ⟨1, some (.special code), 0⟩) := by
  have key : parse (fmtInt code) = .ok ⟨1, some (.special code), 0⟩ ↔ Rep 24 code.natAbs := by
    rw [parse_int code hn]
    constructor
    · intro h
      cases ho : (readInt code).toInt with
      | ok m =>
        rw [ho] at h
        simp [Outcome.map] at h
        exact (readInt_toInt_conv ho).2.2 h
      | abort => rw [ho] at h; cases h
      | ub => rw [ho] at h; cases h
    · intro h
      rw [readInt_toInt h hn]; rfl
  refine ⟨fmtInt code, rfl, ?_, fun h => key.mpr (rep24_of_le h)⟩
  rw [key]
  constructor
  · intro h
    by_cases h0 : code.natAbs = 0
    · exact ⟨0, 0, Nat.two_pow_pos _, by simp [h0]⟩
    · obtain ⟨a, ha⟩ := h
      refine ⟨a, code.natAbs.log2 + 1 - 24, ?_, by rw [Nat.mul_comm]; exact ha⟩
      have h1 : code.natAbs < 2 ^ (code.natAbs.log2 + 1) := Nat.lt_log2_self
      have h2 : 2 ^ (code.natAbs.log2 + 1) ≤ 2 ^ 24 * 2 ^ (code.natAbs.log2 + 1 - 24) := by
        rw [← pow_add]; exact Nat.pow_le_pow_right (by omega) (by omega)
      have h3 : a * 2 ^ (code.natAbs.log2 + 1 - 24) < 2 ^ 24 * 2 ^ (code.natAbs.log2 + 1 - 24) := by
        rw [Nat.mul_comm a, ← ha]; omega
      exact Nat.lt_of_mul_lt_mul_right h3
  · rintro ⟨a, e, ha, he⟩
    rw [he]
    exact (rep_of_lt ha).scale (Nat.le_refl _) e

example : InInt32 (-33554430) ∧ (∃ a e : Nat, a < 2 ^ 24 ∧ (-33554430 : Int).natAbs = a * 2 ^ e) :=
  ⟨by decide, 16777215, 1, by decide, by decide⟩

/-! ## C35: masks -/

/-- **C35, violated.** The text of a mask without foreground makes the decoder abort; a large offset is
changed; encoding a mask without pixels reads behind its data. -/
theorem C35_mask_false :
    string (.mask 0 0 2 1 [0, 0]) = .ok (some b!"mask:0,0,2,1") ∧ parse b!"mask:0,0,2,1" = .abort ∧
    string (.mask 16777217 0 1 1 [1]) = .ok (some b!"mask:16777217,0,1,1,0,1") ∧
    parse b!"mask:16777217,0,1,1,0,1" = .ok ⟨1, some (.mask 16777216 0 1 1 [1]), 0⟩ ∧
    string (.mask 0 0 0 3 []) = .ub := by
  decide +kernel

/-- **C35, what holds.** A mask with at least one foreground pixel, offsets up to 2^24 and at most 2^24
pixels is decoded with the same offset and size, and every pixel is foreground (1) or background (0)
as in the original. Missing: the cases of `C35_mask_false`, i.e. empty masks and larger numbers. -/
theorem C35_mask_partial (x y w h : Int) (data : List UInt8)
    (hx : x.natAbs ≤ 2 ^ 24) (hy : y.natAbs ≤ 2 ^ 24) (hw : 0 < w) (hh : 0 < h)
    (hlen : (data.length : Int) = w * h) (hsize : data.length ≤ 2 ^ 24) (hfg : ∃ p ∈ data, p ≠ 0) :
    ∃ t data', string (.mask x y w h data) = .ok (some t) ∧
      parse t = .ok ⟨1, some (.mask x y w h data'), 0⟩ ∧
      data'.length = data.length ∧
      ∀ (i : Nat) (h1 : i < data.length) (h2 : i < data'.length), data'[i] = if data[i] = 0 then 0 else 1 := by
  have hne : data ≠ [] := by rintro rfl; simp at hfg
  have h24 : (2 : Nat) ^ 24 = 16777216 := by norm_num
  refine ⟨_, data.map norm, string_mask x y w h data hlen hne (by unfold InInt32; omega),
    parse_mask x y w h data hx hy hw hh hlen hsize hfg, by simp, ?_⟩
  intro i h1 h2
  simp [norm]

example : (∃ p ∈ [0, 255, 0, 0, 7, 7], p ≠ (0 : UInt8)) ∧
    string (.mask (-3) 5 3 2 [0, 255, 0, 0, 7, 7]) = .ok (some b!"mask:-3,5,3,2,1,1,2,2") ∧
    parse b!"mask:-3,5,3,2,1,1,2,2" = .ok ⟨1, some (.mask (-3) 5 3 2 [0, 1, 0, 0, 1, 1]), 0⟩ := by
  decide +kernel

/-! ## C36: rectangles and polygons -/

/-- What happens to a coordinate: finite ones are written with four decimals and read again,
infinities are kept. -/
def Spec.CoordKept (x y : Flt) : Prop :=
  if x.IsFinite then
    WrittenAndRead (10 ^ 4) x y ∧ |y.value - x.value| ≤ 1 / 10 ^ 4 ∧ (∀ c : ℤ, x.value = c / 10 ^ 4 → y.value = x.value)
  else y = x

theorem coordKept (x : Flt) (hx : x.IsFloat) : CoordKept x (readCoord x) := by
  unfold CoordKept
  cases x with
  | nan => rw [if_neg (show ¬ Flt.IsFinite .nan from fun h => h)]; rfl
  | inf neg => rw [if_neg (show ¬ Flt.IsFinite (.inf neg) from fun h => h)]; rfl
  | fin neg m =>
    rw [if_pos (show Flt.IsFinite (.fin neg m) from trivial)]
    have hy := (read_decimal neg m (10 ^ 4) (by decide) (by decide) hx).2
    have hwr := writtenAndRead (10 ^ 4) (by decide) neg m hx hy
    have h10 : ((10 ^ 4 : Nat) : ℚ) = 10 ^ 4 := by norm_num
    refine ⟨hwr, ?_, ?_⟩
    · have := hwr.near (by decide) hx trivial
      rwa [h10] at this
    · intro c hc
      exact hwr.exact (by decide) hx trivial c (by rw [h10]; exact hc)

/-- **C36 (rectangles).** A rectangle without NaN is decoded as a rectangle, each coordinate being the
single precision number nearest to the four-decimal number nearest to the original. -/
theorem C36_rectangle (x y w h : Flt) (hf : ∀ c ∈ [x, y, w, h], c.IsFloat) (hn : ∀ c ∈ [x, y, w, h], c ≠ .nan) :
    ∃ t x' y' w' h', string (.rectangle x y w h) = .ok (some t) ∧
      parse t = .ok ⟨1, some (.rectangle x' y' w' h'), 0⟩ ∧
      CoordKept x x' ∧ CoordKept y y' ∧ CoordKept w w' ∧ CoordKept h h' := by
  obtain ⟨t, h1, h2⟩ := parse_rectangle x y w h hf hn
  exact ⟨t, _, _, _, _, h1, h2, coordKept x (hf x (by simp)), coordKept y (hf y (by simp)),
    coordKept w (hf w (by simp)), coordKept h (hf h (by simp))⟩

/-- **C36 (polygons).** The same for polygons (the library creates only polygons of at least three
points). -/
theorem C36_polygon (ps : List (Flt × Flt)) (h3 : 3 ≤ ps.length)
    (hf : ∀ p ∈ ps, p.1.IsFloat ∧ p.2.IsFloat) (hn : ∀ p ∈ ps, p.1 ≠ .nan ∧ p.2 ≠ .nan) :
    ∃ t ps', string (.polygon ps) = .ok (some t) ∧ parse t = .ok ⟨1, some (.polygon ps'), 0⟩ ∧
      List.Forall₂ (fun p p' => CoordKept p.1 p'.1 ∧ CoordKept p.2 p'.2) ps ps' := by
  obtain ⟨t, h1, h2⟩ := parse_polygon ps h3 hf hn
  refine ⟨t, _, h1, h2, ?_⟩
  clear h1 h2 h3
  induction ps with
  | nil => exact .nil
  | cons p ps ih =>
    exact .cons ⟨coordKept _ (hf p (by simp)).1, coordKept _ (hf p (by simp)).2⟩
      (ih (fun q hq => hf q (by simp [hq])) (fun q hq => hn q (by simp [hq])))

/-- 0.1, −12345.678 (rounded to single precision), the largest number and an infinity. -/
example : (∀ c ∈ [atofFloat b!"0.1", atofFloat b!"-12345.678", atofFloat b!"3.4028235e38", .inf true], c.IsFloat) ∧
    (∀ c ∈ [atofFloat b!"0.1", atofFloat b!"-12345.678", atofFloat b!"3.4028235e38", .inf true], c ≠ .nan) ∧
    string (.rectangle (atofFloat b!"0.1") (atofFloat b!"-12345.678") (.fin false 0) (.inf true)) =
      .ok (some b!"0.1000,-12345.6777,0.0000,-inf") := by
  decide +kernel

/-- The bound on the number of points is needed: two points are read as a rectangle. -/
example : parse b!"0.0000,0.0000,1.0000,1.0000" =
      .ok ⟨1, some (.rectangle (.fin false 0) (.fin false 0) (atofFloat b!"1") (atofFloat b!"1")), 0⟩ ∧
    string (.polygon [(.fin false 0, .fin false 0), (atofFloat b!"1", atofFloat b!"1")]) =
      .ok (some b!"0.0000,0.0000,1.0000,1.0000") := by
  decide +kernel

/-! ## C37: stability -/

/-- **C37, violated.** A rectangle with a NaN becomes a special region, and a large code changes. -/
theorem C37_stable_false :
    string (.rectangle .nan (.fin false 0) (.fin false 0) (.fin false 0)) = .ok (some b!"nan,0.0000,0.0000,0.0000") ∧
    parse b!"nan,0.0000,0.0000,0.0000" = .ok ⟨1, some (.special 0), 0⟩ ∧
    string (.special 0) = .ok (some b!"0") ∧
    parse b!"16777217" = .ok ⟨1, some (.special 16777216), 0⟩ ∧
    string (.special 16777216) = .ok (some b!"16777216") := by
  decide +kernel

theorem fmt_readCoord (x : Flt) (hx : x.IsFloat) : fmtFloat 4 (readCoord x) = fmtFloat 4 x := by
  cases x with
  | nan => rfl
  | inf neg => rfl
  | fin neg m =>
    have : decimalOf (10 ^ 4) (readBack (10 ^ 4) m) = decimalOf (10 ^ 4) m := decimalOf_readBack (by decide) hx.1
    unfold decimalOf at this
    unfold readCoord fmtFloat
    simp only [this]

/-- The regions for which re-encoding is stable. -/
def Spec.StableRegion : Region → Prop
  | .special code => InInt32 code ∧ ∃ a e : Nat, a < 2 ^ 24 ∧ code.natAbs = a * 2 ^ e
  | .rectangle x y w h => ∀ c ∈ [x, y, w, h], c.IsFloat ∧ c ≠ .nan
  | .polygon ps => 3 ≤ ps.length ∧ ∀ p ∈ ps, (p.1.IsFloat ∧ p.1 ≠ .nan) ∧ (p.2.IsFloat ∧ p.2 ≠ .nan)
  | .mask x y w h data => x.natAbs ≤ 2 ^ 24 ∧ y.natAbs ≤ 2 ^ 24 ∧ 0 < w ∧ 0 < h ∧
      (data.length : Int) = w * h ∧ data.length ≤ 2 ^ 24 ∧ ∃ p ∈ data, p ≠ 0

theorem fmtPoints_readCoord (ps : List (Flt × Flt)) (hf : ∀ p ∈ ps, p.1.IsFloat ∧ p.2.IsFloat) :
    fmtPoints (ps.map fun p => (readCoord p.1, readCoord p.2)) = fmtPoints ps := by
  induction ps with
  | nil => rfl
  | cons p ps ih =>
    have h1 := fmt_readCoord p.1 (hf p (by simp)).1
    have h2 := fmt_readCoord p.2 (hf p (by simp)).2
    have ih := ih fun q hq => hf q (by simp [hq])
    obtain ⟨px, py⟩ := p
    cases ps with
    | nil => simp only [List.map_cons, List.map_nil, fmtPoints]; rw [h1, h2]
    | cons q qs =>
      have step : ∀ (a b : Flt) (c : Flt × Flt) (l : List (Flt × Flt)), fmtPoints ((a, b) :: c :: l) =
          fmtFloat 4 a ++ [ch%','] ++ fmtFloat 4 b ++ [ch%','] ++ fmtPoints (c :: l) := fun a b c l => by
        rw [fmtPoints]; simp
      rw [List.map_cons] at ih
      rw [List.map_cons, List.map_cons, step, step, ih, h1, h2]

/-- **C37, what holds (1).** For every such region, encoding what was decoded gives the same text
again and a region of the same type, so any number of further hops changes nothing. -/
theorem C37_stable_partial (r : Region) (hr : StableRegion r) :
    ∃ t r', string r = .ok (some t) ∧ parse t = .ok ⟨1, some r', 0⟩ ∧ string r' = .ok (some t) ∧ r'.type = r.type := by
  cases r with
  | special code =>
    obtain ⟨t, h1, h2, _⟩ := C34_special_codes_partial code hr.1
    exact ⟨t, _, h1, h2.mpr hr.2, h1, rfl⟩
  | rectangle x y w h =>
    obtain ⟨t, h1, h2⟩ := parse_rectangle x y w h (fun c hc => (hr c hc).1) (fun c hc => (hr c hc).2)
    refine ⟨t, _, h1, h2, ?_, rfl⟩
    rw [← h1]
    unfold string
    simp only
    rw [fmt_readCoord x (hr x (by simp)).1, fmt_readCoord y (hr y (by simp)).1, fmt_readCoord w (hr w (by simp)).1,
      fmt_readCoord h (hr h (by simp)).1]
  | polygon ps =>
    obtain ⟨h3, hps⟩ := hr
    obtain ⟨t, h1, h2⟩ := parse_polygon ps h3 (fun p hp => ⟨(hps p hp).1.1, (hps p hp).2.1⟩)
      (fun p hp => ⟨(hps p hp).1.2, (hps p hp).2.2⟩)
    refine ⟨t, _, h1, h2, ?_, rfl⟩
    rw [← h1]
    unfold string
    simp only
    rw [fmtPoints_readCoord ps (fun p hp => ⟨(hps p hp).1.1, (hps p hp).2.1⟩)]
    have hne : ps ≠ [] := by rintro rfl; simp at h3
    simp [hne]
  | mask x y w h data =>
    obtain ⟨hx, hy, hw, hh, hlen, hsize, hfg⟩ := hr
    have hne : data ≠ [] := by rintro rfl; simp at hfg
    have h24 : (2 : Nat) ^ 24 = 16777216 := by norm_num
    have hr : InInt32 (w * h) := by unfold InInt32; omega
    refine ⟨_, _, string_mask x y w h data hlen hne hr, parse_mask x y w h data hx hy hw hh hlen hsize hfg, ?_, rfl⟩
    rw [string_mask x y w h (data.map norm) (by simpa using hlen) (by simpa using hne) hr, printedRuns_norm]

theorem mkFloat_isFloat (neg : Bool) (n d : Nat) (hd : 0 < d) : (mkFloat neg n d).IsFloat := by
  unfold mkFloat
  simp only
  split
  · trivial
  · exact ⟨fround_rep 24 n d (by omega) hd, by omega⟩

theorem toFloat_isFloat (x : Flt) : x.toFloat.IsFloat := by
  cases x with
  | nan => trivial
  | inf neg => trivial
  | fin neg m => exact mkFloat_isFloat _ _ _ (Nat.two_pow_pos _)

theorem parseSequence_isFloat (s : Str) : ∀ x ∈ parseSequence s, x.IsFloat := by
  have : ∀ s : Str, ∀ x ∈ seqTail s, x.IsFloat := by
    intro s
    induction s with
    | nil => simp [seqTail]
    | cons c t ih =>
      intro x hx
      rw [seqTail] at hx
      split at hx
      · rcases List.mem_cons.mp hx with h | h
        · rw [h]; exact toFloat_isFloat _
        · exact ih x h
      · exact ih x hx
  intro x hx
  unfold parseSequence at hx
  rcases List.mem_cons.mp hx with h | h
  · rw [h]; exact toFloat_isFloat _
  · exact this s x h

theorem toInt_rep {x : Flt} (hx : x.IsFloat) {n : Int} (h : x.toInt = .ok n) : InInt32 n ∧ Rep 24 n.natAbs := by
  cases x with
  | nan => cases h
  | inf neg => cases h
  | fin neg m =>
    unfold Flt.toInt at h
    simp only at h
    obtain ⟨c, hc⟩ : ∃ c, c = m / 2 ^ 149 := ⟨_, rfl⟩
    rw [← hc] at h
    obtain ⟨v, hv⟩ : ∃ v : Int, v = if neg then -(c : Int) else (c : Int) := ⟨_, rfl⟩
    rw [← hv] at h
    by_cases hr : InInt32 v
    · rw [if_pos hr] at h
      simp only [Outcome.ok.injEq] at h
      subst h
      refine ⟨hr, ?_⟩
      have : v.natAbs = c := by rw [hv]; split <;> omega
      rw [this, hc]
      by_cases hbig : 2 ^ 172 ≤ m
      · obtain ⟨k, hk⟩ := float_exact_large hx.1 hbig
        rw [hk, Nat.mul_div_cancel _ (Nat.two_pow_pos _)]
        have := hx.1
        rw [hk] at this
        exact Rep.unscale (p := 24) this
      · apply rep_of_lt
        rw [Nat.div_lt_iff_lt_mul (Nat.two_pow_pos _)]
        have h2 : (2 : Nat) ^ 172 ≤ 2 ^ 24 * 2 ^ 149 := by rw [← pow_add]; exact Nat.pow_le_pow_right (by omega) (by omega)
        omega
    · rw [if_neg hr] at h; cases h

theorem rep_form {n : Nat} (h : Rep 24 n) : ∃ a e : Nat, a < 2 ^ 24 ∧ n = a * 2 ^ e := by
  by_cases h0 : n = 0
  · exact ⟨0, 0, Nat.two_pow_pos _, by simp [h0]⟩
  · obtain ⟨a, ha⟩ := h
    refine ⟨a, n.log2 + 1 - 24, ?_, by rw [Nat.mul_comm]; exact ha⟩
    have h1 : n < 2 ^ (n.log2 + 1) := Nat.lt_log2_self
    have h2 : 2 ^ (n.log2 + 1) ≤ 2 ^ 24 * 2 ^ (n.log2 + 1 - 24) := by
      rw [← pow_add]; exact Nat.pow_le_pow_right (by omega) (by omega)
    have h3 : a * 2 ^ (n.log2 + 1 - 24) < 2 ^ 24 * 2 ^ (n.log2 + 1 - 24) := by
      rw [Nat.mul_comm a, ← ha]; omega
    exact Nat.lt_of_mul_lt_mul_right h3

theorem pairUp_mem (l : List Flt) : ∀ p ∈ pairUp l, p.1 ∈ l ∧ p.2 ∈ l := by
  induction l using pairUp.induct with
  | case1 x y t ih =>
    intro p hp
    rw [pairUp] at hp
    rcases List.mem_cons.mp hp with h | h
    · subst h; simp
    · have := ih p h; simp [this.1, this.2]
  | case2 l h => intro p hp; rw [pairUp] at hp; simp at hp; exact h

theorem pairUp_length (l : List Flt) : (pairUp l).length = l.length / 2 := by
  induction l using pairUp.induct with
  | case1 x y t ih => rw [pairUp, List.length_cons, ih]; simp only [List.length_cons]; omega
  | case2 l h =>
    rw [pairUp]
    · match l, h with
      | [], _ => rfl
      | [x], _ => simp
      | x :: y :: t, h => exact (h x y t rfl).elim
    · exact h

theorem toInt_bind_ok {β : Type} {x : Flt} {f : Int → Outcome β} {b : β} (h : x.toInt.bind f = .ok b) :
    ∃ n, x.toInt = .ok n ∧ f n = .ok b := by
  cases hx : x.toInt with
  | ok n => rw [hx] at h; exact ⟨n, rfl, h⟩
  | abort => rw [hx] at h; cases h
  | ub => rw [hx] at h; cases h

theorem ofSequence_stable {type : RegionType} {data : List Flt} (hd : ∀ x ∈ data, x.IsFloat) {r : Region}
    (h : ofSequence type data = .ok (some r)) (hm : r.type ≠ .mask) : StableRegion r := by
  have hsp : ∀ n : Int, InInt32 n → Rep 24 n.natAbs → StableRegion (.special n) := fun n h1 h2 => ⟨h1, rep_form h2⟩
  have hs0 : StableRegion (.special 0) := hsp 0 (by decide) (by simp [Rep])
  unfold ofSequence at h
  split at h
  · split at h
    · rename_i a b c d hd'
      split at h
      · simp at h; subst h; exact hs0
      · obtain ⟨n, h1, h2⟩ := toInt_bind_ok h
        have := toInt_rep (hd d (by simp)) h1
        split at h2
        · rename_i hr
          simp at h2; subst h2
          exact hsp _ hr (by simpa using this.2)
        · cases h2
    · simp at h; subst h; exact hs0
  · rename_i hnan
    have hnan' : ∀ x ∈ data, x ≠ .nan := by
      intro x hx hxn
      apply hnan
      rw [List.any_eq_true]
      exact ⟨x, hx, by simp [hxn]⟩
    simp only at h
    split at h
    · cases h
    · split at h
      · rename_i x _
        obtain ⟨n, h1, h2⟩ := toInt_bind_ok h
        simp at h2; subst h2
        have := toInt_rep (hd x (by simp)) h1
        exact hsp _ this.1 this.2
      · cases h
    · split at h
      · rename_i x y w hh
        simp at h; subst h
        exact fun c hc => ⟨hd c hc, hnan' c hc⟩
      · cases h
    · split at h
      · rename_i hl
        simp at h; subst h
        refine ⟨by rw [pairUp_length]; omega, fun p hp => ?_⟩
        have := pairUp_mem data p hp
        exact ⟨⟨hd _ this.1, hnan' _ this.1⟩, ⟨hd _ this.2, hnan' _ this.2⟩⟩
      · cases h
    · split at h
      · obtain ⟨_, _, h⟩ := toInt_bind_ok h
        obtain ⟨_, _, h⟩ := toInt_bind_ok h
        obtain ⟨_, _, h⟩ := toInt_bind_ok h
        obtain ⟨_, _, h⟩ := toInt_bind_ok h
        exfalso
        unfold mul32 at h
        split at h
        · rw [Outcome.bind_ok] at h
          unfold Outcome.map Outcome.bind at h
          split at h
          · simp at h; subst h; exact hm rfl
          · cases h
          · cases h
        · cases h
      · cases h

/-- **C37, what holds (2).** After one hop nothing changes any more: whatever text `s` a special region,
rectangle or polygon was decoded from, its own text is decoded to a region with the same text and type. -/
theorem C37_second_hop (s : Str) (r : Region) (n o : Nat) (hp : parse s = .ok ⟨n, some r, o⟩) (hm : r.type ≠ .mask) :
    ∃ t r', string r = .ok (some t) ∧ parse t = .ok ⟨1, some r', 0⟩ ∧ string r' = .ok (some t) ∧ r'.type = r.type := by
  apply C37_stable_partial
  unfold parse at hp
  split at hp
  · simp at hp
  · simp only at hp
    unfold Outcome.map Outcome.bind at hp
    split at hp
    · rename_i r' hr'
      simp at hp
      obtain ⟨_, rfl, _⟩ := hp
      exact ofSequence_stable (parseSequence_isFloat _) hr' hm
    · cases hp
    · cases hp

example : parse b!"1e3, 2.00004,-0,7.5,1,1" = .ok ⟨1, some (.polygon
    [(atofFloat b!"1000", atofFloat b!"2.00004"), (.fin true 0, atofFloat b!"7.5"), (atofFloat b!"1", atofFloat b!"1")]), 0⟩ ∧
    string (.polygon [(atofFloat b!"1000", atofFloat b!"2.00004"), (.fin true 0, atofFloat b!"7.5"), (atofFloat b!"1", atofFloat b!"1")])
      = .ok (some b!"1000.0000,2.0000,-0.0000,7.5000,1.0000,1.0000") := by
  decide +kernel

/-! ## C38: safety -/

/-- **C38, violated.** A text of commas makes the parser write behind its block; a wrong number of
values or a scheme of one letter aborts the process; a value outside the range of `int` is undefined
behaviour; and the empty text is reported as a success without a region. -/
theorem C38_parse_safe_false :
    parse b!",,," = .ok ⟨1, some (.rectangle (.fin false 0) (.fin false 0) (.fin false 0) (.fin false 0)), 1⟩ ∧
    parse b!"rect:1" = .abort ∧ parse b!"a:1" = .abort ∧ parse b!"mask:0,0,2,2" = .abort ∧
    parse b!"10000000000" = .ub ∧ parse b!"mask:0,0,99999,99999,1" = .ub ∧
    parse [] = .ok ⟨1, none, 0⟩ := by
  decide +kernel

/-- **C38, what holds (1).** For every text but the empty one: if the parser returns, the return value
tells whether there is a region, and the stray write happens exactly when the text behind the scheme
consists of commas only, and then it is one number. -/
theorem C38_return_partial (s : Str) (hs : s ≠ []) (p : Parsed) (h : parse s = .ok p) :
    p.ret = (if p.region.isSome then 1 else 0) ∧
    (OnlyCommas s → p.overrun = 1) ∧ (¬ OnlyCommas s → p.overrun = 0) := by
  unfold parse at h
  rw [if_neg hs] at h
  simp only at h
  unfold Outcome.map Outcome.bind at h
  split at h
  · simp at h; subst h
    refine ⟨rfl, fun hs => ?_, fun hs => ?_⟩
    · exact (sequenceOverrun_eq _).trans (if_pos ((onlyCommas_iff s).mp hs))
    · exact (sequenceOverrun_eq _).trans (if_neg fun h => hs ((onlyCommas_iff s).mpr h))
  · cases h
  · cases h

/-- **C38, what holds (2).** A text without a colon (hence without a type prefix) that has anything but
commas in it and whose numbers, read by `atof` at the start and behind each comma, are below 2^31 in absolute value is parsed without an abort, undefined
behaviour or stray write. Missing: texts with a prefix, and large numbers, see
`C38_parse_safe_false`. -/
theorem C38_parse_safe_partial (s : Str) (hc : ch%':' ∉ s) (hcomma : ∃ c ∈ s, c ≠ ch%',')
    (hnum : ∀ rest, NumberAt s rest → ∀ neg mag, atofFloat rest = .fin neg mag → mag < 2 ^ 31 * 2 ^ 149)
    (hinf : ∀ rest, NumberAt s rest → ∀ neg, atofFloat rest ≠ .inf neg) :
    ∃ r, parse s = .ok ⟨if r.isSome then 1 else 0, r, 0⟩ := by
  replace hnum : ∀ x ∈ parseSequence s, ∀ neg mag, x = .fin neg mag → mag < 2 ^ 31 * 2 ^ 149 := by
    intro x hx neg mag h
    obtain ⟨rest, h1, rfl⟩ := mem_parseSequence hx
    exact hnum rest h1 neg mag h
  replace hinf : ∀ x ∈ parseSequence s, ∀ neg, x ≠ .inf neg := by
    intro x hx neg
    obtain ⟨rest, h1, rfl⟩ := mem_parseSequence hx
    exact hinf rest h1 neg
  have hs : s ≠ [] := by rintro rfl; simp at hcomma
  have hover : sequenceOverrun s = 0 := by
    rw [sequenceOverrun_eq, if_neg]
    intro h
    obtain ⟨c, hcm, hne⟩ := hcomma
    exact hne (h c hcm)
  have hint : ∀ x ∈ parseSequence s, x ≠ .nan → ∃ n, x.toInt = .ok n ∧ InInt32 (-n) := by
    intro x hx hnan
    cases x with
    | nan => contradiction
    | inf neg => exact (hinf _ hx neg rfl).elim
    | fin neg m =>
      have hm := hnum _ hx neg m rfl
      have hlt : m / 2 ^ 149 < 2147483648 := by
        rw [Nat.div_lt_iff_lt_mul (Nat.two_pow_pos _)]
        have : (2 : Nat) ^ 31 = 2147483648 := by norm_num
        rw [this] at hm
        exact hm
      unfold Flt.toInt
      simp only
      obtain ⟨c, hc⟩ : ∃ c, c = m / 2 ^ 149 := ⟨_, rfl⟩
      rw [← hc] at hlt ⊢
      refine ⟨if neg then -(c : Int) else (c : Int), ?_, ?_⟩
      · rw [if_pos]
        unfold InInt32; split <;> omega
      · unfold InInt32; split <;> omega
  have hne : parseSequence s ≠ [] := by unfold parseSequence; simp
  have key : ∃ r, ofSequence .empty (parseSequence s) = .ok r := by
    generalize parseSequence s = data at *
    unfold ofSequence
    split
    · split
      · rename_i a b c d _
        split
        · exact ⟨_, rfl⟩
        · rename_i hd
          obtain ⟨n, h1, h2⟩ := hint d (by simp) hd
          rw [h1]
          simp only [Outcome.bind_ok, h2, if_true]
          exact ⟨_, rfl⟩
      · exact ⟨_, rfl⟩
    · rename_i hany
      have hnan : ∀ x ∈ data, x ≠ .nan := by
        intro x hx hxn
        apply hany
        rw [List.any_eq_true]
        exact ⟨x, hx, by simp [hxn]⟩
      simp only [if_true]
      match data, hne, hint, hnan with
      | [x], _, hint, hnan =>
        obtain ⟨n, h1, _⟩ := hint x (by simp) (hnan x (by simp))
        refine ⟨some (.special n), ?_⟩
        simp [h1, Outcome.map]
      | [x, y], _, _, _ => exact ⟨none, rfl⟩
      | [x, y, z], _, _, _ => exact ⟨none, rfl⟩
      | [x, y, z, w], _, _, _ => exact ⟨_, rfl⟩
      | x :: y :: z :: w :: v :: t, _, _, _ =>
        have h1 : ¬ ((x :: y :: z :: w :: v :: t).length = 1) := by simp
        have h4 : ¬ ((x :: y :: z :: w :: v :: t).length = 4) := by simp
        rw [if_neg h1, if_neg h4]
        by_cases h6 : 6 ≤ (x :: y :: z :: w :: v :: t).length ∧ (x :: y :: z :: w :: v :: t).length % 2 = 0
        · rw [if_pos h6]; simp only; rw [if_pos h6]; exact ⟨_, rfl⟩
        · rw [if_neg h6]; exact ⟨_, rfl⟩
  obtain ⟨r, hr⟩ := key
  refine ⟨r, ?_⟩
  unfold parse
  rw [if_neg hs, parsePrefix_plain _ hc]
  simp only
  rw [hr, hover]
  rfl

example : let s := b!"12.5,x,-3,1e9,,7"
    ch%':' ∉ s ∧ (∃ c ∈ s, c ≠ ch%',') ∧
    (∀ rest, NumberAt s rest → ∀ neg mag, atofFloat rest = .fin neg mag → mag < 2 ^ 31 * 2 ^ 149) ∧
    (∀ rest, NumberAt s rest → ∀ neg, atofFloat rest ≠ .inf neg) := by
  have h : (parseSequence b!"12.5,x,-3,1e9,,7").all
      (fun x => match x with | .fin _ m => decide (m < 2 ^ 31 * 2 ^ 149) | _ => false) = true := by decide +kernel
  rw [List.all_eq_true] at h
  refine ⟨by decide, by decide, fun rest hr neg mag e => ?_, fun rest hr neg e => ?_⟩
  · have := h _ (numberAt_mem hr)
    rw [e] at this
    exact of_decide_eq_true this
  · have := h _ (numberAt_mem hr)
    rw [e] at this
    cases this

example : OnlyCommas b!"abc:,," ∧ ¬ OnlyCommas b!"1,2" :=
  ⟨⟨b!"abc:", b!",,", rfl, by decide, Or.inr ⟨b!"abc", rfl, by decide, by decide⟩⟩, fun h => by
    have := (onlyCommas_iff _).mp h; revert this; decide⟩

end Trax
