import Verif.Lemmas.RectRaster

/-!
# Lemmas about the overlap of regions
-/

namespace Trax
open Region

/-! ## Numbers that are equal up to the sign of a zero -/

namespace Flt

/-- Equal, or both zero. -/
def Same (x y : Flt) : Prop := x = y ∨ ∃ s t, x = .fin s 0 ∧ y = .fin t 0

theorem Same.refl (x : Flt) : Same x x := .inl rfl
theorem Same.symm {x y : Flt} (h : Same x y) : Same y x := by
  rcases h with h | ⟨s, t, h1, h2⟩
  · exact .inl h.symm
  · exact .inr ⟨t, s, h2, h1⟩

theorem signed_zero (s : Bool) : signed s 0 = 0 := by cases s <;> rfl

theorem signed_eq {s t : Bool} {m n : Nat} (h : signed s m = signed t n) : Same (.fin s m) (.fin t n) := by
  have h1 := signed_natAbs s m
  have h2 := signed_natAbs t n
  have hmn : m = n := by rw [← h1, ← h2, h]
  subst hmn
  by_cases h0 : m = 0
  · subst h0; exact .inr ⟨s, t, rfl, rfl⟩
  · left
    congr 1
    cases s <;> cases t <;> simp [signed] at h ⊢ <;> omega

theorem mkFloat_zero (neg : Bool) (d : Nat) (hd : 0 < d) : mkFloat neg 0 d = .fin neg 0 := by
  obtain ⟨h1, h2, _⟩ := mkFloat_le (neg := neg) (n := 0) (d := d) (z := 0) hd (by decide) (by omega)
  rw [h1, Nat.le_zero.mp h2]

theorem addF_zero_left (s t : Bool) (y : Flt) : Same ((Flt.fin s 0).addF y) ((Flt.fin t 0).addF y) := by
  cases y with
  | nan => exact .inl rfl
  | inf u => exact .inl rfl
  | fin u n =>
    unfold addF addWith
    simp only [signed_zero, zero_add]
    by_cases h : signed u n = 0
    · rw [if_pos h, if_pos h]; exact .inr ⟨_, _, rfl, rfl⟩
    · rw [if_neg h, if_neg h]; exact .inl rfl

theorem addF_comm (a b : Flt) : a.addF b = b.addF a := by
  unfold addF addWith
  cases a with
  | nan => cases b <;> rfl
  | inf s =>
    cases b with
    | nan => rfl
    | inf t =>
      simp only
      by_cases h : s = t
      · subst h; rfl
      · rw [if_neg h, if_neg (fun he => h he.symm)]
    | fin t n => rfl
  | fin s m =>
    cases b with
    | nan => rfl
    | inf t => rfl
    | fin t n => simp only [add_comm (signed s m), Bool.and_comm s]

theorem neg_same {a a' : Flt} (h : Same a a') : Same a.neg a'.neg := by
  rcases h with rfl | ⟨s, t, rfl, rfl⟩
  · exact .refl _
  · exact .inr ⟨_, _, rfl, rfl⟩

theorem Same.trans {a b c : Flt} (h1 : Same a b) (h2 : Same b c) : Same a c := by
  rcases h1 with rfl | ⟨s, t, rfl, rfl⟩
  · exact h2
  · rcases h2 with rfl | ⟨u, v, h, rfl⟩
    · exact .inr ⟨_, _, rfl, rfl⟩
    · exact .inr ⟨_, _, rfl, rfl⟩

theorem addF_same {a a' b b' : Flt} (h1 : Same a a') (h2 : Same b b') : Same (a.addF b) (a'.addF b') := by
  have e1 : Same (a.addF b) (a'.addF b) := by
    rcases h1 with rfl | ⟨s, t, rfl, rfl⟩
    · exact .refl _
    · exact addF_zero_left s t b
  have e2 : Same (a'.addF b) (a'.addF b') := by
    rcases h2 with rfl | ⟨s, t, rfl, rfl⟩
    · exact .refl _
    · rw [addF_comm a', addF_comm a']; exact addF_zero_left s t a'
  exact e1.trans e2

theorem subF_same {a a' b b' : Flt} (h1 : Same a a') (h2 : Same b b') : Same (a.subF b) (a'.subF b') :=
  addF_same h1 (neg_same h2)

theorem mulF_comm (a b : Flt) : a.mulF b = b.mulF a := by
  unfold mulF mulWith
  have hx : ∀ s t : Bool, (s != t) = (t != s) := by decide
  cases a <;> cases b <;> simp only [hx, Nat.mul_comm]

theorem mulF_zero_left (s t : Bool) (y : Flt) : Same ((Flt.fin s 0).mulF y) ((Flt.fin t 0).mulF y) := by
  unfold mulF mulWith
  cases y with
  | nan => exact .inl rfl
  | inf u => exact .inl rfl
  | fin u n =>
    simp only [Nat.zero_mul]
    rw [mkFloat_zero _ _ (Nat.two_pow_pos _), mkFloat_zero _ _ (Nat.two_pow_pos _)]
    exact .inr ⟨_, _, rfl, rfl⟩

theorem mulF_same {a a' b b' : Flt} (h1 : Same a a') (h2 : Same b b') : Same (a.mulF b) (a'.mulF b') := by
  have e1 : Same (a.mulF b) (a'.mulF b) := by
    rcases h1 with rfl | ⟨s, t, rfl, rfl⟩
    · exact .refl _
    · exact mulF_zero_left s t b
  have e2 : Same (a'.mulF b) (a'.mulF b') := by
    rcases h2 with rfl | ⟨s, t, rfl, rfl⟩
    · exact .refl _
    · rw [mulF_comm a', mulF_comm a']; exact mulF_zero_left s t a'
  exact e1.trans e2

theorem divF_zero (s t : Bool) {d d' : Flt} (h : Same d d') : Same ((Flt.fin s 0).divF d) ((Flt.fin t 0).divF d') := by
  rcases h with rfl | ⟨u, v, rfl, rfl⟩
  · unfold divF divWith
    cases d with
    | nan => exact .inl rfl
    | inf u => exact .inr ⟨_, _, rfl, rfl⟩
    | fin u n =>
      simp only [if_true, Nat.zero_mul]
      by_cases h : n = 0
      · rw [if_pos h, if_pos h]; exact .inl rfl
      · rw [if_neg h, if_neg h, mkFloat_zero _ _ (by omega), mkFloat_zero _ _ (by omega)]; exact .inr ⟨_, _, rfl, rfl⟩
  · exact .inl rfl

theorem lt_same {a a' b b' : Flt} (h1 : Same a a') (h2 : Same b b') : a.lt b = a'.lt b' := by
  rcases h1 with rfl | ⟨s, t, rfl, rfl⟩ <;> rcases h2 with rfl | ⟨u, v, rfl, rfl⟩
  · rfl
  · cases a <;> simp [lt, signed_zero]
  · cases b <;> simp [lt, signed_zero]
  · simp [lt, signed_zero]

theorem feq_same {a a' b b' : Flt} (h1 : Same a a') (h2 : Same b b') : a.feq b = a'.feq b' := by
  rcases h1 with rfl | ⟨s, t, rfl, rfl⟩ <;> rcases h2 with rfl | ⟨u, v, rfl, rfl⟩
  · rfl
  · cases a <;> simp [feq, signed_zero]
  · cases b <;> simp [feq, signed_zero]
  · simp [feq, signed_zero]

theorem toInt_same {a a' : Flt} (h : Same a a') : a.toInt = a'.toInt := by
  rcases h with rfl | ⟨s, t, rfl, rfl⟩
  · rfl
  · unfold toInt; cases s <;> cases t <;> simp

theorem minF_comm {a b : Flt} (ha : a ≠ .nan) (hb : b ≠ .nan) : Same (a.minF b) (b.minF a) := by
  unfold minF
  cases a with
  | nan => exact (ha rfl).elim
  | inf s =>
    cases b with
    | nan => exact (hb rfl).elim
    | inf t => cases s <;> cases t <;> simp [lt, Same]
    | fin t n => cases s <;> simp [lt, Same]
  | fin s m =>
    cases b with
    | nan => exact (hb rfl).elim
    | inf t => cases t <;> simp [lt, Same]
    | fin t n =>
      simp only [lt, decide_eq_true_eq]
      rcases lt_trichotomy (signed s m) (signed t n) with h | h | h
      · rw [if_pos h, if_neg (by omega)]; exact .refl _
      · rw [if_neg (by omega), if_neg (by omega)]; exact signed_eq h.symm
      · rw [if_neg (by omega), if_pos h]; exact .refl _

theorem maxF_comm {a b : Flt} (ha : a ≠ .nan) (hb : b ≠ .nan) : Same (a.maxF b) (b.maxF a) := by
  unfold maxF
  cases a with
  | nan => exact (ha rfl).elim
  | inf s =>
    cases b with
    | nan => exact (hb rfl).elim
    | inf t => cases s <;> cases t <;> simp [lt, Same]
    | fin t n => cases s <;> simp [lt, Same]
  | fin s m =>
    cases b with
    | nan => exact (hb rfl).elim
    | inf t => cases t <;> simp [lt, Same]
    | fin t n =>
      simp only [lt, decide_eq_true_eq]
      rcases lt_trichotomy (signed s m) (signed t n) with h | h | h
      · rw [if_neg (by omega), if_pos h]; exact .refl _
      · rw [if_neg (by omega), if_neg (by omega)]; exact signed_eq h.symm
      · rw [if_pos h, if_neg (by omega)]; exact .refl _

/-- A NaN is dropped when it is the first argument. -/
theorem minF_not_nan {a b : Flt} (hb : b ≠ .nan) : a.minF b ≠ .nan := by
  unfold minF
  by_cases h : a.lt b = true
  · rw [if_pos h]; rintro rfl; simp [lt] at h
  · rw [if_neg h]; exact hb

theorem maxF_not_nan {a b : Flt} (hb : b ≠ .nan) : a.maxF b ≠ .nan := by
  unfold maxF
  by_cases h : b.lt a = true
  · rw [if_pos h]; rintro rfl; cases b <;> simp [lt] at h
  · rw [if_neg h]; exact hb

end Flt

namespace Bounds

/-- No side is a NaN. -/
def NoNan (b : Bounds) : Prop := b.top ≠ .nan ∧ b.bottom ≠ .nan ∧ b.left ≠ .nan ∧ b.right ≠ .nan

theorem inter_noNan (a : Bounds) {b : Bounds} (h : b.NoNan) : (a.inter b).NoNan :=
  ⟨Flt.maxF_not_nan h.1, Flt.minF_not_nan h.2.1, Flt.maxF_not_nan h.2.2.1, Flt.minF_not_nan h.2.2.2⟩

theorem overlap_comm {a b : Bounds} (ha : a.NoNan) (hb : b.NoNan) : Flt.Same (a.overlap b) (b.overlap a) := by
  have hI : Flt.Same (inter a b).area (inter b a).area := by
    unfold area inter
    exact Flt.mulF_same (Flt.subF_same (Flt.minF_comm ha.2.2.2 hb.2.2.2) (Flt.maxF_comm ha.2.2.1 hb.2.2.1))
      (Flt.subF_same (Flt.minF_comm ha.2.1 hb.2.1) (Flt.maxF_comm ha.1 hb.1))
  have hD : Flt.Same ((a.area.addF b.area).subF (inter a b).area) ((b.area.addF a.area).subF (inter b a).area) := by
    rw [Flt.addF_comm b.area]
    exact Flt.subF_same (.refl _) hI
  have hR : Flt.Same ((inter a b).area.divF ((a.area.addF b.area).subF (inter a b).area))
      ((inter b a).area.divF ((b.area.addF a.area).subF (inter b a).area)) := by
    rcases hI with h | ⟨s, t, h1, h2⟩
    · rw [h, Flt.addF_comm b.area]; exact .refl _
    · rw [h1, h2]
      rw [h1, h2] at hD
      exact Flt.divF_zero s t hD
  unfold overlap
  simp only
  rw [Flt.lt_same hR (.refl _)]
  split
  · exact .refl _
  · exact hR

end Bounds

/-! ## Ratios of counts -/

theorem Outcome.bind_eq_ok {α β : Type} {x : Outcome α} {f : α → Outcome β} {b : β} (h : x.bind f = .ok b) :
    ∃ a, x = .ok a ∧ f a = .ok b := by
  cases x with
  | ok a => exact ⟨a, rfl, h⟩
  | abort => simp at h
  | ub => simp at h

theorem Outcome.map_eq_ok {α β : Type} {x : Outcome α} {f : α → β} {b : β} (h : x.map f = .ok b) :
    ∃ a, x = .ok a ∧ f a = b := by
  obtain ⟨a, h1, h2⟩ := Outcome.bind_eq_ok h
  exact ⟨a, h1, by simpa using h2⟩

theorem div_unit (A B : Nat) (hAB : A ≤ B) (hB : 0 < B) :
    (Flt.fin false A).divF (.fin false B) = .fin false (fround 24 (A * 2 ^ 149) B) ∧ fround 24 (A * 2 ^ 149) B ≤ 2 ^ 149 := by
  obtain ⟨h4, h5, _⟩ := Flt.mkFloat_le (neg := false) (n := A * 2 ^ 149) (d := B) hB Flt.unit_rep (by
    rw [Nat.mul_comm]; exact Nat.mul_le_mul_left _ hAB)
  refine ⟨?_, h5⟩
  unfold Flt.divF Flt.divWith
  simp only
  rw [if_neg (by omega)]
  exact h4

theorem ratio_eq (a b : Nat) (hb0 : 0 < b) (hab : a ≤ b) (hb : b ≤ 2 ^ 31) :
    ratio a b = .fin false (fround 24 (fround 24 (a * 2 ^ 149) 1 * 2 ^ 149) (fround 24 (b * 2 ^ 149) 1)) ∧
      fround 24 (fround 24 (a * 2 ^ 149) 1 * 2 ^ 149) (fround 24 (b * 2 ^ 149) 1) ≤ 2 ^ 149 ∧
      0 < fround 24 (b * 2 ^ 149) 1 := by
  obtain ⟨u, h1, rfl⟩ := Flt.ofInt_nat a (by omega)
  obtain ⟨v, h2, rfl⟩ := Flt.ofInt_nat b hb
  unfold ratio
  have hmono : fround 24 (a * 2 ^ 149) 1 ≤ fround 24 (b * 2 ^ 149) 1 :=
    fround_mono _ 1 _ 1 (by omega) (by omega) (by omega) (by
      rw [Nat.mul_one, Nat.mul_one]; exact Nat.mul_le_mul_right _ hab)
  have hpos : 0 < fround 24 (b * 2 ^ 149) 1 :=
    rep_le_fround (p := 24) (b * 2 ^ 149) 1 1 (by omega) (by omega) (rep_of_lt (by norm_num)) (by
      rw [Nat.mul_one]; exact Nat.mul_pos hb0 (Nat.two_pow_pos _))
  rw [h1, h2]
  have := div_unit _ _ hmono hpos
  exact ⟨this.1, this.2, hpos⟩

theorem unit_range (m : Nat) (h2 : m ≤ 2 ^ 149) :
    (Flt.fin false m).IsFinite ∧ 0 ≤ (Flt.fin false m).value ∧ (Flt.fin false m).value ≤ 1 := by
  refine ⟨trivial, ?_, ?_⟩
  · rw [Flt.value_fin]
    exact div_nonneg (by simp [Flt.signed]) (le_of_lt Flt.U_pos)
  · rw [Flt.value_fin, div_le_one Flt.U_pos]
    have : ((Flt.signed false m : Int) : ℚ) = (m : ℚ) := by simp [Flt.signed]
    rw [this]
    calc (m : ℚ) ≤ ((2 ^ 149 : Nat) : ℚ) := Nat.cast_le.mpr h2
      _ = 2 ^ 149 := Nat.cast_pow 2 149

/-- A ratio of counts lies between 0 and 1. -/
theorem ratio_range (a b : Nat) (hb0 : 0 < b) (hab : a ≤ b) (hb : b ≤ 2 ^ 31) :
    (ratio a b).IsFinite ∧ 0 ≤ (ratio a b).value ∧ (ratio a b).value ≤ 1 := by
  obtain ⟨h1, h2, _⟩ := ratio_eq a b hb0 hab hb
  rw [h1]
  exact unit_range _ h2

/-- Up to 2^24 the counts are exact and the ratio is rounded once. -/
theorem ratio_nearest (a b : Nat) (hb0 : 0 < b) (hab : a ≤ b) (hb : b ≤ 2 ^ 24) :
    Spec.Nearest ((a : ℚ) / b) (ratio a b) := by
  have h24 : (2 : Nat) ^ 24 = 16777216 := by norm_num
  have hrep : ∀ n : Nat, n ≤ 2 ^ 24 → Rep 24 n := by
    intro n hn
    have := (Flt.rep24_small (n := (n : Int)) (by
      rw [Int.abs_eq_natAbs, Int.natAbs_natCast]; exact_mod_cast hn)).1
    rwa [Int.natAbs_natCast] at this
  obtain ⟨h1, h2, h3⟩ := ratio_eq a b hb0 hab (by omega)
  have ea := fround_exact (p := 24) (m := a * 2 ^ 149) (d := 1) (by omega) ((hrep a (by omega)).scale (Nat.le_refl _) 149)
  have eb := fround_exact (p := 24) (m := b * 2 ^ 149) (d := 1) (by omega) ((hrep b hb).scale (Nat.le_refl _) 149)
  rw [Nat.mul_one] at ea eb
  rw [ea, eb] at h1 h2
  rw [eb] at h3
  have hm := Flt.mkFloat_le (neg := false) (n := a * 2 ^ 149 * 2 ^ 149) (d := b * 2 ^ 149) h3 Flt.unit_rep (by
    rw [Nat.mul_comm]; exact Nat.mul_le_mul_left _ (Nat.mul_le_mul_right _ hab))
  rw [h1, ← hm.1]
  have := Flt.mkFloat_nearest (neg := false) (n := a * 2 ^ 149 * 2 ^ 149) (d := b * 2 ^ 149) h3 (by
    have : a * 2 ^ 149 * 2 ^ 149 ≤ 2 ^ 149 * (b * 2 ^ 149) := by
      rw [Nat.mul_comm]; exact Nat.mul_le_mul_left _ (Nat.mul_le_mul_right _ hab)
    refine le_trans this (Nat.mul_le_mul_right _ ?_)
    calc (2 : Nat) ^ 149 ≤ 2 ^ 253 := Nat.pow_le_pow_right (by omega) (by omega)
      _ = 1 * 2 ^ 253 := (Nat.one_mul _).symm
      _ ≤ (2 ^ 24 - 1) * 2 ^ 253 := Nat.mul_le_mul_right _ (by norm_num))
  have hq : ((if false = true then (-1 : ℚ) else 1) * (((a * 2 ^ 149 * 2 ^ 149 : Nat) : ℚ) / (((b * 2 ^ 149 : Nat) : ℚ) * 2 ^ 149))) = (a : ℚ) / b := by
    have hU : (2 : ℚ) ^ 149 ≠ 0 := ne_of_gt Flt.U_pos
    have hbq : (b : ℚ) ≠ 0 := by exact_mod_cast (Nat.pos_iff_ne_zero.mp hb0)
    rw [if_neg (by simp), one_mul, Nat.cast_mul, Nat.cast_mul, Nat.cast_mul, Nat.cast_pow, Nat.cast_ofNat]
    generalize (2 : ℚ) ^ 149 = U at *
    field_simp
  rw [hq] at this
  exact this

/-! ## Lengths -/

theorem forN_ok_inv {σ : Type} (f : Nat → σ → Outcome σ) (P : σ → Prop) (hstep : ∀ i s s', f i s = .ok s' → P s → P s') (n : Nat) (s s' : σ)
    (h : Outcome.forN f n s = .ok s') (h0 : P s) : P s' := by
  induction n generalizing s' with
  | zero => simp only [Outcome.forN, Outcome.ok.injEq] at h; rw [← h]; exact h0
  | succ n ih =>
    rw [Outcome.forN] at h
    obtain ⟨t, h1, h2⟩ := Outcome.bind_eq_ok h
    exact hstep n t s' h2 (ih t h1)

theorem writeAt_length {buf out : List UInt8} {i : Int} {v : UInt8} (h : writeAt buf i v = .ok out) : out.length = buf.length := by
  unfold writeAt at h
  split at h
  · simp only [Outcome.ok.injEq] at h; rw [← h]; simp
  · cases h

theorem memsetArea_length {buf out : List UInt8} {v : UInt8} {w h : Int} (hm : memsetArea buf v w h = .ok out) :
    out.length = buf.length := by
  unfold memsetArea at hm
  obtain ⟨n, h1, h2⟩ := Outcome.bind_eq_ok hm
  split at h2
  · simp only [Outcome.ok.injEq] at h2
    rw [← h2, List.length_append, List.length_replicate, List.length_drop]
    omega
  · cases h2

theorem fillSpan_length {width row a b : Int} {buf out : List UInt8} (h : fillSpan width row a b buf = .ok out) :
    out.length = buf.length :=
  forN_ok_inv _ (fun o => o.length = buf.length) (fun _ _ _ hs hp => (writeAt_length hs).trans hp) _ _ _ h rfl

theorem forEach_length {α : Type} (f : α → List UInt8 → Outcome (List UInt8)) (hf : ∀ a s s', f a s = .ok s' → s'.length = s.length)
    (l : List α) (s s' : List UInt8) (h : Outcome.forEach f l s = .ok s') : s'.length = s.length := by
  induction l generalizing s with
  | nil => simp only [Outcome.forEach, Outcome.ok.injEq] at h; rw [h]
  | cons a l ih =>
    rw [Outcome.forEach] at h
    obtain ⟨t, h1, h2⟩ := Outcome.bind_eq_ok h
    rw [ih t h2, hf a s t h1]

theorem legacyFill_length (width row : Int) (nodes : List Int) (buf out : List UInt8) (h : legacyFill width row nodes buf = .ok out) :
    out.length = buf.length := by
  induction nodes using legacySpans.induct width generalizing buf with
  | case1 a b rest hc => rw [legacyFill, if_pos hc, Outcome.ok.injEq] at h; rw [h]
  | case2 a b rest hc h3 ih =>
    rw [legacyFill, if_neg hc, if_pos h3] at h
    obtain ⟨t, h1, h2⟩ := Outcome.bind_eq_ok h
    rw [ih t h2, fillSpan_length h1]
  | case3 a b rest hc h3 ih =>
    rw [legacyFill, if_neg hc, if_neg h3] at h
    exact ih buf h
  | case4 nodes hn =>
    match nodes, hn, h with
    | [], _, h => rw [legacyFill, Outcome.ok.injEq] at h; rw [h]
    | [a], _, h =>
      rw [legacyFill] at h
      split at h
      · rw [Outcome.ok.injEq] at h; rw [h]
      · cases h
    | a :: b :: rest, hn, _ => exact (hn a b rest rfl).elim

theorem rasterize_length {legacy : Bool} {ps : List (Flt × Flt)} {buf out : List UInt8} {w h : Int}
    (hr : rasterize legacy ps buf w h = .ok out) : out.length = buf.length := by
  unfold rasterize at hr
  obtain ⟨b0, h1, h2⟩ := Outcome.bind_eq_ok hr
  refine forN_ok_inv _ (fun o => o.length = buf.length) (fun i s s' hs hp => ?_) _ _ _ h2 (memsetArea_length h1)
  unfold rasterRow at hs
  obtain ⟨nodes, _, h4⟩ := Outcome.bind_eq_ok hs
  obtain ⟨nodes', _, h5⟩ := Outcome.bind_eq_ok h4
  rw [← hp]
  split at h5
  · exact legacyFill_length _ _ _ _ _ h5
  · rw [fillRow_eq] at h5
    exact forEach_length _ (fun _ _ _ h => fillSpan_length h) _ _ _ h5

theorem getMaskOffset_length {legacy : Bool} {r : Region} {buf out : List UInt8} {x y w h : Int}
    (hr : getMaskOffset legacy r buf x y w h = .ok out) : out.length = buf.length := by
  cases r with
  | special c => cases hr
  | rectangle a b c d =>
    unfold getMaskOffset at hr
    obtain ⟨_, _, h1⟩ := Outcome.bind_eq_ok hr
    obtain ⟨_, _, h2⟩ := Outcome.bind_eq_ok h1
    exact rasterize_length h2
  | polygon ps =>
    unfold getMaskOffset at hr
    obtain ⟨_, _, h1⟩ := Outcome.bind_eq_ok hr
    obtain ⟨_, _, h2⟩ := Outcome.bind_eq_ok h1
    exact rasterize_length h2
  | mask mx my mw mh data =>
    unfold getMaskOffset copyWindow at hr
    obtain ⟨_, _, h1⟩ := Outcome.bind_eq_ok hr
    obtain ⟨_, _, h1⟩ := Outcome.bind_eq_ok h1
    obtain ⟨_, _, h1⟩ := Outcome.bind_eq_ok h1
    obtain ⟨_, _, h1⟩ := Outcome.bind_eq_ok h1
    obtain ⟨_, _, h1⟩ := Outcome.bind_eq_ok h1
    obtain ⟨_, _, h1⟩ := Outcome.bind_eq_ok h1
    obtain ⟨_, _, h1⟩ := Outcome.bind_eq_ok h1
    obtain ⟨_, _, h1⟩ := Outcome.bind_eq_ok h1
    obtain ⟨_, _, h1⟩ := Outcome.bind_eq_ok h1
    obtain ⟨_, _, h1⟩ := Outcome.bind_eq_ok h1
    obtain ⟨b0, hb0, h1⟩ := Outcome.bind_eq_ok h1
    refine forN_ok_inv _ (fun o => o.length = buf.length) (fun i s s' hs hp => ?_) _ _ _ h1 (memsetArea_length hb0)
    refine forN_ok_inv _ (fun o => o.length = buf.length) (fun j t t' ht hq => ?_) _ _ _ hs hp
    obtain ⟨_, _, h2⟩ := Outcome.bind_eq_ok ht
    obtain ⟨_, _, h2⟩ := Outcome.bind_eq_ok h2
    obtain ⟨_, _, h2⟩ := Outcome.bind_eq_ok h2
    exact (writeAt_length h2).trans hq

/-- The area of a window that was filled is an `int`. -/
theorem getMaskOffset_area {legacy : Bool} {r : Region} {buf out : List UInt8} {x y w h : Int}
    (hr : getMaskOffset legacy r buf x y w h = .ok out) : InInt32 (w * h) := by
  have hm : ∀ {b : List UInt8} {v : UInt8} {o}, memsetArea b v w h = .ok o → InInt32 (w * h) := by
    intro b v o hm
    unfold memsetArea mul32 at hm
    obtain ⟨n, h1, _⟩ := Outcome.bind_eq_ok hm
    by_contra hc
    rw [if_neg hc] at h1
    cases h1
  have hras : ∀ {ps}, rasterize legacy ps buf w h = .ok out → InInt32 (w * h) := by
    intro ps hp
    unfold rasterize at hp
    obtain ⟨_, h1, _⟩ := Outcome.bind_eq_ok hp
    exact hm h1
  cases r with
  | special c => cases hr
  | rectangle a b c d =>
    unfold getMaskOffset at hr
    obtain ⟨_, _, h1⟩ := Outcome.bind_eq_ok hr
    obtain ⟨_, _, h2⟩ := Outcome.bind_eq_ok h1
    exact hras h2
  | polygon ps =>
    unfold getMaskOffset at hr
    obtain ⟨_, _, h1⟩ := Outcome.bind_eq_ok hr
    obtain ⟨_, _, h2⟩ := Outcome.bind_eq_ok h1
    exact hras h2
  | mask mx my mw mh data =>
    unfold getMaskOffset copyWindow at hr
    obtain ⟨_, _, h1⟩ := Outcome.bind_eq_ok hr
    obtain ⟨_, _, h1⟩ := Outcome.bind_eq_ok h1
    obtain ⟨_, _, h1⟩ := Outcome.bind_eq_ok h1
    obtain ⟨_, _, h1⟩ := Outcome.bind_eq_ok h1
    obtain ⟨_, _, h1⟩ := Outcome.bind_eq_ok h1
    obtain ⟨_, _, h1⟩ := Outcome.bind_eq_ok h1
    obtain ⟨_, _, h1⟩ := Outcome.bind_eq_ok h1
    obtain ⟨_, _, h1⟩ := Outcome.bind_eq_ok h1
    obtain ⟨_, _, h1⟩ := Outcome.bind_eq_ok h1
    obtain ⟨_, _, h1⟩ := Outcome.bind_eq_ok h1
    obtain ⟨b0, hb0, h1⟩ := Outcome.bind_eq_ok h1
    exact hm hb0

theorem createMask_ok {fresh : Nat → List UInt8} {x y w h : Int} {r : Region} (hc : createMask fresh x y w h = .ok r) : 0 < w ∧ 0 < h := by
  unfold createMask at hc
  by_contra hn
  rw [if_neg hn] at hc
  cases hc

theorem countFloat_le (limit : Flt) (i : Nat) (l : List UInt8) (n : Nat) (h : countFloat limit i l = .ok n) : n ≤ l.length := by
  induction l generalizing i n with
  | nil =>
    rw [countFloat] at h
    split at h
    · cases h
    · simp only [Outcome.ok.injEq] at h; omega
  | cons v l ih =>
    rw [countFloat] at h
    split at h
    · obtain ⟨m, h1, h2⟩ := Outcome.map_eq_ok h
      have := ih (i + 1) m h1
      rw [List.length_cons]
      split at h2 <;> omega
    · simp only [Outcome.ok.injEq] at h; omega

end Trax
