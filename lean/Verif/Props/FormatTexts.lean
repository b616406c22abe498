import Verif.Model.Formats
import Verif.Spec.Formats
import Mathlib.Tactic.SplitIfs

/-! # Property theorem C106: the texts of format and channel sets -/

namespace Trax
open Spec

theorem strtokStep_listing (d : UInt8 → Bool) (hd : d ch%';' = true) (hw : ∀ c, c ≠ ch%';' → c ≠ ch%' ' → d c = false)
    {ws : List Str} {s : Str} (h : Listing ws s) :
    (ws = [] → strtokStep d s = none) ∧
    (∀ w ws', ws = w :: ws' → ∃ t, strtokStep d s = some (w, t) ∧ Listing ws' t ∧ t.length < s.length) := by
  have word : ∀ w t : Str, ListWord w → (∀ c, t.head? = some c → d c = true) →
      strtokStep d (w ++ t) = some (w, t.drop 1) := by
    intro w t hwd ht
    obtain ⟨hne, h1, h2⟩ := hwd
    have hall : ∀ c ∈ w, d c = false := fun c hc => hw c (by rintro rfl; exact h1 hc) (by rintro rfl; exact h2 hc)
    cases w with
    | nil => contradiction
    | cons a w =>
      unfold strtokStep
      have ha := hall a (by simp)
      have e : (a :: w ++ t).dropWhile d = a :: w ++ t := by simp [ha]
      simp only [e]
      rw [if_neg (by simp)]
      have key : ∀ (w t : Str), (∀ c ∈ w, d c = false) → (∀ c, t.head? = some c → d c = true) →
          (w ++ t).takeWhile (!d ·) = w ∧ (w ++ t).dropWhile (!d ·) = t := by
        intro w t h1 h2
        induction w with
        | nil =>
          cases t with
          | nil => exact ⟨rfl, rfl⟩
          | cons c t => simp [h2 c rfl]
        | cons b w ih =>
          have hb := h1 b (by simp)
          have := ih fun c hc => h1 c (by simp [hc])
          simp [hb, this.1, this.2]
      have := key (a :: w) t hall ht
      rw [this.1, this.2]
  induction h with
  | nil => exact ⟨fun _ => rfl, fun w ws' h => by cases h⟩
  | @sep ws s h ih =>
    have e : strtokStep d (ch%';' :: s) = strtokStep d s := by
      unfold strtokStep
      simp [hd]
    rw [e]
    refine ⟨ih.1, fun w ws' he => ?_⟩
    obtain ⟨t, h1, h2, h3⟩ := ih.2 w ws' he
    exact ⟨t, h1, h2, by simp only [List.length_cons]; omega⟩
  | @last w hwd =>
    refine ⟨fun h => (by cases h), fun w' ws' he => ?_⟩
    cases he
    have := word w [] hwd (by simp)
    rw [List.append_nil] at this
    exact ⟨[], this, .nil, List.length_pos_iff.mpr hwd.1⟩
  | @cons w ws s hwd h _ =>
    refine ⟨fun h => (by cases h), fun w' ws' he => ?_⟩
    cases he
    refine ⟨s, word w _ hwd (by intro c hc; simp at hc; subst hc; exact hd), h, ?_⟩
    simp only [List.length_append, List.length_cons]
    omega

/-- What the loop over the names does with a table. -/
theorem decodeTokens_listing (value : Str → Option UInt32) (d : UInt8 → Bool) (hd : d ch%';' = true)
    (hw : ∀ c, c ≠ ch%';' → c ≠ ch%' ' → d c = false) {ws : List Str} {s : Str} (h : Listing ws s) (fuel : Nat)
    (hf : s.length < fuel) (acc : UInt32) :
    decodeTokens value fuel (strtokStep d s) acc = ws.foldl (fun a w => a.bind fun a => (value w).map fun v => a ||| v) (some acc) := by
  induction ws generalizing s fuel acc d with
  | nil =>
    rw [(strtokStep_listing d hd hw h).1 rfl]
    cases fuel <;> rfl
  | cons w ws ih =>
    obtain ⟨t, h1, h2, h3⟩ := (strtokStep_listing d hd hw h).2 w ws rfl
    rw [h1]
    cases fuel with
    | zero => omega
    | succ fuel =>
      unfold decodeTokens
      rw [List.foldl_cons]
      cases hv : value w with
      | none =>
        simp only [Option.map_none, Option.bind_some]
        have : ∀ ws : List Str, ws.foldl (fun a w => a.bind fun a => (value w).map fun v => a ||| v) (none : Option UInt32) = none := by
          intro ws
          induction ws with
          | nil => rfl
          | cons w ws ih => rw [List.foldl_cons]; exact ih
        rw [this]
      | some v =>
        simp only [Option.map_some, Option.bind_some]
        exact ih (· == ch%';') (by decide) (fun c h1 _ => by simpa using h1) h2 fuel (by omega) _

theorem decodeSet_listing (value : Str → Option UInt32) {ws : List Str} {s : Str} (h : Listing ws s) :
    decodeSet value s = ws.foldl (fun a w => a.bind fun a => (value w).map fun v => a ||| v) (some 0) :=
  decodeTokens_listing value _ (by decide) (fun c h1 h2 => by simp [h1, h2]) h _ (by omega) _

/-- `value` is the lookup in the table. -/
structure Looks (value : Str → Option UInt32) (table : List (Str × Nat)) : Prop where
  known : ∀ w i, (w, i) ∈ table → i < 32 ∧ value w = some (UInt32.ofNat (2 ^ i))
  unknown : ∀ w, value w ≠ none → ∃ i, (w, i) ∈ table

theorem two_pow32 {i : Nat} (h : i < 32) : (UInt32.ofNat (2 ^ i)).toNat = 2 ^ i := by
  rw [UInt32.toNat_ofNat']
  exact Nat.mod_eq_of_lt (Nat.pow_lt_pow_right (by omega) h)

theorem fold_known {value : Str → Option UInt32} {table : List (Str × Nat)} (hl : Looks value table) (ws : List Str)
    (hk : AllKnown table ws) (acc : UInt32) :
    ∃ f, ws.foldl (fun a w => a.bind fun a => (value w).map fun v => a ||| v) (some acc) = some f ∧
      ∀ i, f.toNat.testBit i = true ↔ acc.toNat.testBit i = true ∨ ∃ w ∈ ws, (w, i) ∈ table := by
  induction ws generalizing acc with
  | nil => exact ⟨acc, rfl, fun i => by simp⟩
  | cons w ws ih =>
    obtain ⟨j, hj⟩ := hk w (by simp)
    obtain ⟨hlt, hv⟩ := hl.known w j hj
    rw [List.foldl_cons, hv]
    simp only [Option.map_some, Option.bind_some]
    obtain ⟨f, h1, h2⟩ := ih (fun w hw => hk w (by simp [hw])) (acc ||| UInt32.ofNat (2 ^ j))
    refine ⟨f, h1, fun i => ?_⟩
    rw [h2, UInt32.toNat_or, Nat.testBit_or, Bool.or_eq_true, two_pow32 hlt, Nat.testBit_two_pow, decide_eq_true_eq]
    have huniq : ∀ i, (w, i) ∈ table → j = i := by
      intro i hi
      obtain ⟨hi1, hi2⟩ := hl.known w i hi
      rw [hv, Option.some.injEq] at hi2
      have := congrArg UInt32.toNat hi2
      rw [two_pow32 hlt, two_pow32 hi1] at this
      exact (Nat.pow_right_inj (by omega : 1 < 2)).mp this
    constructor
    · rintro ((h | h) | ⟨w', hw', h⟩)
      · exact Or.inl h
      · exact Or.inr ⟨w, by simp, h ▸ hj⟩
      · exact Or.inr ⟨w', by simp [hw'], h⟩
    · rintro (h | ⟨w', hw', h⟩)
      · exact Or.inl (Or.inl h)
      · rcases List.mem_cons.mp hw' with rfl | hw'
        · exact Or.inl (Or.inr (huniq i h))
        · exact Or.inr ⟨w', hw', h⟩

theorem fold_unknown {value : Str → Option UInt32} {table : List (Str × Nat)} (hl : Looks value table) (ws : List Str)
    (hk : ¬ AllKnown table ws) (acc : Option UInt32) :
    ws.foldl (fun a w => a.bind fun a => (value w).map fun v => a ||| v) acc = none := by
  induction ws generalizing acc with
  | nil => exact (hk (by intro w hw; cases hw)).elim
  | cons w ws ih =>
    rw [List.foldl_cons]
    by_cases hw : ∃ i, (w, i) ∈ table
    · refine ih (fun h => hk fun w' hw' => ?_) _
      rcases List.mem_cons.mp hw' with rfl | hw'
      · exact hw
      · exact h w' hw'
    · have hv : value w = none := by
        apply Classical.byContradiction
        exact fun h => hw (hl.unknown w h)
      have e : (acc.bind fun a => (value w).map fun v => a ||| v) = none := by
        rw [hv]; cases acc <;> rfl
      rw [e]
      clear ih hk hw hv e
      induction ws with
      | nil => rfl
      | cons w ws ih => rw [List.foldl_cons]; exact ih

theorem readsLists_of {value : Str → Option UInt32} {table : List (Str × Nat)} (hl : Looks value table) :
    ReadsLists table (decodeSet value) := by
  intro ws s h
  rw [decodeSet_listing value h]
  refine ⟨fun hk => ?_, fun hk => fold_unknown hl ws hk _⟩
  obtain ⟨f, h1, h2⟩ := fold_known hl ws hk 0
  exact ⟨f, h1, fun i => by rw [h2]; simp⟩

/-- The text of the bits that are set. -/
def writeList (f : UInt32) : List (Str × Nat) → Str
  | [] => []
  | (w, i) :: t => (if supports f (UInt32.ofNat (2 ^ i)) then w ++ b!";" else []) ++ writeList f t

theorem supports_bit (f : UInt32) {i : Nat} (h : i < 32) : supports f (UInt32.ofNat (2 ^ i)) = f.toNat.testBit i := by
  have h1 : supports f (UInt32.ofNat (2 ^ i)) = true ↔ f.toNat.testBit i = true := by
    unfold supports
    rw [bne_iff_ne, Ne, ← UInt32.toNat_inj, UInt32.toNat_and, two_pow32 h]
    constructor
    · intro hne
      apply Classical.byContradiction
      intro hb
      apply hne
      apply Nat.eq_of_testBit_eq
      intro j
      rw [Nat.testBit_and, Nat.testBit_two_pow]
      by_cases hj : i = j
      · subst hj; simp only [Bool.not_eq_true] at hb; simp [hb]
      · simp [hj]
    · intro hb he
      have := congrArg (fun n => Nat.testBit n i) he
      simp [Nat.testBit_and, Nat.testBit_two_pow, hb] at this
  cases h2 : f.toNat.testBit i <;> cases h3 : supports f (UInt32.ofNat (2 ^ i)) <;> simp_all

theorem writesLists_of (f : UInt32) (table : List (Str × Nat)) (ht : ∀ p ∈ table, ListWord p.1 ∧ p.2 < 32) :
    ∃ ws, Listing ws (writeList f table) ∧ ∀ w, w ∈ ws ↔ ∃ i, (w, i) ∈ table ∧ f.toNat.testBit i = true := by
  induction table with
  | nil => exact ⟨[], .nil, fun w => by simp⟩
  | cons p t ih =>
    obtain ⟨w, i⟩ := p
    obtain ⟨ws, h1, h2⟩ := ih fun p hp => ht p (by simp [hp])
    have hp := ht (w, i) (by simp)
    rw [writeList, supports_bit f hp.2]
    cases hb : f.toNat.testBit i with
    | false =>
      refine ⟨ws, by simpa using h1, fun v => ?_⟩
      rw [h2]
      constructor
      · rintro ⟨j, hj, h⟩; exact ⟨j, by simp [hj], h⟩
      · rintro ⟨j, hj, h⟩
        rcases List.mem_cons.mp hj with e | hj
        · cases e; rw [hb] at h; cases h
        · exact ⟨j, hj, h⟩
    | true =>
      refine ⟨w :: ws, by simpa using Listing.cons hp.1 h1, fun v => ?_⟩
      rw [List.mem_cons, h2]
      constructor
      · rintro (rfl | ⟨j, hj, h⟩)
        · exact ⟨i, by simp, hb⟩
        · exact ⟨j, by simp [hj], h⟩
      · rintro ⟨j, hj, h⟩
        rcases List.mem_cons.mp hj with e | hj
        · cases e; exact Or.inl rfl
        · exact Or.inr ⟨j, hj, h⟩

/-- **C106.** For the formats of images and regions and for the channels: every list of known names, in any order, with repetitions and
any number of semicolons, is read as the set of these names; every list with another name is refused; and what is written for a set
is such a list of its names. -/
theorem C106_format_lists :
    ReadsLists imageNames imageFormatsDecode ∧ ReadsLists regionNames regionFormatsDecode ∧
    ReadsLists channelNames channelsDecode ∧
    WritesLists imageNames imageFormatsEncode ∧ WritesLists regionNames regionFormatsEncode ∧
    WritesLists channelNames channelsEncode := by
  refine ⟨readsLists_of ⟨?_, ?_⟩, readsLists_of ⟨?_, ?_⟩, readsLists_of ⟨?_, ?_⟩, fun f => ?_, fun f => ?_, fun f => ?_⟩
  · intro w i h
    simp only [imageNames, List.mem_cons, List.not_mem_nil, or_false, Prod.mk.injEq] at h
    rcases h with ⟨rfl, rfl⟩ | ⟨rfl, rfl⟩ | ⟨rfl, rfl⟩ | ⟨rfl, rfl⟩ <;> decide
  · intro w h
    unfold imageFormatValue at h
    unfold imageNames
    split_ifs at h with h1 h2 h3 h4
    · exact ⟨0, by simp [h1]⟩
    · exact ⟨1, by simp [h2]⟩
    · exact ⟨2, by simp [h3]⟩
    · exact ⟨3, by simp [h4]⟩
    · exact (h rfl).elim
  · intro w i h
    simp only [regionNames, List.mem_cons, List.not_mem_nil, or_false, Prod.mk.injEq] at h
    rcases h with ⟨rfl, rfl⟩ | ⟨rfl, rfl⟩ | ⟨rfl, rfl⟩ <;> decide
  · intro w h
    unfold regionFormatValue at h
    unfold regionNames
    split_ifs at h with h1 h2 h3
    · exact ⟨1, by simp [h1]⟩
    · exact ⟨2, by simp [h2]⟩
    · exact ⟨3, by simp [h3]⟩
    · exact (h rfl).elim
  · intro w i h
    simp only [channelNames, List.mem_cons, List.not_mem_nil, or_false, Prod.mk.injEq] at h
    rcases h with ⟨rfl, rfl⟩ | ⟨rfl, rfl⟩ | ⟨rfl, rfl⟩ <;> decide
  · intro w h
    unfold channelValue at h
    unfold channelNames
    split_ifs at h with h1 h2 h3
    · exact ⟨0, by simp [h1]⟩
    · exact ⟨1, by simp [h2]⟩
    · exact ⟨2, by simp [h3]⟩
    · exact (h rfl).elim
  · have := writesLists_of f imageNames (by unfold imageNames ListWord; decide)
    have e : writeList f imageNames = imageFormatsEncode f := by
      simp only [imageNames, writeList, imageFormatsEncode, List.append_nil, List.append_assoc]; rfl
    rwa [e] at this
  · have := writesLists_of f regionNames (by unfold regionNames ListWord; decide)
    have e : writeList f regionNames = regionFormatsEncode f := by
      simp only [regionNames, writeList, regionFormatsEncode, List.append_nil, List.append_assoc]; rfl
    rwa [e] at this
  · have := writesLists_of f channelNames (by unfold channelNames ListWord; decide)
    have e : writeList f channelNames = channelsEncode f := by
      simp only [channelNames, writeList, channelsEncode, List.append_nil, List.append_assoc]; rfl
    rwa [e] at this

example : Listing [b!"url", b!"path", b!"url"] b!";url;;path;url" ∧ AllKnown imageNames [b!"url", b!"path", b!"url"] ∧
    imageFormatsDecode b!";url;;path;url" = some 3 := by
  refine ⟨.sep (Listing.cons (w := b!"url") (by unfold ListWord; decide) (.sep (Listing.cons (w := b!"path") (by unfold ListWord; decide) (.last (by unfold ListWord; decide))))), ?_, by decide⟩
  intro w hw
  simp only [List.mem_cons, List.not_mem_nil, or_false] at hw
  rcases hw with rfl | rfl | rfl
  · exact ⟨1, by decide⟩
  · exact ⟨0, by decide⟩
  · exact ⟨1, by decide⟩

theorem decodeSet_spaces (value : Str → Option UInt32) (n : Nat) {ws : List Str} {s : Str} (h : Listing ws s) : decodeSet value (List.replicate n ch%' ' ++ s) = decodeSet value s := by
  have e : strtokStep (fun c => c == ch%' ' || c == ch%';') (List.replicate n ch%' ' ++ s) = strtokStep (fun c => c == ch%' ' || c == ch%';') s := by
    unfold strtokStep
    rw [show (List.replicate n ch%' ' ++ s).dropWhile (fun c => c == ch%' ' || c == ch%';') = s.dropWhile (fun c => c == ch%' ' || c == ch%';') by
      induction n with
      | zero => rfl
      | succ n ih => rw [List.replicate_succ, List.cons_append, List.dropWhile_cons_of_pos (by decide)]; exact ih]
  rw [decodeSet_listing value h]
  unfold decodeSet
  rw [e]
  exact decodeTokens_listing value _ (by decide) (fun c h1 h2 => by simp [h1, h2]) h _ (by simp only [List.length_append]; omega) _

/-- **C106 for spaces.** Spaces in front of such a list make no difference. (Elsewhere they belong to the names: a list with a space behind a semicolon is refused.) -/
theorem C106_spaces (n : Nat) (ws : List Str) (s : Str) (h : Listing ws s) : imageFormatsDecode (List.replicate n ch%' ' ++ s) = imageFormatsDecode s ∧
    regionFormatsDecode (List.replicate n ch%' ' ++ s) = regionFormatsDecode s ∧ channelsDecode (List.replicate n ch%' ' ++ s) = channelsDecode s :=
  ⟨decodeSet_spaces _ n h, decodeSet_spaces _ n h, decodeSet_spaces _ n h⟩

example : imageFormatsDecode b!"  path;url" = some 3 ∧ imageFormatsDecode b!"path; url" = none := by decide

end Trax
