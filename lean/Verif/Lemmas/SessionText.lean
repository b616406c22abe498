import Verif.Lemmas.RegionCodec
import Verif.Lemmas.Image
import Verif.Lemmas.Message
import Verif.Props.Numbers

/-!
# Texts sent in sessions: regions and images as arguments of messages
-/

namespace Trax
open Spec

/-- Characters that can be in the text of a region. -/
def TextChar (c : UInt8) : Prop := c ≠ 0 ∧ c.toNat < 128 ∧ c ≠ ch%'=' ∧ 32 < c.toNat

theorem textChar_digit : ∀ c : UInt8, isDigit c = true → TextChar c := by
  unfold TextChar; apply forall_byte'; decide +kernel

theorem textChars_append {a b : Str} (ha : ∀ c ∈ a, TextChar c) (hb : ∀ c ∈ b, TextChar c) : ∀ c ∈ a ++ b, TextChar c := by
  intro c hc
  rcases List.mem_append.mp hc with h | h
  · exact ha c h
  · exact hb c h

theorem textChars_lit {a : Str} (h : (a.all fun c => decide (c ≠ 0) && decide (c.toNat < 128) && decide (c ≠ ch%'=') && decide (32 < c.toNat)) = true) : ∀ c ∈ a, TextChar c := by
  intro c hc
  have := List.all_eq_true.mp h c hc
  simp only [Bool.and_eq_true, decide_eq_true_eq] at this
  exact ⟨this.1.1.1, this.1.1.2, this.1.2, this.2⟩

theorem textChars_fmtInt (n : Int) : ∀ c ∈ fmtInt n, TextChar c := by
  intro c hc
  rcases fmtInt_chars n c hc with h | h
  · exact textChar_digit c h
  · subst h; unfold TextChar; decide

theorem textChars_fmtFloat (w : Nat) (x : Flt) : ∀ c ∈ fmtFloat w x, TextChar c := by
  cases x with
  | nan => exact textChars_lit (a := b!"nan") (by decide)
  | inf neg =>
    cases neg
    · exact textChars_lit (a := b!"inf") (by decide)
    · exact textChars_lit (a := b!"-inf") (by decide)
  | fin neg m =>
    unfold fmtFloat
    refine textChars_append (textChars_append (textChars_append ?_ ?_) ?_) ?_
    · cases neg <;> exact textChars_lit (by decide)
    · exact fun c h => textChar_digit c (natDigits_digits _ c h)
    · exact textChars_lit (by decide)
    · intro c h
      unfold padDigits at h
      rcases List.mem_append.mp h with h | h
      · rw [List.eq_of_mem_replicate h]; unfold TextChar; decide
      · exact textChar_digit c (natDigits_digits _ c h)

theorem textChars_fmtPoints (ps : List (Flt × Flt)) : ∀ c ∈ Region.fmtPoints ps, TextChar c := by
  induction ps with
  | nil => simp [Region.fmtPoints]
  | cons p t ih =>
    obtain ⟨x, y⟩ := p
    cases t with
    | nil =>
      exact textChars_append (textChars_append (textChars_fmtFloat 4 x) (textChars_lit (by decide))) (textChars_fmtFloat 4 y)
    | cons q t =>
      exact textChars_append (textChars_append (textChars_append (textChars_append (textChars_fmtFloat 4 x)
        (textChars_lit (by decide))) (textChars_fmtFloat 4 y)) (textChars_lit (by decide))) ih

theorem textChars_runs (rs : List Nat) : ∀ c ∈ rs.flatMap Region.fmtRun, TextChar c := by
  intro c hc
  obtain ⟨n, -, hc⟩ := List.mem_flatMap.mp hc
  rcases List.mem_cons.mp hc with h | h
  · subst h; unfold TextChar; decide
  · exact textChars_fmtInt _ c h

/-- The text of every region consists of printable 7-bit characters and has no equals sign. -/
theorem Region.string_chars {r : Region} {text : Str} (h : r.string = .ok (some text)) : ∀ c ∈ text, TextChar c := by
  have comma : ∀ c ∈ b!",", TextChar c := textChars_lit (by decide)
  cases r with
  | special code => cases h; exact textChars_fmtInt code
  | rectangle x y w h' =>
    cases h
    exact textChars_append (textChars_append (textChars_append (textChars_append (textChars_append (textChars_append
      (textChars_fmtFloat 4 x) comma) (textChars_fmtFloat 4 y)) comma) (textChars_fmtFloat 4 w)) comma) (textChars_fmtFloat 4 h')
  | polygon ps =>
    simp only [Region.string] at h
    split at h
    · cases h
    · cases h; exact textChars_fmtPoints ps
  | mask x y w h' data =>
    simp only [Region.string] at h
    cases hm : mul32 w h' with
    | abort => rw [hm] at h; cases h
    | ub => rw [hm] at h; cases h
    | ok length =>
      rw [hm] at h
      simp only [Outcome.bind_ok] at h
      split at h
      · cases h
      · split at h
        · cases h
        · cases h
          refine textChars_append (textChars_append ?_ ?_) (textChars_runs _)
          · exact textChars_append (textChars_append (textChars_append (textChars_append (textChars_append (textChars_append
              (textChars_append (textChars_lit (by decide)) (textChars_fmtInt x)) comma) (textChars_fmtInt y)) comma) (textChars_fmtInt w)) comma)
              (textChars_fmtInt h')
          · split <;> exact textChars_lit (by decide)

theorem not_property_of_no_equals {a : Str} (h : ch%'=' ∉ a) : ¬ LooksLikeProperty a := by
  rintro ⟨k, v, rfl, -⟩
  exact h (by simp)

/-- A text with a colon before any equals sign is not taken for a property. -/
theorem not_property_of_colon {pre rest : Str} (h : ch%'=' ∉ pre) : ¬ LooksLikeProperty (pre ++ ch%':' :: rest) := by
  rintro ⟨k, v, he, hk⟩
  rw [List.append_assoc, List.append_eq_append_iff] at he
  rcases he with ⟨as, h1, h2⟩ | ⟨bs, h1, h2⟩
  · cases as with
    | nil => simp at h2
    | cons a as =>
      simp only [List.cons_append, List.cons.injEq] at h2
      have := hk.2 (ch%':') (by rw [h1]; simp [h2.1])
      revert this; decide
  · cases bs with
    | nil => simp at h2
    | cons a bs =>
      simp only [List.cons_append, List.nil_append, List.cons.injEq] at h2
      exact h (by rw [h1]; simp [h2.1])

theorem Region.string_deliverable {r : Region} {text : Str} (h : r.string = .ok (some text)) :
    Plain text ∧ ¬ LooksLikeProperty text :=
  ⟨fun c hc => ⟨(string_chars h c hc).1, (string_chars h c hc).2.1⟩,
   not_property_of_no_equals fun hc => (string_chars h _ hc).2.2.1 rfl⟩

end Trax
