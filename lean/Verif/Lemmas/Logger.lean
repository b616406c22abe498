import Verif.Spec.Logger
import Mathlib.Data.List.Induction

/-!
# Lemmas about the line buffer
-/

namespace Trax
open Spec

/-- What one byte adds to the log when the line already has `k` bytes. -/
def cutByte (t : Int) (k : Nat) (c : Byte) : Str :=
  if (k + 1 : Int) ≥ t ∧ t > 0 then (if (k + 1 : Int) = t then [ch%'\n'] else []) else [c]

/-- The log of a text when the line already has `k` bytes. -/
def cutText (t : Int) : Nat → Str → Str
  | _, [] => []
  | k, c :: cs => cutByte t k c ++ cutText t (if c = ch%'\n' then 0 else k + 1) cs

theorem push_ok {content : Str} {k : Nat} (h : content.length < 1023) (hk : k < 2147483647) (c : Byte) (t : Int) :
    LineBuffer.push ⟨content, k⟩ c t
      = .ok ((content ++ cutByte t k c).length == 1023 || c == ch%'\n',
          ⟨content ++ cutByte t k c, ((if c = ch%'\n' then 0 else k + 1 : Nat) : Int)⟩) := by
  have hi : InInt32 ((k : Int) + 1) := by unfold InInt32; omega
  unfold LineBuffer.push cutByte
  simp only [hi, not_true_eq_false, if_false]
  have hs : content.length < loggerBufferSize := by unfold loggerBufferSize; omega
  by_cases h1 : (k + 1 : Int) ≥ t ∧ t > 0
  · rw [if_pos h1, if_pos h1]
    by_cases h2 : (k + 1 : Int) = t
    · rw [if_pos h2, if_pos h2]
      simp only [LineBuffer.store, hs, if_true]
      by_cases h3 : c = ch%'\n'
      · simp [Outcome.map, loggerBufferSize, h3]
      · simp [Outcome.map, loggerBufferSize, h3]
    · rw [if_neg h2, if_neg h2]
      by_cases h3 : c = ch%'\n'
      · simp [Outcome.map, loggerBufferSize, h3]
      · simp [Outcome.map, loggerBufferSize, h3]
  · rw [if_neg h1, if_neg h1]
    simp only [LineBuffer.store, hs, if_true]
    by_cases h3 : c = ch%'\n'
    · simp [Outcome.map, loggerBufferSize, h3]
    · simp [Outcome.map, loggerBufferSize, h3]

theorem flush_ok {content : Str} {n : Int} (h : content.length ≤ 1023) (out : Bool) :
    LineBuffer.flush ⟨content, n⟩ out = .ok (if out then content else [], ⟨[], n⟩) := by
  unfold LineBuffer.flush loggerBufferSize
  rw [if_pos (by show content.length < 1024; omega)]

theorem cutByte_length (t : Int) (k : Nat) (c : Byte) : (cutByte t k c).length ≤ 1 := by
  unfold cutByte
  split
  · split <;> simp
  · simp

theorem settled_cons {a b : LogEvent} {es : List LogEvent} (h : Settled (a :: b :: es)) : Settled (b :: es) := by
  unfold Settled at h ⊢
  simpa only [List.getLast?_cons_cons] using h

theorem settled_byte {c : Byte} (h : Settled [.byte c]) : c = ch%'\n' := by
  unfold Settled at h
  simpa using h

/-- The number of bytes of the current line after a text. -/
def lineCount : Nat → Str → Nat
  | k, [] => k
  | k, c :: cs => lineCount (if c = ch%'\n' then 0 else k + 1) cs

theorem logStep_byte {content : Str} {k : Nat} (h : content.length < 1023) (hk : k < 2147483647) (c : Byte) (t : Int) (out : Bool) :
    ∃ w content', logStep t out ⟨content, k⟩ (.byte c) = .ok (w, ⟨content', ((if c = ch%'\n' then 0 else k + 1 : Nat) : Int)⟩) ∧
      (out = true → w ++ content' = content ++ cutByte t k c) ∧ (out = false → w = []) ∧
      content'.length < 1023 ∧ (c = ch%'\n' → content' = []) := by
  have hl : (content ++ cutByte t k c).length ≤ 1023 := by
    have := cutByte_length t k c
    rw [List.length_append]; omega
  unfold logStep
  simp only [push_ok h hk, Outcome.bind_ok]
  by_cases hf : ((content ++ cutByte t k c).length == 1023 || c == ch%'\n') = true
  · rw [if_pos hf, flush_ok hl]
    refine ⟨_, [], rfl, ?_, ?_, by simp, fun _ => rfl⟩
    · rintro rfl; simp
    · rintro rfl; simp
  · rw [if_neg hf]
    refine ⟨[], _, rfl, by simp, by simp, ?_, ?_⟩
    · rw [Bool.or_eq_true, not_or] at hf
      have := hf.1
      rw [beq_iff_eq] at this
      omega
    · rintro rfl; simp at hf

theorem logRun_ok (t : Int) (out : Bool) (es : List LogEvent) : ∀ (content : Str) (k : Nat), content.length < 1023 →
    (∀ pre c post, printed es = pre ++ c :: post → lineCount k pre < 2147483647) →
    ∃ w content', logRun t out ⟨content, k⟩ es = .ok (w, ⟨content', lineCount k (printed es)⟩) ∧
      (out = true → w ++ content' = content ++ cutText t k (printed es)) ∧ (out = false → w = []) ∧
      content'.length < 1023 ∧ (Settled es → content' = []) := by
  induction es with
  | nil =>
    intro content k h _
    exact ⟨[], content, rfl, by simp [cutText, printed], fun _ => rfl, h, by simp [Settled]⟩
  | cons e es ih =>
    intro content k h hp
    cases e with
    | byte c =>
      have hk : k < 2147483647 := hp [] c (printed es) rfl
      obtain ⟨w, content₁, h1, h2, h3, h4, h5⟩ := logStep_byte h hk c t out
      obtain ⟨w', content₂, g1, g2, g3, g4, g5⟩ := ih content₁ _ h4 (fun pre c' post hh => by
        have := hp (c :: pre) c' post (by rw [printed, hh]; rfl)
        exact this)
      refine ⟨w ++ w', content₂, ?_, ?_, ?_, g4, ?_⟩
      · unfold logRun
        rw [h1, Outcome.bind_ok]
        dsimp only
        rw [g1]
        rfl
      · intro ho
        rw [List.append_assoc, g2 ho, ← List.append_assoc, h2 ho, List.append_assoc]
        rfl
      · intro ho
        rw [h3 ho, g3 ho]; rfl
      · intro hs
        cases es with
        | nil =>
          have : content₁ = [] := h5 (settled_byte hs)
          unfold logRun at g1
          cases g1
          exact this
        | cons a as => exact g5 (settled_cons hs)
    | idle =>
      obtain ⟨w', content₂, g1, g2, g3, g4, g5⟩ := ih [] k (by simp) (fun pre c' post hh => hp pre c' post hh)
      refine ⟨(if out then content else []) ++ w', content₂, ?_, ?_, ?_, g4, ?_⟩
      · unfold logRun logStep
        rw [flush_ok (by omega), Outcome.bind_ok]
        dsimp only
        rw [g1]
        rfl
      · intro ho
        rw [List.append_assoc, g2 ho, ho]
        rfl
      · intro ho
        rw [g3 ho, ho]; rfl
      · intro hs
        cases es with
        | nil =>
          unfold logRun at g1
          cases g1
          rfl
        | cons a as => exact g5 (settled_cons hs)

theorem lineCount_append (k : Nat) (a b : Str) : lineCount k (a ++ b) = lineCount (lineCount k a) b := by
  induction a generalizing k with
  | nil => rfl
  | cons c cs ih => exact ih _

/-- The current line is the last part of the text. -/
theorem lineCount_segment (text : Str) : ∃ pre l, text = pre ++ l ∧ OneLine l ∧ lineCount 0 text = l.length := by
  induction text using List.reverseRecOn with
  | nil => exact ⟨[], [], rfl, by simp [OneLine], rfl⟩
  | append_singleton cs c ih =>
    obtain ⟨pre, l, rfl, hl, hc⟩ := ih
    rw [lineCount_append, hc]
    by_cases h : c = ch%'\n'
    · exact ⟨pre ++ l ++ [c], [], by simp, by simp [OneLine], by simp [lineCount, h]⟩
    · refine ⟨pre, l ++ [c], by simp, ?_, by simp [lineCount, h]⟩
      intro x hx
      rcases List.mem_append.1 hx with hx | hx
      · exact hl x hx
      · rw [List.mem_singleton.1 hx]; exact h

theorem cutText_nolimit {t : Int} (ht : t ≤ 0) (k : Nat) (text : Str) : cutText t k text = text := by
  induction text generalizing k with
  | nil => rfl
  | cons c cs ih =>
    rw [cutText, ih, cutByte, if_neg (by omega)]
    rfl

theorem cutText_append (t : Int) (k : Nat) (a b : Str) : cutText t k (a ++ b) = cutText t k a ++ cutText t (lineCount k a) b := by
  induction a generalizing k with
  | nil => rfl
  | cons c cs ih =>
    rw [List.cons_append, cutText, ih, cutText, List.append_assoc]
    rfl

theorem lineCount_oneLine {l : Str} (h : OneLine l) (k : Nat) : lineCount k l = k + l.length := by
  induction l generalizing k with
  | nil => rfl
  | cons c cs ih =>
    rw [lineCount, if_neg (h c (by simp)), ih (fun x hx => h x (by simp [hx]))]
    simp; omega

theorem cutText_over {t : Nat} {l : Str} (h : OneLine l) (k : Nat) (hk : t ≤ k) (ht : 0 < t) : cutText t k l = [] := by
  induction l generalizing k with
  | nil => rfl
  | cons c cs ih =>
    rw [cutText, cutByte, if_pos (by omega), if_neg (by omega), if_neg (h c (by simp)),
      ih (fun x hx => h x (by simp [hx])) _ (by omega)]
    rfl

theorem cutText_line {t : Nat} {l : Str} (h : OneLine l) (k : Nat) (hk : k < t) :
    cutText t k l = if k + l.length < t then l else l.take (t - 1 - k) ++ [ch%'\n'] := by
  induction l generalizing k with
  | nil => simp [cutText, hk]
  | cons c cs ih =>
    have hcs : OneLine cs := fun x hx => h x (by simp [hx])
    rw [cutText, if_neg (h c (by simp)), cutByte]
    by_cases h1 : k + 1 = t
    · rw [if_pos (by omega), if_pos (by omega), cutText_over hcs _ (by omega) (by omega), if_neg (by simp; omega)]
      have : t - 1 - k = 0 := by omega
      rw [this]; rfl
    · rw [if_neg (by omega), ih hcs _ (by omega)]
      by_cases h2 : k + 1 + cs.length < t
      · rw [if_pos h2, if_pos (by simp; omega)]; rfl
      · rw [if_neg h2, if_neg (by simp; omega)]
        have : t - 1 - k = (t - 1 - (k + 1)) + 1 := by omega
        rw [this, List.take_succ_cons]
        rfl

theorem cutText_lineEnd {t : Nat} (ht : 0 < t) {l : Str} (h : OneLine l) :
    cutText t 0 l ++ cutByte t l.length ch%'\n' = l.take (t - 1) ++ [ch%'\n'] := by
  rw [cutText_line h 0 ht, cutByte]
  by_cases h1 : 0 + l.length < t
  · rw [if_pos h1]
    by_cases h2 : l.length + 1 = t
    · rw [if_pos (by omega), if_pos (by omega), List.take_of_length_le (by omega)]
    · rw [if_neg (by omega), List.take_of_length_le (by omega)]
  · rw [if_neg h1, if_pos (by omega), if_neg (by omega)]
    simp

/-- The first line of a text. -/
theorem firstLine (text : Str) : OneLine text ∨ ∃ l rest, OneLine l ∧ text = l ++ ch%'\n' :: rest := by
  induction text with
  | nil => exact .inl (by simp [OneLine])
  | cons c cs ih =>
    by_cases hc : c = ch%'\n'
    · exact .inr ⟨[], cs, by simp [OneLine], by rw [hc]; rfl⟩
    · rcases ih with ih | ⟨l, rest, hl, rfl⟩
      · left
        intro x hx
        rcases List.mem_cons.1 hx with rfl | hx
        · exact hc
        · exact ih x hx
      · right
        refine ⟨c :: l, rest, ?_, rfl⟩
        intro x hx
        rcases List.mem_cons.1 hx with rfl | hx
        · exact hc
        · exact hl x hx

theorem cutText_limited {t : Nat} (ht : 0 < t) (n : Nat) : ∀ text : Str, text.length ≤ n → Limited t text (cutText t 0 text) := by
  induction n with
  | zero =>
    intro text h
    have : text = [] := List.length_eq_zero_iff.1 (by omega)
    subst this
    exact .last [] (by simp [OneLine]) (by simpa using ht)
  | succ n ih =>
    intro text h
    rcases firstLine text with h1 | ⟨l, rest, hl, rfl⟩
    · rw [cutText_line h1 0 ht]
      split
      · exact .last _ h1 (by omega)
      · exact .lastCut _ h1 (by omega)
    · have e : cutText t 0 (l ++ ch%'\n' :: rest) = l.take (t - 1) ++ ch%'\n' :: cutText t 0 rest := by
        rw [cutText_append, lineCount_oneLine hl, cutText, if_pos rfl, ← List.append_assoc, Nat.zero_add, cutText_lineEnd ht hl]
        simp
      rw [e]
      exact .line l rest _ hl (ih rest (by simp at h; omega))

theorem limited_short {t : Nat} {text log : Str} (h : Limited t text log) : LinesShorter t text → log = text := by
  induction h with
  | last => intro _; rfl
  | lastCut l hl hlen =>
    intro hs
    have := hs [] l [] (by simp) hl
    omega
  | line l text log hl _ ih =>
    intro hs
    have h1 := hs [] l (ch%'\n' :: text) (by simp) hl
    rw [List.take_of_length_le (by omega), ih (fun pre m post hm ho => hs (l ++ ch%'\n' :: pre) m post (by rw [hm]; simp) ho)]

theorem oneLine_split {l m pre post rest : Str} (hm : OneLine m) (h : l ++ ch%'\n' :: rest = pre ++ m ++ post) :
    (∃ post', l = pre ++ m ++ post') ∨ ∃ pre', rest = pre' ++ m ++ post ∨ m = [] := by
  rw [List.append_assoc] at h
  rcases List.append_eq_append_iff.1 h with ⟨a, rfl, h2⟩ | ⟨a, rfl, h2⟩
  · -- pre = l ++ a
    cases a with
    | nil =>
      cases m with
      | nil => exact .inr ⟨[], .inr rfl⟩
      | cons x xs =>
        simp only [List.nil_append, List.cons_append, List.cons.injEq] at h2
        exact absurd h2.1.symm (hm x (by simp))
    | cons x xs =>
      simp only [List.cons_append, List.cons.injEq] at h2
      exact .inr ⟨xs, .inl (by rw [h2.2, List.append_assoc])⟩
  · -- l = pre ++ a, m ++ post = a ++ nl :: rest
    rcases List.append_eq_append_iff.1 h2 with ⟨b, rfl, h3⟩ | ⟨b, rfl, h3⟩
    · exact .inl ⟨b, by simp⟩
    · cases b with
      | nil => exact .inl ⟨[], by simp⟩
      | cons x xs =>
        simp only [List.cons_append, List.cons.injEq] at h3
        exact absurd h3.1.symm (hm x (by simp))

theorem limited_lines {t : Nat} (ht : 0 < t) {text log : Str} (h : Limited t text log) : LinesShorter t log := by
  induction h with
  | last l hl hlen =>
    intro pre m post hm ho
    have := congrArg List.length hm
    simp only [List.length_append] at this
    omega
  | lastCut l hl hlen =>
    intro pre m post hm ho
    rcases oneLine_split ho hm with ⟨post', h1⟩ | ⟨pre', h1 | rfl⟩
    · have := congrArg List.length h1
      simp only [List.length_append, List.length_take] at this
      omega
    · have := congrArg List.length h1
      simp only [List.length_append, List.length_nil] at this
      omega
    · simpa using ht
  | line l text log hl _ ih =>
    intro pre m post hm ho
    rcases oneLine_split ho hm with ⟨post', h1⟩ | ⟨pre', h1 | rfl⟩
    · have := congrArg List.length h1
      simp only [List.length_append, List.length_take] at this
      omega
    · exact ih pre' m post h1 ho
    · simpa using ht

end Trax
