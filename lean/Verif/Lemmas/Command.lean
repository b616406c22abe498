import Verif.Model.Command
import Verif.Spec.Command

/-!
# Lemmas about splitting a command line
-/

namespace Trax
open Spec

theorem scan_spaces (n : Nat) : ∀ (p : Byte) (i : Nat) (t : Str),
    ∃ p', scanToken p i none false (spaces n ++ t) = scanToken p' (i + n) none false t := by
  induction n with
  | zero => intro p i t; exact ⟨p, rfl⟩
  | succ n ih =>
    intro p i t
    obtain ⟨p', h⟩ := ih ch%' ' (i + 1) t
    refine ⟨p', ?_⟩
    rw [spaces, List.replicate_succ, List.cons_append, scanToken]
    simp only [ne_eq, not_true_eq_false, if_false]
    rw [show List.replicate n ch%' ' = spaces n from rfl, h, Nat.add_assoc, Nat.add_comm 1 n]

theorem scan_plain {w : Str} (h : ch%' ' ∉ w) : ∀ (p : Byte) (i s : Nat) (t : Str),
    ∃ p', scanToken p i (some s) false (w ++ t) = scanToken p' (i + w.length) (some s) false t := by
  induction w with
  | nil => intro p i s t; exact ⟨p, rfl⟩
  | cons c cs ih =>
    intro p i s t
    obtain ⟨p', h'⟩ := ih (fun hc => h (by simp [hc])) c (i + 1) s t
    have hc : c ≠ ch%' ' := fun hc => h (by simp [hc])
    refine ⟨p', ?_⟩
    rw [List.cons_append, scanToken]
    simp only [Bool.not_false, Bool.true_and, Bool.false_and, Bool.or_false, beq_iff_eq, hc, if_false]
    rw [h', List.length_cons, Nat.add_assoc, Nat.add_comm 1]

theorem scan_quoted {w : Str} : ∀ (p : Byte) (i s : Nat) (t : Str), (∀ a b, w = a ++ ch%'"' :: b → (p :: a).getLast? = some ch%'\'') →
    scanToken p i (some s) true (w ++ t) = scanToken ((p :: w).getLast (by simp)) (i + w.length) (some s) true t := by
  induction w with
  | nil => intro p i s t _; rfl
  | cons c cs ih =>
    intro p i s t h
    have hc : c = ch%'"' → p = ch%'\'' := fun hc => by
      have := h [] cs (by rw [hc]; rfl)
      simpa using this
    have h' := ih c (i + 1) s t (fun a b hab => by
      have := h (c :: a) b (by rw [hab]; rfl)
      simpa only [List.getLast?_cons_cons] using this)
    rw [List.cons_append, scanToken]
    have : ((!true && c == ch%' ') || (true && c == ch%'"' && p != ch%'\'')) = false := by
      by_cases hq : c = ch%'"'
      · simp [hq, hc hq]
      · simp [hq]
    simp only [this]
    rw [h', List.length_cons, Nat.add_assoc, Nat.add_comm 1]
    simp

/-- The string is over after spaces. -/
theorem nextToken_none (pre : Str) (n len : Nat) : nextToken (pre ++ spaces n) pre.length len = .ok none := by
  unfold nextToken
  rw [if_neg (by simp), List.drop_left]
  obtain ⟨p', h⟩ := scan_spaces n 0 pre.length []
  rw [List.append_nil] at h
  rw [h, scanToken]

/-- The start of a plain word. -/
theorem scan_start_plain {w : Str} (hne : w ≠ []) (hs : ch%' ' ∉ w) (hq : w.head? ≠ some ch%'"') (p : Byte) (i : Nat) (t : Str) :
    ∃ p', scanToken p i none false (w ++ t) = scanToken p' (i + w.length) (some i) false t := by
  cases w with
  | nil => exact absurd rfl hne
  | cons c cs =>
    have hc : c ≠ ch%' ' := fun hc => hs (by simp [hc])
    have hc' : c ≠ ch%'"' := fun hc => hq (by simp [hc])
    obtain ⟨p', h'⟩ := scan_plain (w := cs) (fun hc => hs (by simp [hc])) c (i + 1) i t
    refine ⟨p', ?_⟩
    rw [List.cons_append, scanToken]
    simp only [ne_eq, hc, not_false_eq_true, if_true, hc', if_false]
    rw [h', List.length_cons, Nat.add_assoc, Nat.add_comm 1]

theorem part_eq (pre w t : Str) (k : Nat) (hk : k = pre.length + w.length) : ((pre ++ (w ++ t)).drop pre.length).take (k - pre.length) = w := by
  rw [List.drop_left, hk, Nat.add_sub_cancel_left, List.take_left]

/-- A plain word at the end. -/
theorem nextToken_plain_end (pre : Str) (n : Nat) {w : Str} (hw : (Word.plain w).Writable) :
    nextToken (pre ++ (spaces n ++ w)) pre.length 1024 = .ok (some (w, (pre ++ (spaces n ++ w)).length)) := by
  obtain ⟨h1, h2, h3, h4⟩ := hw
  unfold nextToken
  rw [if_neg (by simp), List.drop_left]
  obtain ⟨p', h⟩ := scan_spaces n 0 pre.length w
  obtain ⟨p'', h'⟩ := scan_start_plain h1 h2 h3 p' (pre.length + n) []
  rw [List.append_nil] at h'
  rw [h, h', scanToken]
  have hs : (spaces n).length = n := by simp [spaces]
  simp only [Bool.false_eq_true, if_false]
  rw [if_neg (by omega)]
  have : (List.drop (pre.length + n) (pre ++ (spaces n ++ w))).take (pre.length + n + w.length - (pre.length + n)) = w := by
    have := part_eq (pre ++ spaces n) w [] (pre.length + n + w.length) (by simp [hs])
    simpa [hs] using this
  rw [this, if_pos (by simp [hs]; omega)]
  simp [hs]; omega

/-- A plain word followed by a space. -/
theorem nextToken_plain (pre : Str) (n : Nat) {w : Str} (hw : (Word.plain w).Writable) (t : Str) :
    nextToken (pre ++ (spaces n ++ (w ++ ch%' ' :: t))) pre.length 1024 = .ok (some (w, pre.length + n + w.length + 1)) := by
  obtain ⟨h1, h2, h3, h4⟩ := hw
  unfold nextToken
  rw [if_neg (by simp), List.drop_left]
  obtain ⟨p', h⟩ := scan_spaces n 0 pre.length (w ++ ch%' ' :: t)
  obtain ⟨p'', h'⟩ := scan_start_plain h1 h2 h3 p' (pre.length + n) (ch%' ' :: t)
  rw [h, h', scanToken]
  have hs : (spaces n).length = n := by simp [spaces]
  simp only [Bool.not_false, Bool.true_and, beq_self_eq_true, Bool.true_or, if_true]
  rw [if_neg (by omega)]
  have : (List.drop (pre.length + n) (pre ++ (spaces n ++ (w ++ ch%' ' :: t)))).take (pre.length + n + w.length - (pre.length + n)) = w := by
    have := part_eq (pre ++ spaces n) w (ch%' ' :: t) (pre.length + n + w.length) (by simp [hs])
    simpa [hs] using this
  rw [this, if_neg (by simp [hs]; omega)]
  simp

/-- A quoted word. -/
theorem nextToken_quoted (pre : Str) (n : Nat) {w : Str} (hw : (Word.quoted w).Writable) (t : Str) :
    nextToken (pre ++ (spaces n ++ (ch%'"' :: (w ++ ch%'"' :: t)))) pre.length 1024 = .ok (some (w, pre.length + n + w.length + 3)) := by
  obtain ⟨h1, h2, h4⟩ := hw
  unfold nextToken
  rw [if_neg (by simp), List.drop_left]
  obtain ⟨p', h⟩ := scan_spaces n 0 pre.length (ch%'"' :: (w ++ ch%'"' :: t))
  have hs : (spaces n).length = n := by simp [spaces]
  rw [h, scanToken]
  simp only [ne_eq]
  rw [if_pos (by decide), if_pos trivial, scan_quoted]
  · have hl : ((34 :: w).getLast (by simp) != ch%'\'') = true := by
      rw [bne_iff_ne]
      intro hl
      cases w with
      | nil => simp at hl
      | cons c cs =>
        apply h2
        rw [List.getLast_cons (by simp)] at hl
        rw [List.getLast?_eq_some_getLast (by simp), hl]
    rw [scanToken]
    simp only [Bool.not_true, Bool.false_and, beq_self_eq_true, Bool.true_and, hl, Bool.or_true, if_true]
    rw [if_neg (by omega)]
    have : (List.drop (pre.length + n + 1) (pre ++ (spaces n ++ (ch%'"' :: (w ++ ch%'"' :: t))))).take
        (pre.length + n + 1 + w.length - (pre.length + n + 1)) = w := by
      have := part_eq (pre ++ spaces n ++ [ch%'"']) w (ch%'"' :: t) (pre.length + n + 1 + w.length) (by simp [hs]; omega)
      simpa [hs, Nat.add_assoc] using this
    have hne : pre.length + n + 1 + w.length ≠ (pre ++ (spaces n ++ (ch%'"' :: (w ++ ch%'"' :: t)))).length := by
      simp only [List.length_append, List.length_cons, hs]; omega
    rw [this, if_neg hne]
    congr 3
    omega
  · intro a b hab
    have := h1 a b hab
    cases a with
    | nil => simp at this
    | cons x xs => simpa only [List.getLast?_cons_cons] using this

/-- The positions found by the loop. -/
theorem scan_bounds (t : Str) : ∀ (p : Byte) (i : Nat) (s : Option Nat) (q : Bool),
    i ≤ (scanToken p i s q t).2.2.1 ∧ (scanToken p i s q t).2.2.1 ≤ i + t.length ∧
    (∀ e, (scanToken p i s q t).2.1 = some e → e = (scanToken p i s q t).2.2.1) ∧
    (s = none → (scanToken p i s q t).1 ≠ none → i < (scanToken p i s q t).2.2.1) := by
  induction t with
  | nil =>
    intro p i s q
    refine ⟨Nat.le_refl _, Nat.le_refl _, ?_, ?_⟩
    · intro e h; cases h
    · intro h h'; exact absurd h h'
  | cons c cs ih =>
    intro p i s q
    cases s with
    | none =>
      rw [scanToken]
      simp only [List.length_cons]
      split
      · split
        · obtain ⟨h1, h2, h3, h4⟩ := ih c (i + 1) (some (i + 1)) true
          exact ⟨by omega, by omega, h3, fun _ _ => by omega⟩
        · obtain ⟨h1, h2, h3, h4⟩ := ih c (i + 1) (some i) q
          exact ⟨by omega, by omega, h3, fun _ _ => by omega⟩
      · obtain ⟨h1, h2, h3, h4⟩ := ih c (i + 1) none q
        exact ⟨by omega, by omega, h3, fun _ _ => by omega⟩
    | some s =>
      rw [scanToken]
      simp only [List.length_cons]
      split
      · refine ⟨Nat.le_refl _, by simp only; omega, ?_, by simp⟩
        intro e h
        cases h
        rfl
      · obtain ⟨h1, h2, h3, h4⟩ := ih c (i + 1) (some s) q
        exact ⟨by omega, by omega, h3, by simp⟩

/-- The next token starts behind this one. -/
theorem nextToken_progress {str : Str} {start len : Nat} (h : start ≤ str.length) :
    nextToken str start len = .ok none ∨ ∃ tok pos, nextToken str start len = .ok (some (tok, pos)) ∧ start < pos := by
  unfold nextToken
  rw [if_neg (by omega)]
  obtain ⟨h1, h2, h3, h4⟩ := scan_bounds (str.drop start) 0 start none false
  generalize scanToken 0 start none false (str.drop start) = r at *
  obtain ⟨s, e, i, q⟩ := r
  cases s with
  | none => exact .inl rfl
  | some s =>
    have hi : start < i := h4 rfl (by simp)
    have key : ∀ e', (match e with | some e => some e | none => if q = true then none else some i) = some e' → start < e' := by
      intro e' he
      cases e with
      | none =>
        dsimp only at he
        split at he
        · cases he
        · cases he; exact hi
      | some e =>
        dsimp only at he
        cases he
        have := h3 e' rfl
        dsimp only at this
        omega
    dsimp only
    split
    · exact .inl rfl
    · next e' he =>
      have he' := key e' he
      split
      · exact .inl rfl
      · refine .inr ⟨_, _, rfl, ?_⟩
        split
        · exact he'
        · split <;> omega

theorem parseTokens_safe (command : Str) : ∀ (fuel position : Nat) (tokens : List Str), position ≤ command.length →
    tokens.length ≤ position → (position = command.length → position = 0) → command.length < position + fuel →
    ∃ r, parseTokens command fuel position tokens = .ok r := by
  intro fuel
  induction fuel with
  | zero => intro position tokens h1 _ _ h3; omega
  | succ fuel ih =>
    intro position tokens h1 h2 h0 h3
    unfold parseTokens
    rcases nextToken_progress (len := 1024) h1 with h | ⟨tok, pos, h, hp⟩
    · rw [h]; exact ⟨_, rfl⟩
    · rw [h, Outcome.bind_ok]
      dsimp only
      by_cases hlen : position < command.length
      · rw [if_pos (by omega)]
        split
        · exact ⟨_, rfl⟩
        · exact ih pos _ (by omega) (by simp; omega) (by omega) (by omega)
      · have : command = [] := List.length_eq_zero_iff.1 (by omega)
        subst this
        have hp0 : position = 0 := by simp at h1; omega
        subst hp0
        cases h

theorem write_length {w : Word} (h : w.Writable) : 0 < w.write.length := by
  cases w with
  | plain t => exact List.length_pos_iff.2 h.1
  | quoted t => simp [Word.write]

theorem spaces_succ (n : Nat) : spaces (n + 1) = ch%' ' :: spaces n := List.replicate_succ

theorem commandLine_cons (n : Nat) (w : Word) (rest : List (Nat × Word)) :
    commandLine ((n, w) :: rest) = spaces n ++ (w.write ++ commandLine rest) := by
  simp [commandLine]

theorem parseTokens_words (command : Str) (k : Nat) (hk : k ≤ 1) : ∀ (rest : List (Nat × Word)) (n : Nat) (w : Word) (pre : Str) (fuel : Nat) (tokens : List Str),
    command = pre ++ commandLine ((n, w) :: rest) ++ spaces k → w.Writable → (∀ x ∈ rest, x.2.Writable ∧ 0 < x.1) →
    tokens.length ≤ pre.length → rest.length < fuel →
    parseTokens command fuel pre.length tokens = .ok (some (tokens ++ w.text :: rest.map (·.2.text))) := by
  intro rest
  induction rest with
  | nil =>
    intro n w pre fuel tokens hc hw hr ht hf
    obtain ⟨fuel, rfl⟩ : ∃ f, fuel = f + 1 := ⟨fuel - 1, by simp at hf; omega⟩
    have hwl := write_length hw
    have hsl : ∀ n, (spaces n).length = n := by simp [spaces]
    unfold parseTokens
    rw [commandLine_cons, show commandLine [] = [] from rfl, List.append_nil] at hc
    have hlen : command.length = pre.length + n + w.write.length + k := by rw [hc]; simp [hsl]; omega
    have hnext : ∃ pos, nextToken command pre.length 1024 = .ok (some (w.text, pos)) ∧ command.length ≤ pos := by
      cases w with
      | plain t =>
        obtain rfl | rfl : k = 0 ∨ k = 1 := by omega
        · refine ⟨_, ?_, Nat.le_refl _⟩
          rw [hc]
          have := nextToken_plain_end pre n hw
          simpa [spaces, Word.write, Word.text] using this
        · refine ⟨pre.length + n + t.length + 1, ?_, ?_⟩
          · rw [hc]
            have := nextToken_plain pre n hw []
            simpa [spaces, Word.write, Word.text] using this
          · simp [Word.write] at hlen; omega
      | quoted t =>
        refine ⟨pre.length + n + t.length + 3, ?_, ?_⟩
        · rw [hc]
          have := nextToken_quoted pre n hw (spaces k)
          simpa [Word.write, Word.text] using this
        · simp [Word.write] at hlen; omega
    obtain ⟨pos, h1, h2⟩ := hnext
    rw [h1, Outcome.bind_ok]
    dsimp only
    rw [if_pos (by omega), if_pos (by omega)]
    rfl
  | cons x rest ih =>
    intro n w pre fuel tokens hc hw hr ht hf
    obtain ⟨m, w'⟩ := x
    obtain ⟨hw', hm⟩ := hr (m, w') (by simp)
    dsimp only at hw' hm
    obtain ⟨m, rfl⟩ : ∃ j, m = j + 1 := ⟨m - 1, by omega⟩
    obtain ⟨fuel, rfl⟩ : ∃ f, fuel = f + 1 := ⟨fuel - 1, by simp at hf; omega⟩
    have hwl := write_length hw
    have hwl' := write_length hw'
    have hsl : ∀ n, (spaces n).length = n := by simp [spaces]
    have hc' : command = (pre ++ spaces n ++ w.write ++ [ch%' ']) ++ commandLine ((m, w') :: rest) ++ spaces k := by
      rw [hc, commandLine_cons, commandLine_cons, commandLine_cons, spaces_succ]
      simp
    have hlen : pre.length + n + w.write.length + 1 + w'.write.length ≤ command.length := by
      rw [hc', commandLine_cons]; simp [hsl]; omega
    have hpl : (pre ++ spaces n ++ w.write ++ [ch%' ']).length = pre.length + n + w.write.length + 1 := by simp [hsl]; omega
    unfold parseTokens
    have hnext : nextToken command pre.length 1024 = .ok (some (w.text, pre.length + n + w.write.length + 1)) := by
      cases w with
      | plain t =>
        have := nextToken_plain pre n hw (commandLine ((m, w') :: rest) ++ spaces k)
        rw [hc']
        simpa [Word.write, Word.text] using this
      | quoted t =>
        have := nextToken_quoted pre n hw (ch%' ' :: (commandLine ((m, w') :: rest) ++ spaces k))
        rw [hc']
        simpa [Word.write, Word.text, Nat.add_assoc] using this
    rw [hnext, Outcome.bind_ok]
    dsimp only
    rw [if_pos (by omega), if_neg (by omega)]
    have := ih m w' _ fuel (tokens ++ [w.text]) hc' hw' (fun x hx => hr x (by simp [hx])) (by rw [hpl, List.length_append, List.length_singleton]; omega) (by simp at hf; omega)
    rw [hpl] at this
    rw [this]
    simp

end Trax
