import Verif.Lemmas.Command

/-!
# Property theorem C69: the command line of a tracker
-/

namespace Trax
open Spec

/-- **C69**, first part: splitting a command ends, without access outside of the string and the
arrays, for every string. -/
theorem C69_split_safe (command : Str) : ∃ r, parseCommand command = .ok r := by
  refine parseTokens_safe command _ 0 [] (Nat.zero_le _) (Nat.zero_le _) (fun _ => rfl) (by omega)

/-- **C69**, second part (partial): a command made of words with at least one space between two of
them, any number of spaces at the start and at most one at the end is split into its words; quoted words
may contain spaces.

Missing: quoted words that are not followed by a space, more than one space at the end, and commands that
cannot be split (`C69_split_false`). -/
theorem C69_words_partial (words : List (Nat × Word)) (trailing : Nat) (hne : words ≠ [])
    (hw : ∀ w ∈ words, w.2.Writable) (hs : Separated words) (ht : trailing ≤ 1) :
    parseCommand (commandLine words ++ spaces trailing) = .ok (some (words.map (·.2.text))) ∧
    processCommand (commandLine words ++ spaces trailing) = .ok (words.map (·.2.text)) := by
  have key : parseCommand (commandLine words ++ spaces trailing) = .ok (some (words.map (·.2.text))) := by
    cases words with
    | nil => exact absurd rfl hne
    | cons x rest =>
      obtain ⟨n, w⟩ := x
      have hr : ∀ x ∈ rest, x.2.Writable ∧ 0 < x.1 := fun x hx => ⟨hw x (by simp [hx]), hs x hx⟩
      have hlen : ∀ l : List (Nat × Word), (∀ x ∈ l, x.2.Writable ∧ 0 < x.1) → l.length ≤ (commandLine l).length := by
        intro l
        induction l with
        | nil => intro _; simp
        | cons y ys ih =>
          intro h
          obtain ⟨m, w⟩ := y
          have h1 : 0 < w.write.length := write_length (h (m, w) (by simp)).1
          have h2 := ih (fun x hx => h x (by simp [hx]))
          rw [commandLine_cons]
          simp only [List.length_append, List.length_cons]
          omega
      have := parseTokens_words (commandLine ((n, w) :: rest) ++ spaces trailing) trailing ht rest n w []
        ((commandLine ((n, w) :: rest) ++ spaces trailing).length + 1) [] (by simp) (hw (n, w) (by simp)) hr (Nat.le_refl _) (by
          have := hlen rest hr
          rw [commandLine_cons]
          simp only [List.length_append]
          omega)
      exact this
  refine ⟨key, ?_⟩
  unfold processCommand
  rw [key]
  rfl

/-- A program with an argument that contains spaces and a quote after an apostrophe. -/
example : commandLine [(2, .plain b!"python3"), (1, .quoted b!"my '\"tracker.py"), (3, .plain b!"--size=\"4\"")] ++ spaces 1
      = b!"  python3 \"my '\"tracker.py\"   --size=\"4\" " ∧
    (∀ w ∈ [(2, Word.plain b!"python3"), (1, .quoted b!"my '\"tracker.py"), (3, .plain b!"--size=\"4\"")], w.2.Writable) ∧
    Separated [(2, .plain b!"python3"), (1, .quoted b!"my '\"tracker.py"), (3, .plain b!"--size=\"4\"")] := by
  refine ⟨by decide +kernel, ?_, ?_⟩
  · intro w hw
    simp only [List.mem_cons, List.not_mem_nil, or_false] at hw
    rcases hw with rfl | rfl | rfl
    · exact ⟨by decide, by decide, by decide, by decide⟩
    · refine ⟨?_, by decide, by decide⟩
      intro a b h
      rcases a with - | ⟨a1, - | ⟨a2, - | ⟨a3, - | ⟨a4, - | ⟨a5, a⟩⟩⟩⟩⟩
      · simp at h
      · simp at h
      · simp at h
      · simp at h
      · simp at h
        simp [h]
      · simp only [List.cons_append, List.cons.injEq] at h
        have : ch%'"' ∈ b!"tracker.py" := by
          rw [h.2.2.2.2.2]
          simp
        exact absurd this (by decide)
    · exact ⟨by decide, by decide, by decide, by decide⟩
  · intro w hw
    simp only [List.mem_cons, List.not_mem_nil, or_false] at hw
    rcases hw with rfl | rfl <;> decide

/-- The full claim of C69 is false: text that follows a quoted word without a space loses its first
byte, or disappears; two spaces at the end make the command unusable; and when the command cannot be split, also
when it is empty, the constructor of the process dereferences a null pointer. -/
theorem C69_split_false :
    parseCommand b!"run \"a\"bc d" = .ok (some [b!"run", b!"a", b!"c", b!"d"]) ∧
    parseCommand b!"run \"a\"b" = .ok (some [b!"run", b!"a"]) ∧
    parseCommand b!"run  " = .ok none ∧ processCommand b!"run  " = .ub ∧
    processCommand b!"" = .ub ∧ processCommand b!"run \"a" = .ub := by
  refine ⟨by decide +kernel, by decide +kernel, by decide +kernel, by decide +kernel, by decide +kernel, by decide +kernel⟩

end Trax
