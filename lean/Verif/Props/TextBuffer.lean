import Verif.Lemmas.TextBuffer

/-!
# Property theorems C82: growing buffers
-/

namespace Trax
open Spec

/-- **C82** (partial): after any history of adding characters and formatted texts and of resets, the extracted string is all that was added
since the last reset, with a NUL behind it, and no use touched memory outside of its block. Missing: texts that get as long as
2 GiB less 4 KiB (`C82_limit_false`). -/
theorem C82_collects_partial (junk : Nat → List Byte) (hj : ∀ n, (junk n).length = n) (l : Int) (h0 : 0 ≤ l) (hl : l < 2 ^ 31)
    (ops : List TextOp) (hm : Moderate ops) :
    ∃ b b', TextBuffer.create junk l = .ok b ∧ b.applyAll junk ops = .ok b' ∧ b'.extract = .ok (collected ops ++ [0]) ∧
      b'.length = (collected ops).length := by
  obtain ⟨b, e1, h1⟩ := TextBuffer.create_holds hj l h0 hl
  obtain ⟨b', e2, h2⟩ := TextBuffer.applyAll_holds hj ops b [] h1 hm
  have hlen := hm ops.length
  rw [List.take_length] at hlen
  exact ⟨b, b', e1, e2, TextBuffer.extract_holds h2 (by omega), h2.position⟩

/-- **C82**: what is collected does not depend on the size that a buffer is created with, nor on what is in fresh memory. -/
theorem C82_independent (junk junk' : Nat → List Byte) (hj : ∀ n, (junk n).length = n) (hj' : ∀ n, (junk' n).length = n) (l l' : Int)
    (h0 : 0 ≤ l) (hl : l < 2 ^ 31) (h0' : 0 ≤ l') (hl' : l' < 2 ^ 31) (ops : List TextOp) (hm : Moderate ops) :
    ((TextBuffer.create junk l).bind fun b => (b.applyAll junk ops).bind TextBuffer.extract) =
    ((TextBuffer.create junk' l').bind fun b => (b.applyAll junk' ops).bind TextBuffer.extract) := by
  obtain ⟨b, c, e1, e2, e3, -⟩ := C82_collects_partial junk hj l h0 hl ops hm
  obtain ⟨b', c', f1, f2, f3, -⟩ := C82_collects_partial junk' hj' l' h0' hl' ops hm
  rw [e1, Outcome.bind_ok, e2, Outcome.bind_ok, e3, f1, Outcome.bind_ok, f2, Outcome.bind_ok, f3]

/-- **C82**, for the lists that hold the arguments of a message: after appending strings, and also after a reset in between, the
strings are found at their positions, and NULL everywhere else. -/
theorem C82_arguments (n : Int) (h0 : 0 ≤ n) (hn : n < 2 ^ 31) (before after : List Str)
    (hb : before.length + 16 ≤ 2 ^ 31) (ha : after.length + 16 ≤ 2 ^ 31)
    (hbs : ∀ s ∈ before, s.length + 1 < 2 ^ 31) (has : ∀ s ∈ after, s.length + 1 < 2 ^ 31) :
    ∃ l l₁ l₂ l₃, StringList.create n = .ok l ∧ l.appendAll before = .ok l₁ ∧ l₁.reset = .ok l₂ ∧ l₂.appendAll after = .ok l₃ ∧
      l₁.length = before.length ∧ (∀ i : Int, l₁.get i = .ok (if 0 ≤ i then before[i.toNat]? else none)) ∧
      l₂.length = 0 ∧ l₃.length = after.length ∧ ∀ i : Int, l₃.get i = .ok (if 0 ≤ i then after[i.toNat]? else none) := by
  obtain ⟨l, e0, h⟩ := StringList.create_holds n h0 hn
  obtain ⟨l₁, e1, h1⟩ := StringList.appendAll_holds before l [] h (by simpa using hb) hbs
  obtain ⟨l₂, e2, h2⟩ := StringList.reset_holds h1
  obtain ⟨l₃, e3, h3⟩ := StringList.appendAll_holds after l₂ [] h2 (by simpa using ha) has
  exact ⟨l, l₁, l₂, l₃, e0, e1, e2, e3, h1.position, StringList.get_holds h1, h2.position, h3.position, StringList.get_holds h3⟩

/-- **C82** does not hold for longer texts: the size of a buffer as it is created for reading messages overflows when 2 GiB less 4 KiB are
in it and one more byte arrives. -/
theorem C82_limit_false (junk : Nat → List Byte) (hj : ∀ n, (junk n).length = n) (c : Byte) :
    ((TextBuffer.create junk 4096).bind fun b => b.applyAll junk (List.replicate (2 ^ 31 - 4096 + 1) (.char c))) = .ub := by
  obtain ⟨b, e1, h1⟩ := TextBuffer.create_holds hj 4096 (by omega) (by omega)
  have hb : b.size = 4096 := by
    unfold TextBuffer.create at e1; rw [if_pos (by norm_num)] at e1; cases e1; rfl
  obtain ⟨b', e2, h2, hs⟩ := TextBuffer.applyAll_chars hj c (2 ^ 31 - 4096) (by norm_num) b h1 hb
  rw [e1, Outcome.bind_ok, List.replicate_succ', TextBuffer.applyAll_append, e2, Outcome.bind_ok]
  show (b'.push junk c).bind _ = _
  have hp := h2.position
  rw [List.length_replicate] at hp
  have hs' : b'.size = 2147479552 := by rw [hs]; norm_num
  have hp' : b'.position = 2147479552 := by rw [hp]; norm_num
  have : b'.push junk c = .ub := by
    unfold TextBuffer.push TextBuffer.step
    rw [hs', hp']
    rfl
  rw [this]
  rfl

/-- The hypotheses are met, with a reset, with an append that grows the block and with pushes. -/
example : Moderate [.text b!"lost", .reset, .text b!"1.0,", .char ch%'2', .text b!"3.5"] := by
  intro k
  rcases k with _ | _ | _ | _ | _ | k
  all_goals first | decide | (rw [List.take_of_length_le (by simp)]; decide)
example : ((TextBuffer.create (List.replicate · 7) 2).bind fun b =>
    (b.applyAll (List.replicate · 7) [.text b!"lost", .reset, .text b!"1.0,", .char ch%'2', .text b!"3.5"]).bind TextBuffer.extract)
      = .ok (b!"1.0,23.5" ++ [0]) := by decide +kernel

end Trax
