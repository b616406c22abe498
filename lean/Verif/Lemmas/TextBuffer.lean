import Verif.Spec.TextBuffer
import Mathlib.Tactic.Ring

/-!
# Lemmas about growing buffers
-/

namespace Trax

theorem add32_ok {a b : Int} (h : InInt32 (a + b)) : add32 a b = .ok (a + b) := if_pos h

theorem blit_ok {α : Type} (block bytes : List α) (n : Nat) (h : n + bytes.length ≤ block.length) :
    blit block n bytes = .ok (block.take n ++ bytes ++ block.drop (n + bytes.length)) := by
  unfold blit
  rw [if_pos ⟨by omega, by omega⟩]
  simp

/-- A block that grows keeps what it begins with. -/
theorem realloc_ok {α : Type} {junk : Nat → List α} (hj : ∀ n, (junk n).length = n) (block t : List α) (size : Nat)
    (ht : block.take t.length = t) (hf : t.length ≤ block.length) (hs : t.length ≤ size) (h0 : 0 < size) :
    ∃ block', realloc junk block size = .ok block' ∧ block'.length = size ∧ block'.take t.length = t := by
  refine ⟨block.take size ++ junk (size - block.length), ?_, ?_, ?_⟩
  · unfold realloc
    rw [if_pos (by omega)]
    rfl
  · rw [List.length_append, hj, List.length_take]; omega
  · rw [List.take_append_of_le_length (by rw [List.length_take]; omega), List.take_take, Nat.min_eq_left (by omega), ht]

namespace TextBuffer

/-- The buffer holds the text `t`. -/
structure Holds (b : TextBuffer) (t : Str) : Prop where
  size : b.size = b.block.length
  limit : b.size < 2 ^ 31
  position : b.position = t.length
  fits : t.length ≤ b.block.length
  text : b.block.take t.length = t

theorem reset_holds {b : TextBuffer} {t : Str} (h : b.Holds t) : b.reset.Holds [] :=
  ⟨h.size, h.limit, rfl, by simp, rfl⟩

/-- Writing text and something behind it. -/
theorem take_blit (block : List Byte) (t s rest : List Byte) (ht : block.take t.length = t) :
    (block.take t.length ++ (s ++ rest) ++ block.drop (t.length + (s ++ rest).length)).take (t ++ s).length = t ++ s := by
  rw [ht, ← List.append_assoc, List.append_assoc, List.take_left]

theorem length_blit {α : Type} (block s : List α) (n : Nat) (h : n + s.length ≤ block.length) :
    (block.take n ++ s ++ block.drop (n + s.length)).length = block.length := by
  simp only [List.length_append, List.length_take, List.length_drop]
  omega

variable {junk : Nat → List Byte} (hj : ∀ n, (junk n).length = n)
include hj

theorem create_holds (l : Int) (h0 : 0 ≤ l) (hl : l < 2 ^ 31) : ∃ b, create junk l = .ok b ∧ b.Holds [] := by
  refine ⟨⟨junk l.toNat, 0, l⟩, if_pos h0, ?_, hl, rfl, by simp, rfl⟩
  dsimp only
  rw [hj]; omega

theorem push_holds {b : TextBuffer} {t : Str} (h : b.Holds t) (c : Byte) (hl : t.length + 4096 < 2 ^ 31) :
    ∃ b', b.push junk c = .ok b' ∧ b'.Holds (t ++ [c]) ∧ b'.size = if b.size = t.length then (t.length : Int) + 4096 else b.size := by
  obtain ⟨hs, hlim, hp, hf, ht⟩ := h
  rcases b with ⟨block, position, size⟩
  dsimp only at *
  subst hp
  subst hs
  have key : ∀ (block : List Byte), (block.length : Int) < 2 ^ 31 → t.length < block.length → block.take t.length = t →
      ∃ b', ((blit block (t.length : Int) [c]).bind fun block' => (add32 (t.length : Int) 1).map fun position =>
        (⟨block', position, block.length⟩ : TextBuffer)) = .ok b' ∧ b'.Holds (t ++ [c]) ∧ b'.size = block.length := by
    intro block h1 h2 h3
    have hb : t.length + [c].length ≤ block.length := by simp; omega
    rw [blit_ok block [c] t.length hb, Outcome.bind_ok, add32_ok (by constructor <;> omega)]
    refine ⟨_, rfl, ⟨?_, h1, ?_, ?_, take_blit block t [c] [] h3⟩, rfl⟩
    · dsimp only; rw [length_blit block [c] t.length hb]
    · simp
    · rw [length_blit block [c] t.length hb]; simp; omega
  unfold push
  dsimp only
  rw [add32_ok (by constructor <;> omega), Outcome.bind_ok]
  by_cases hroom : (1 : Int) > block.length + -t.length
  · rw [if_pos hroom, add32_ok (by unfold step; constructor <;> omega), Outcome.bind_ok]
    obtain ⟨block', e1, e2, e3⟩ := realloc_ok hj block t (t.length + 4096) ht hf (by omega) (by omega)
    rw [show ((t.length : Int) + step) = ((t.length + 4096 : Nat) : Int) by unfold step; omega, e1]
    have := key block' (by omega) (by omega) e3
    rw [e2] at this
    obtain ⟨b', f1, f2, f3⟩ := this
    exact ⟨b', f1, f2, by rw [f3, if_pos (by omega)]; omega⟩
  · rw [if_neg hroom]
    obtain ⟨b', f1, f2, f3⟩ := key block hlim (by omega) ht
    exact ⟨b', f1, f2, by rw [f3, if_neg (by omega)]⟩

theorem append_holds {b : TextBuffer} {t : Str} (h : b.Holds t) (s : Str) (hl : t.length + s.length + 4096 < 2 ^ 31) :
    ∃ b', b.append junk s = .ok b' ∧ b'.Holds (t ++ s) := by
  obtain ⟨hs, hlim, hp, hf, ht⟩ := h
  rcases b with ⟨block, position, size⟩
  dsimp only at *
  subst hp
  subst hs
  -- a print into enough room
  have full : ∀ (block : List Byte), t.length + s.length + 1 ≤ block.length → block.take t.length = t →
      ∃ block', print block (t.length : Int) ((block.length : Int) - t.length) s = .ok block' ∧ block'.length = block.length ∧
        block'.take (t ++ s).length = t ++ s := by
    intro block h1 h2
    have hb : t.length + (s ++ [0]).length ≤ block.length := by simp; omega
    refine ⟨_, ?_, length_blit block (s ++ [0]) t.length hb, take_blit block t s [0] h2⟩
    unfold print
    rw [if_neg (by omega), if_neg (by omega), List.take_of_length_le (by omega)]
    exact blit_ok block (s ++ [0]) t.length hb
  -- a print into any room
  have partly : ∃ block', print block (t.length : Int) (block.length + -t.length) s = .ok block' ∧ block'.length = block.length ∧
        block'.take t.length = t := by
    unfold print
    by_cases h0 : (block.length + -t.length : Int) = 0
    · rw [if_pos h0]; exact ⟨block, rfl, rfl, ht⟩
    · rw [if_neg h0, if_neg (by omega)]
      generalize hbytes : (s.take ((block.length + -t.length : Int).toNat - 1) ++ [0] : List Byte) = bytes
      have hb : t.length + bytes.length ≤ block.length := by
        rw [← hbytes]
        simp only [List.length_append, List.length_take, List.length_singleton]
        omega
      refine ⟨_, blit_ok block bytes t.length hb, length_blit block bytes t.length hb, ?_⟩
      rw [List.append_assoc, List.take_append_of_le_length (by rw [List.length_take]; omega), List.take_take, Nat.min_self, ht]
  have hreq : printed s = s.length := if_pos (by constructor <;> omega)
  unfold append
  dsimp only
  rw [add32_ok (by constructor <;> omega), Outcome.bind_ok, hreq]
  obtain ⟨block1, p1, p2, p3⟩ := partly
  by_cases hroom : (s.length : Int) ≥ block.length + -t.length
  · rw [p1, Outcome.bind_ok, if_pos hroom, add32_ok (by constructor <;> omega), Outcome.bind_ok, add32_ok (by constructor <;> omega), Outcome.bind_ok]
    obtain ⟨block2, e1, e2, e3⟩ := realloc_ok hj block1 t (t.length + s.length + 1) p3 (by omega) (by omega) (by omega)
    rw [show ((t.length : Int) + s.length + 1) = ((t.length + s.length + 1 : Nat) : Int) by omega, e1, Outcome.bind_ok]
    obtain ⟨block3, f1, f2, f3⟩ := full block2 (by omega) e3
    rw [e2] at f1
    rw [f1]
    refine ⟨⟨block3, t.length + s.length, (t.length + s.length + 1 : Nat)⟩, ?_, ?_, ?_, ?_, ?_, f3⟩
    · simp only [Outcome.map, Outcome.bind_ok]
      rw [add32_ok (by constructor <;> omega)]
      rfl
    · dsimp only; omega
    · dsimp only; omega
    · simp
    · simp only [List.length_append]; omega
  · obtain ⟨block3, f1, f2, f3⟩ := full block (by omega) ht
    rw [← Int.sub_eq_add_neg, f1, Outcome.bind_ok, Int.sub_eq_add_neg, if_neg hroom]
    refine ⟨⟨block3, t.length + s.length, block.length⟩, ?_, ?_, hlim, ?_, ?_, f3⟩
    · rw [Outcome.bind_ok]
      dsimp only
      rw [add32_ok (by constructor <;> omega)]
      rfl
    · dsimp only; omega
    · simp
    · simp only [List.length_append]; omega

theorem applyAll_holds (ops : List TextOp) (b : TextBuffer) (t : Str) (h : b.Holds t)
    (hm : ∀ k, (((ops.take k).foldl Spec.collect t)).length + 4096 < 2 ^ 31) :
    ∃ b', applyAll junk ops b = .ok b' ∧ b'.Holds (ops.foldl Spec.collect t) := by
  induction ops generalizing b t with
  | nil => exact ⟨b, rfl, h⟩
  | cons o rest ih =>
    have h0 := hm 0
    have h1 := hm 1
    have hrest : ∀ k, (((rest.take k).foldl Spec.collect (Spec.collect t o))).length + 4096 < 2 ^ 31 := fun k => hm (k + 1)
    simp only [List.take_zero, List.foldl_nil] at h0
    simp only [List.take_succ_cons, List.take_zero, List.foldl_cons, List.foldl_nil] at h1
    have hstep : ∃ b', b.apply junk o = .ok b' ∧ b'.Holds (Spec.collect t o) := by
      cases o with
      | char c => obtain ⟨b', e1, e2, _⟩ := push_holds hj h c h0; exact ⟨b', e1, e2⟩
      | text s => exact append_holds hj h s (by simpa [Spec.collect] using h1)
      | reset => exact ⟨_, rfl, reset_holds h⟩
    obtain ⟨b1, e1, h2⟩ := hstep
    obtain ⟨b2, e2, h3⟩ := ih b1 _ h2 hrest
    exact ⟨b2, by rw [applyAll, e1, Outcome.bind_ok, e2], h3⟩

omit hj in
theorem applyAll_append (xs ys : List TextOp) (b : TextBuffer) :
    applyAll junk (xs ++ ys) b = (applyAll junk xs b).bind (applyAll junk ys) := by
  induction xs generalizing b with
  | nil => rfl
  | cons o rest ih =>
    simp only [List.cons_append, applyAll]
    rcases b.apply junk o with b | _ | _
    · exact ih b
    · rfl
    · rfl

/-- Characters one by one, from a fresh buffer of 4096 bytes. -/
theorem applyAll_chars (c : Byte) (n : Nat) (hn : n + 4096 ≤ 2 ^ 31) (b : TextBuffer) (h : b.Holds []) (hb : b.size = 4096) :
    ∃ b', applyAll junk (List.replicate n (.char c)) b = .ok b' ∧ b'.Holds (List.replicate n c) ∧
      b'.size = if n = 0 then 4096 else 4096 * (((n + 4095) / 4096 : Nat) : Int) := by
  induction n with
  | zero => exact ⟨b, rfl, h, by rw [hb, if_pos rfl]⟩
  | succ n ih =>
    obtain ⟨b1, e1, h1, s1⟩ := ih (by omega)
    obtain ⟨b2, e2, h2, s2⟩ := push_holds hj h1 c (by simp; omega)
    refine ⟨b2, ?_, ?_, ?_⟩
    · rw [List.replicate_succ', applyAll_append, e1, Outcome.bind_ok]
      show (b1.push junk c).bind _ = _
      rw [e2]
      rfl
    · rw [List.replicate_succ']; exact h2
    · rw [List.length_replicate] at s2
      rw [if_neg (Nat.succ_ne_zero n)]
      split at s1 <;> split at s2 <;> omega

omit hj in
theorem extract_holds {b : TextBuffer} {t : Str} (h : b.Holds t) (hl : t.length + 1 < 2 ^ 31) : b.extract = .ok (t ++ [0]) := by
  obtain ⟨hs, hlim, hp, hf, ht⟩ := h
  unfold extract
  rw [hp, add32_ok (by constructor <;> omega), Outcome.bind_ok, if_pos ⟨by omega, by omega⟩]
  simp [ht]

end TextBuffer

namespace StringList

/-- The list holds the strings `t`. -/
structure Holds (l : StringList) (t : List Str) : Prop where
  size : l.size = l.slots.length
  limit : l.size < 2 ^ 31
  position : l.position = t.length
  fits : t.length ≤ l.slots.length
  strings : l.slots.take t.length = t.map .string

theorem append_holds {l : StringList} {t : List Str} (h : l.Holds t) (s : Str) (hl : t.length + 16 < 2 ^ 31) (hs : s.length + 1 < 2 ^ 31) :
    ∃ l', l.append s = .ok l' ∧ l'.Holds (t ++ [s]) := by
  obtain ⟨hsz, hlim, hp, hf, ht⟩ := h
  rcases l with ⟨slots, position, size⟩
  dsimp only at *
  subst hp
  subst hsz
  have key : ∀ (slots : List Slot), (slots.length : Int) < 2 ^ 31 → t.length < slots.length → slots.take t.length = t.map .string →
      ∃ l', ((blit slots (t.length : Int) [Slot.string s]).bind fun slots' => (add32 (t.length : Int) 1).map fun position =>
        (⟨slots', position, slots.length⟩ : StringList)) = .ok l' ∧ l'.Holds (t ++ [s]) := by
    intro slots h1 h2 h3
    have hb : t.length + [Slot.string s].length ≤ slots.length := by simp; omega
    rw [blit_ok slots [Slot.string s] t.length hb, Outcome.bind_ok, add32_ok (by constructor <;> omega)]
    refine ⟨_, rfl, ?_, h1, ?_, ?_, ?_⟩
    · dsimp only; rw [TextBuffer.length_blit slots [Slot.string s] t.length hb]
    · simp
    · rw [TextBuffer.length_blit slots [Slot.string s] t.length hb]; simp; omega
    · dsimp only
      rw [h3, List.map_append, List.map_singleton]
      exact List.take_left' (by simp)
  unfold append
  rw [if_neg (by simp only [not_not]; constructor <;> omega)]
  dsimp only
  rw [add32_ok (by constructor <;> omega), Outcome.bind_ok]
  by_cases hroom : (1 : Int) > slots.length + -t.length
  · rw [if_pos hroom, add32_ok (by constructor <;> omega), Outcome.bind_ok]
    obtain ⟨slots', e1, e2, e3⟩ := realloc_ok (junk := fun n => List.replicate n Slot.junk) (by simp) slots (t.map .string) (t.length + 16)
      (by simpa using ht) (by simpa using hf) (by simp) (by omega)
    rw [show ((t.length : Int) + 16) = ((t.length + 16 : Nat) : Int) by omega, e1]
    have := key slots' (by omega) (by omega) (by simpa using e3)
    rw [e2] at this
    exact this
  · rw [if_neg hroom]
    exact key slots hlim (by omega) ht

theorem appendAll_holds (ss : List Str) (l : StringList) (t : List Str) (h : l.Holds t)
    (hl : t.length + ss.length + 16 ≤ 2 ^ 31) (hs : ∀ s ∈ ss, s.length + 1 < 2 ^ 31) :
    ∃ l', appendAll ss l = .ok l' ∧ l'.Holds (t ++ ss) := by
  induction ss generalizing l t with
  | nil => exact ⟨l, rfl, by simpa using h⟩
  | cons s rest ih =>
    simp only [List.length_cons] at hl
    obtain ⟨l1, e1, h1⟩ := append_holds h s (by omega) (hs s (by simp))
    obtain ⟨l2, e2, h2⟩ := ih l1 (t ++ [s]) h1 (by simp; omega) (fun s' h' => hs s' (by simp [h']))
    exact ⟨l2, by rw [appendAll, e1, Outcome.bind_ok, e2], by simpa using h2⟩

theorem create_holds (n : Int) (h0 : 0 ≤ n) (hn : n < 2 ^ 31) : ∃ l, create n = .ok l ∧ l.Holds [] :=
  ⟨⟨List.replicate n.toNat .null, 0, n⟩, if_pos h0, by simp; omega, hn, rfl, by simp, rfl⟩

theorem clearSlots_holds (t : List Str) (slots : List Slot) (h : slots.take t.length = t.map .string) :
    ∃ slots', clearSlots t.length slots = .ok slots' ∧ slots'.length = slots.length := by
  induction t generalizing slots with
  | nil => exact ⟨slots, by simp [clearSlots], rfl⟩
  | cons s t ih =>
    cases slots with
    | nil => simp at h
    | cons x slots =>
      simp only [List.length_cons, List.take_succ_cons, List.map_cons, List.cons.injEq] at h
      obtain ⟨rfl, h⟩ := h
      obtain ⟨slots', e1, e2⟩ := ih slots h
      refine ⟨.null :: slots', ?_, by simp [e2]⟩
      simp only [List.length_cons, clearSlots, e1]
      rfl

theorem reset_holds {l : StringList} {t : List Str} (h : l.Holds t) : ∃ l', l.reset = .ok l' ∧ l'.Holds [] := by
  obtain ⟨slots', e1, e2⟩ := clearSlots_holds t l.slots h.strings
  refine ⟨⟨slots', 0, l.size⟩, ?_, ?_, h.limit, rfl, by simp, rfl⟩
  · unfold reset
    rw [h.position, Int.toNat_natCast, e1]
    rfl
  · dsimp only; rw [e2]; exact h.size

theorem get_holds {l : StringList} {t : List Str} (h : l.Holds t) (i : Int) :
    l.get i = .ok (if 0 ≤ i then t[i.toNat]? else none) := by
  unfold get
  rw [h.position]
  by_cases hi : i < 0 ∨ i ≥ t.length
  · rw [if_pos hi]
    by_cases h0 : 0 ≤ i
    · rw [if_pos h0, List.getElem?_eq_none (by omega)]
    · rw [if_neg h0]
  · rw [if_neg hi, if_pos (by omega)]
    have hn : i.toNat < t.length := by omega
    have : l.slots[i.toNat]? = some (.string t[i.toNat]) := by
      rw [← List.getElem?_take_of_lt (j := t.length) hn, h.strings]
      simp [hn]
    rw [this, List.getElem?_eq_getElem hn]

end StringList

end Trax
