import Verif.Lemmas.Message
import Verif.Spec.Grammar
import Verif.Spec.PropertyMap

/-! Helper lemmas: reading messages in all the ways in which they may be written. -/

namespace Trax
open Spec

theorem meant_cons (p : Piece) (ps : List Piece) : meant (p :: ps) = p.meant :: meant ps := rfl
theorem written_cons (p : Piece) (ps : List Piece) : written (p :: ps) = p.written ++ written ps := rfl
@[simp] theorem meant_nil : meant [] = [] := rfl
@[simp] theorem written_nil : written [] = [] := rfl

/-- `NoKey` after some characters. -/
def KeySafe (k : Str) (ps : List Piece) : Prop :=
  ∀ a b, ps = a ++ .plain 61 :: b → isValidKey (k ++ meant a) = false

theorem keySafe_cons {k : Str} {p : Piece} {ps : List Piece} (h : KeySafe k (p :: ps)) :
    (p = .plain 61 → isValidKey k = false) ∧ KeySafe (k ++ [p.meant]) ps := by
  constructor
  · intro hp
    have := h [] ps (by simp [hp])
    simpa using this
  · intro a b hab
    have := h (p :: a) b (by simp [hab])
    simpa [meant_cons] using this

theorem not_validKey {k : Str} (h : ¬ ValidKey k) : isValidKey k = false := by
  cases hv : isValidKey k with
  | false => rfl
  | true => exact absurd ((isValidKey_iff k).mp hv) h

theorem Spec.Piece.InQuotes.meant_ne {p : Piece} (h : p.InQuotes) : p.meant ≠ 0 := by
  cases p with
  | plain c => exact h.1
  | escaped c => simp only [Piece.meant]; split
                 · decide
                 · exact h.1

theorem Spec.Piece.Bare.meant_ne {p : Piece} (h : p.Bare) : p.meant ≠ 0 := by
  cases p with
  | plain c => exact h.1
  | escaped c => simp only [Piece.meant]; split
                 · decide
                 · exact h.1

theorem noNul_meant {ps : List Piece} (h : ∀ p ∈ ps, p.meant ≠ 0) : NoNul (meant ps) := by
  intro c hc
  obtain ⟨p, hp, rfl⟩ := List.mem_map.mp hc
  exact h p hp

/-- Reading a text in quotes that is no named argument. -/
theorem readLoop_qKey_pieces (ps : List Piece) (r : Reader) (rest : List InEv) (hst : r.st = .qKey)
    (hc : r.complete = false) (hp : ∀ p ∈ ps, p.InQuotes) (hs : KeySafe r.key ps) :
    readLoop r (bytes (written ps) ++ rest) =
      readLoop { r with key := r.key ++ meant ps, log := r.log ++ written ps } rest := by
  induction ps generalizing r with
  | nil => simp
  | cons p ps ih =>
    obtain ⟨heq, hs'⟩ := keySafe_cons hs
    have hp' : ∀ p ∈ ps, p.InQuotes := fun p h => hp p (by simp [h])
    have h0 := hp p (by simp)
    rw [written_cons, meant_cons]
    cases p with
    | plain c =>
      obtain ⟨_, h7, h1, h2, h3⟩ := h0
      have hfeed : r.feed c = { r with key := r.key ++ [c], log := r.log ++ [c] } := by
        by_cases h4 : c = 61
        · simp [Reader.feed, Reader.step, hst, Reader.stepQKey, h4, heq (by rw [h4])]
        · simp [Reader.feed, Reader.step, hst, Reader.stepQKey, h1, h2, h4]
      simp only [Piece.written, Piece.meant, List.cons_append, List.nil_append, bytes_cons]
      rw [readLoop_cons _ _ _ hc h7, hfeed, ih _ (by exact hst) (by exact hc) hp' hs']
      simp
    | escaped c =>
      obtain ⟨_, h7, h1⟩ := h0
      simp only [Piece.written, List.cons_append, List.nil_append, bytes_cons]
      have hfeed : (r.feed 92).feed c =
          { r with key := r.key ++ [(Piece.escaped c).meant], log := r.log ++ [92, c] } := by
        by_cases h4 : c = 110
        · simp [Reader.feed, Reader.step, hst, Reader.stepQKey, Reader.stepEscKey, h4, Piece.meant]
        · simp [Reader.feed, Reader.step, hst, Reader.stepQKey, Reader.stepEscKey, h4, h1, Piece.meant]
      rw [readLoop_cons _ _ _ hc (by decide), readLoop_cons _ _ _
        (by simp [Reader.feed, Reader.step, hst, Reader.stepQKey, hc]) h7, hfeed,
        ih _ (by exact hst) (by exact hc) hp' hs']
      simp

/-- Reading a text without quotes that is no named argument. -/
theorem readLoop_uKey_pieces (ps : List Piece) (r : Reader) (rest : List InEv) (hst : r.st = .uKey)
    (hc : r.complete = false) (hp : ∀ p ∈ ps, p.Bare) (hs : KeySafe r.key ps) :
    readLoop r (bytes (written ps) ++ rest) =
      readLoop { r with key := r.key ++ meant ps, log := r.log ++ written ps } rest := by
  induction ps generalizing r with
  | nil => simp
  | cons p ps ih =>
    obtain ⟨heq, hs'⟩ := keySafe_cons hs
    have hp' : ∀ p ∈ ps, p.Bare := fun p h => hp p (by simp [h])
    have h0 := hp p (by simp)
    rw [written_cons, meant_cons]
    cases p with
    | plain c =>
      obtain ⟨_, h7, h1, h2, h3⟩ := h0
      have hfeed : r.feed c = { r with key := r.key ++ [c], log := r.log ++ [c] } := by
        by_cases h4 : c = 61
        · simp [Reader.feed, Reader.step, hst, Reader.stepUKey, h4, heq (by rw [h4])]
        · simp [Reader.feed, Reader.step, hst, Reader.stepUKey, h1, h2, h3, h4]
      simp only [Piece.written, Piece.meant, List.cons_append, List.nil_append, bytes_cons]
      rw [readLoop_cons _ _ _ hc h7, hfeed, ih _ (by exact hst) (by exact hc) hp' hs']
      simp
    | escaped c =>
      obtain ⟨_, h7, h1⟩ := h0
      simp only [Piece.written, List.cons_append, List.nil_append, bytes_cons]
      have hfeed : (r.feed 92).feed c =
          { r with key := r.key ++ [(Piece.escaped c).meant], log := r.log ++ [92, c] } := by
        by_cases h4 : c = 110
        · simp [Reader.feed, Reader.step, hst, Reader.stepUKey, Reader.stepEscKey, h4, Piece.meant]
        · simp [Reader.feed, Reader.step, hst, Reader.stepUKey, Reader.stepEscKey, h4, h1, Piece.meant]
      rw [readLoop_cons _ _ _ hc (by decide), readLoop_cons _ _ _
        (by simp [Reader.feed, Reader.step, hst, Reader.stepUKey, hc]) h7, hfeed,
        ih _ (by exact hst) (by exact hc) hp' hs']
      simp

/-- Reading the value of a named argument in quotes. -/
theorem readLoop_qVal_pieces (ps : List Piece) (r : Reader) (rest : List InEv) (hst : r.st = .qVal)
    (hc : r.complete = false) (hp : ∀ p ∈ ps, p.InQuotes) :
    readLoop r (bytes (written ps) ++ rest) =
      readLoop { r with val := r.val ++ meant ps, log := r.log ++ written ps } rest := by
  induction ps generalizing r with
  | nil => simp
  | cons p ps ih =>
    have hp' : ∀ p ∈ ps, p.InQuotes := fun p h => hp p (by simp [h])
    have h0 := hp p (by simp)
    rw [written_cons, meant_cons]
    cases p with
    | plain c =>
      obtain ⟨_, h7, h1, h2, h3⟩ := h0
      have hfeed : r.feed c = { r with val := r.val ++ [c], log := r.log ++ [c] } := by
        simp [Reader.feed, Reader.step, hst, Reader.stepQVal, h1, h2]
      simp only [Piece.written, Piece.meant, List.cons_append, List.nil_append, bytes_cons]
      rw [readLoop_cons _ _ _ hc h7, hfeed, ih _ (by exact hst) (by exact hc) hp']
      simp
    | escaped c =>
      obtain ⟨_, h7, h1⟩ := h0
      simp only [Piece.written, List.cons_append, List.nil_append, bytes_cons]
      have hfeed : (r.feed 92).feed c =
          { r with val := r.val ++ [(Piece.escaped c).meant], log := r.log ++ [92, c] } := by
        by_cases h4 : c = 110
        · simp [Reader.feed, Reader.step, hst, Reader.stepQVal, Reader.stepEscVal, h4, Piece.meant]
        · simp [Reader.feed, Reader.step, hst, Reader.stepQVal, Reader.stepEscVal, h4, h1, Piece.meant]
      rw [readLoop_cons _ _ _ hc (by decide), readLoop_cons _ _ _
        (by simp [Reader.feed, Reader.step, hst, Reader.stepQVal, hc]) h7, hfeed,
        ih _ (by exact hst) (by exact hc) hp']
      simp

/-- Reading the value of a named argument without quotes. -/
theorem readLoop_uVal_pieces (ps : List Piece) (r : Reader) (rest : List InEv) (hst : r.st = .uVal)
    (hc : r.complete = false) (hp : ∀ p ∈ ps, p.Bare) :
    readLoop r (bytes (written ps) ++ rest) =
      readLoop { r with val := r.val ++ meant ps, log := r.log ++ written ps } rest := by
  induction ps generalizing r with
  | nil => simp
  | cons p ps ih =>
    have hp' : ∀ p ∈ ps, p.Bare := fun p h => hp p (by simp [h])
    have h0 := hp p (by simp)
    rw [written_cons, meant_cons]
    cases p with
    | plain c =>
      obtain ⟨_, h7, h1, h2, h3⟩ := h0
      have hfeed : r.feed c = { r with val := r.val ++ [c], log := r.log ++ [c] } := by
        simp [Reader.feed, Reader.step, hst, Reader.stepUVal, h1, h2, h3]
      simp only [Piece.written, Piece.meant, List.cons_append, List.nil_append, bytes_cons]
      rw [readLoop_cons _ _ _ hc h7, hfeed, ih _ (by exact hst) (by exact hc) hp']
      simp
    | escaped c =>
      obtain ⟨_, h7, h1⟩ := h0
      simp only [Piece.written, List.cons_append, List.nil_append, bytes_cons]
      have hfeed : (r.feed 92).feed c =
          { r with val := r.val ++ [(Piece.escaped c).meant], log := r.log ++ [92, c] } := by
        by_cases h4 : c = 110
        · simp [Reader.feed, Reader.step, hst, Reader.stepUVal, Reader.stepEscVal, h4, Piece.meant]
        · simp [Reader.feed, Reader.step, hst, Reader.stepUVal, Reader.stepEscVal, h4, h1, Piece.meant]
      rw [readLoop_cons _ _ _ hc (by decide), readLoop_cons _ _ _
        (by simp [Reader.feed, Reader.step, hst, Reader.stepUVal, hc]) h7, hfeed,
        ih _ (by exact hst) (by exact hc) hp']
      simp

/-! ### Beginnings of messages -/

/-- What a reader has collected. -/
structure Has (r : Reader) (t : MsgType) (args : List Str) (props : Properties) (log : Str) : Prop where
  mtype : r.mtype = some t
  args : r.args = args
  props : r.props = props
  log : r.log = log

/-- The reader is behind a name or a field: the field counts as soon as a space or the end of the
line follows. -/
structure AtEnd (r : Reader) (t : MsgType) (args : List Str) (props : Properties) (log : Str) : Prop where
  incomplete : r.complete = false
  logged : r.log = log
  space : (r.feed 32).st = .space ∧ (r.feed 32).complete = false ∧ Has (r.feed 32) t args props (log ++ [32])
  line : (r.feed 10).complete = true ∧ Has (r.feed 10) t args props (log ++ [10])

/-- Further separating characters. -/
theorem readLoop_blanks (s : Str) (r : Reader) (rest : List InEv) (hst : r.st = .space)
    (hc : r.complete = false) (hs : ∀ c ∈ s, c = 32 ∨ c = 13) :
    readLoop r (bytes s ++ rest) = readLoop { r with log := r.log ++ s } rest := by
  induction s generalizing r with
  | nil => simp
  | cons c s ih =>
    have h0 := hs c (by simp)
    have h7 : c.toNat < 128 := by rcases h0 with rfl | rfl <;> decide
    have hfeed : r.feed c = { r with log := r.log ++ [c] } := by
      simp [Reader.feed, Reader.step, hst, Reader.stepSpace, h0]
    simp only [bytes_cons, List.cons_append]
    rw [readLoop_cons _ _ _ hc h7, hfeed, ih _ (by exact hst) (by exact hc) (fun c h => hs c (by simp [h]))]
    simp

theorem AtEnd.separator {r : Reader} {t : MsgType} {args : List Str} {props : Properties} {log sep : Str}
    (h : AtEnd r t args props log) (hs : Separator sep) :
    ∃ r', (∀ rest, readLoop r (bytes sep ++ rest) = readLoop r' rest) ∧ r'.st = .space ∧
      r'.complete = false ∧ Has r' t args props (log ++ sep) := by
  obtain ⟨s, rfl, hs⟩ := hs
  obtain ⟨h1, h2, h3⟩ := h.space
  refine ⟨{ r.feed 32 with log := (r.feed 32).log ++ s }, ?_, h1, h2, h3.mtype, h3.args, h3.props, ?_⟩
  · intro rest
    simp only [bytes_cons, List.cons_append]
    rw [readLoop_cons _ _ _ h.incomplete (by decide)]
    exact readLoop_blanks s _ rest h1 h2 hs
  · simp [h3.log]

/-- Properties with further named arguments. -/
abbrev setAll (p : Properties) (kvs : List (Str × Str)) : Properties :=
  kvs.foldl (fun p kv => p.set kv.1 kv.2) p

theorem validKey_bare {k : Str} (h : ValidKey k) (hne : k ≠ []) :
    ∃ c t, k = c :: t ∧ keyChar c = true ∧ (∀ c ∈ t, keyChar c = true) ∧ c ≠ 13 := by
  cases k with
  | nil => exact absurd rfl hne
  | cons c t =>
    have h1 := h.chars c (by simp)
    refine ⟨c, t, rfl, h1, fun c hc => h.chars c (by simp [hc]), ?_⟩
    intro h13
    rw [h13] at h1
    exact absurd h1 (by decide)

/-- Reading the characters of a valid key without quotes. -/
theorem readLoop_uKey_key (k : Str) (r : Reader) (rest : List InEv) (hst : r.st = .uKey)
    (hc : r.complete = false) (hk : ∀ c ∈ k, keyChar c = true) :
    readLoop r (bytes k ++ rest) = readLoop { r with key := r.key ++ k, log := r.log ++ k } rest := by
  induction k generalizing r with
  | nil => simp
  | cons c t ih =>
    obtain ⟨_, h7, h1, h2, h3, h4, h5⟩ := keyChar_facts (hk c (by simp))
    simp only [List.cons_append, bytes_cons]
    have hfeed : r.feed c = { r with key := r.key ++ [c], log := r.log ++ [c] } := by
      simp [Reader.feed, Reader.step, hst, Reader.stepUKey, h2, h3, h4, h5]
    rw [readLoop_cons _ _ _ (by exact hc) h7, hfeed, ih]
    · simp
    · exact hst
    · exact hc
    · exact fun c hc => hk c (by simp [hc])

/-- Reading one field. -/
theorem readLoop_field {r : Reader} {t : MsgType} {args : List Str} {props : Properties} {log : Str}
    (hst : r.st = .space) (hc : r.complete = false) (h : Has r t args props log) (f : Field) (hf : f.Allowed) :
    ∃ r', (∀ rest, readLoop r (bytes f.written ++ rest) = readLoop r' rest) ∧
      AtEnd r' t (args ++ f.arg.toList) (setAll props f.named.toList) (log ++ f.written) ∧
      (f.Quoted → r'.st = .spaceExpect) := by
  obtain ⟨h1, h2, h3, h4⟩ := h
  have hquote : r.feed 34 = { r with st := .qKey, key := [], val := [], log := r.log ++ [34] } := by
    simp [Reader.feed, Reader.step, hst, Reader.stepSpace]
  cases f with
  | quotedArg ps =>
    obtain ⟨hp, hs⟩ := hf
    have hnul : NoNul (meant ps) := noNul_meant fun p h => (hp p h).meant_ne
    refine ⟨{ r with st := .spaceExpect, key := meant ps, val := [], args := args ++ [meant ps],
                     log := log ++ (Field.quotedArg ps).written }, ?_, ?_, fun _ => rfl⟩
    · intro rest
      simp only [Field.written, bytes_append, List.append_assoc, bytes_cons, bytes_nil, List.cons_append,
        List.nil_append]
      rw [readLoop_cons _ _ _ hc (by decide), hquote,
        readLoop_qKey_pieces ps _ _ rfl (by exact hc) hp (fun a b hab => not_validKey (by exact hs a b hab)),
        readLoop_cons _ _ _ (by exact hc) (by decide)]
      congr 1
      simp [Reader.feed, Reader.step, Reader.stepQKey, Reader.addArg, cstr_of_noNul hnul, h2, h4]
    · constructor <;>
        simp [Reader.feed, Reader.step, Reader.stepSpaceExpect, hc, Field.arg, Field.named]
      · exact ⟨h1, rfl, h3, rfl⟩
      · exact ⟨h1, rfl, h3, rfl⟩
  | bareArg c ps =>
    obtain ⟨⟨h0, h7, hc32, hc92, hc10⟩, hc34, hc13, hp, hs⟩ := hf
    have hnul : NoNul (c :: meant ps) := by
      intro x hx
      rcases List.mem_cons.mp hx with rfl | hx
      · exact h0
      · exact noNul_meant (fun p h => (hp p h).meant_ne) x hx
    refine ⟨{ r with st := .uKey, key := c :: meant ps, val := [],
                     log := log ++ (Field.bareArg c ps).written }, ?_, ?_, fun h => h.elim⟩
    · intro rest
      simp only [Field.written, bytes_append, List.append_assoc, bytes_cons, bytes_nil, List.cons_append,
        List.nil_append]
      have hfirst : r.feed c = { r with st := .uKey, key := [c], val := [], log := r.log ++ [c] } := by
        simp [Reader.feed, Reader.step, hst, Reader.stepSpace, hc32, hc13, hc10, hc34]
      rw [readLoop_cons _ _ _ hc h7, hfirst,
        readLoop_uKey_pieces ps _ _ rfl (by exact hc) hp (fun a b hab => not_validKey (by exact hs a b hab))]
      simp [h4]
    · constructor <;>
        simp [Reader.feed, Reader.step, Reader.stepUKey, Reader.addArg, hc, Field.arg, Field.named,
          cstr_of_noNul hnul]
      · exact ⟨h1, by simp [h2], h3, rfl⟩
      · exact ⟨h1, by simp [h2], h3, rfl⟩
  | quotedNamed k ps =>
    obtain ⟨hk, hp⟩ := hf
    refine ⟨{ r with st := .spaceExpect, key := [], val := [], props := props.set k (meant ps),
                     log := log ++ (Field.quotedNamed k ps).written }, ?_, ?_, fun _ => rfl⟩
    · intro rest
      simp only [Field.written, bytes_append, List.append_assoc, bytes_cons, bytes_nil, List.cons_append,
        List.nil_append]
      have heq : Reader.feed { r with st := .qKey, key := [] ++ k, val := [], log := r.log ++ [34] ++ k } 61 =
          { r with st := .qVal, key := k, val := [], log := r.log ++ [34] ++ k ++ [61] } := by
        simp [Reader.feed, Reader.step, Reader.stepQKey, (isValidKey_iff k).mpr hk]
      rw [readLoop_cons _ _ _ hc (by decide), hquote, readLoop_qKey_key k _ _ rfl (by exact hc) hk.chars,
        readLoop_cons _ _ _ (by exact hc) (by decide), heq, readLoop_qVal_pieces ps _ _ rfl (by exact hc) hp,
        readLoop_cons _ _ _ (by exact hc) (by decide)]
      congr 1
      simp [Reader.feed, Reader.step, Reader.stepQVal, Reader.addProp, h3, h4]
    · constructor <;>
        simp [Reader.feed, Reader.step, Reader.stepSpaceExpect, hc, Field.arg, Field.named, setAll]
      · exact ⟨h1, h2, rfl, rfl⟩
      · exact ⟨h1, h2, rfl, rfl⟩
  | bareNamed k ps =>
    obtain ⟨hne, hk, hp⟩ := hf
    obtain ⟨c, k', rfl, hkc, hk', h13⟩ := validKey_bare hk hne
    obtain ⟨_, h7, h34, h92, h10, h61, h32⟩ := keyChar_facts hkc
    refine ⟨{ r with st := .uVal, key := c :: k', val := meant ps,
                     log := log ++ (Field.bareNamed (c :: k') ps).written }, ?_, ?_, fun h => h.elim⟩
    · intro rest
      simp only [Field.written, bytes_append, List.append_assoc, bytes_cons, bytes_nil, List.cons_append,
        List.nil_append]
      have hfirst : r.feed c = { r with st := .uKey, key := [c], val := [], log := r.log ++ [c] } := by
        simp [Reader.feed, Reader.step, hst, Reader.stepSpace, h32, h13, h10, h34]
      have heq : Reader.feed { r with st := .uKey, key := [c] ++ k', val := [], log := r.log ++ [c] ++ k' } 61 =
          { r with st := .uVal, key := c :: k', val := [], log := r.log ++ [c] ++ k' ++ [61] } := by
        simp [Reader.feed, Reader.step, Reader.stepUKey, (isValidKey_iff _).mpr hk]
      rw [readLoop_cons _ _ _ hc h7, hfirst, readLoop_uKey_key k' _ _ rfl (by exact hc) hk',
        readLoop_cons _ _ _ (by exact hc) (by decide), heq, readLoop_uVal_pieces ps _ _ rfl (by exact hc) hp]
      simp [h4]
    · constructor <;>
        simp [Reader.feed, Reader.step, Reader.stepUVal, Reader.addProp, hc, Field.arg, Field.named, setAll]
      · exact ⟨h1, h2, by simp [h3], rfl⟩
      · exact ⟨h1, h2, by simp [h3], rfl⟩

/-! ### Messages -/

theorem readLoop_headOf {t : MsgType} {fs : List Field} {text : Str} (h : Head t fs text) (r : Reader)
    (hst : r.st = .pfx 0) (hc : r.complete = false) (hk : r.key = []) :
    ∃ r', (∀ rest, readLoop r (bytes text ++ rest) = readLoop r' rest) ∧
      AtEnd r' t (r.args ++ fs.filterMap Field.arg) (setAll r.props (fs.filterMap Field.named))
        (r.log ++ text) := by
  induction h with
  | name name hn =>
    have hnul : NoNul name := fun c hc => (isAlnum_facts (hn.alnum c hc)).1
    refine ⟨{ r with st := .type, key := name, log := r.log ++ (b!"@@TRAX:" ++ name) }, ?_, ?_⟩
    · intro rest
      rw [bytes_append, List.append_assoc, readLoop_prefix r _ hst hc,
        readLoop_type name _ _ (by rfl) (by exact hc) hn.alnum]
      simp [hk]
    · have h32 : isAlnum 32 = false := by decide
      have h10 : isAlnum 10 = false := by decide
      constructor <;>
        simp [Reader.feed, Reader.step, Reader.stepType, hc, h32, h10, cstr_of_noNul hnul, hn.parse,
          Reader.resetBufs]
      · exact ⟨rfl, rfl, rfl, by simp⟩
      · exact ⟨rfl, rfl, rfl, by simp⟩
  | field fs text sep f _ hsep hf ih =>
    obtain ⟨r1, e1, hr1⟩ := ih
    obtain ⟨r2, e2, s2, c2, hr2⟩ := hr1.separator hsep
    obtain ⟨r3, e3, hr3, -⟩ := readLoop_field s2 c2 hr2 f hf
    refine ⟨r3, ?_, ?_⟩
    · intro rest
      rw [bytes_append, bytes_append, List.append_assoc, List.append_assoc, e1, e2, e3]
    · have ha : (fs ++ [f]).filterMap Field.arg = fs.filterMap Field.arg ++ f.arg.toList := by
        cases hfa : f.arg <;> simp [hfa]
      have hn : (fs ++ [f]).filterMap Field.named = fs.filterMap Field.named ++ f.named.toList := by
        cases hfa : f.named <;> simp [hfa]
      rw [ha, hn]
      simpa [setAll, List.foldl_append, List.append_assoc] using hr3

theorem readLoop_writes {t : MsgType} {fs : List Field} {line : Str} (h : Writes t fs line) (r : Reader)
    (hst : r.st = .pfx 0) (hc : r.complete = false) (hk : r.key = []) (rest : List InEv) :
    ∃ r', readLoop r (bytes line ++ rest) = (r', rest) ∧
      Has r' t (r.args ++ fs.filterMap Field.arg) (setAll r.props (fs.filterMap Field.named))
        (r.log ++ line) := by
  obtain ⟨text, hh, hend⟩ := h
  obtain ⟨r1, e1, hr1⟩ := readLoop_headOf hh r hst hc hk
  rcases hend with rfl | ⟨sep, hsep, rfl⟩
  · refine ⟨r1.feed 10, ?_, ?_⟩
    · rw [bytes_append, List.append_assoc, e1]
      simp only [bytes_cons, bytes_nil, List.cons_append, List.nil_append]
      rw [readLoop_cons _ _ _ hr1.incomplete (by decide), readLoop_complete _ _ hr1.line.1]
    · simpa using hr1.line.2
  · obtain ⟨r2, e2, s2, c2, hr2⟩ := hr1.separator hsep
    refine ⟨r2.feed 10, ?_, ?_⟩
    · rw [bytes_append, bytes_append, List.append_assoc, List.append_assoc, e1, e2]
      simp only [bytes_cons, bytes_nil, List.cons_append, List.nil_append]
      rw [readLoop_cons _ _ _ c2 (by decide), readLoop_complete]
      simp [Reader.feed, Reader.step, s2, Reader.stepSpace]
    · refine ⟨?_, ?_, ?_, ?_⟩ <;>
        simp [Reader.feed, Reader.step, s2, Reader.stepSpace, hr2.mtype, hr2.args, hr2.props, hr2.log]

theorem Spec.Head.allowed {t : MsgType} {fs : List Field} {text : Str} (h : Head t fs text) :
    ∀ f ∈ fs, f.Allowed := by
  induction h with
  | name => simp
  | field fs text sep f _ _ hf ih =>
    intro g hg
    rcases List.mem_append.mp hg with hg | hg
    · exact ih g hg
    · rw [List.mem_singleton.mp hg]; exact hf

theorem named_noNul {t : MsgType} {fs : List Field} {line : Str} (h : Writes t fs line) {kv : Str × Str}
    (hkv : kv ∈ fs.filterMap Field.named) : NoNul kv.1 ∧ NoNul kv.2 := by
  obtain ⟨text, hh, -⟩ := h
  obtain ⟨f, hf, e⟩ := List.mem_filterMap.mp hkv
  have ha := hh.allowed f hf
  cases f with
  | quotedArg ps => cases e
  | bareArg c ps => cases e
  | quotedNamed k ps =>
    cases e
    exact ⟨fun c hc => (keyChar_facts (ha.1.chars c hc)).1, noNul_meant fun p h => (ha.2 p h).meant_ne⟩
  | bareNamed k ps =>
    cases e
    exact ⟨fun c hc => (keyChar_facts (ha.2.1.chars c hc)).1, noNul_meant fun p h => (ha.2.2 p h).meant_ne⟩

theorem get_setAll (kvs : List (Str × Str)) (h : ∀ kv ∈ kvs, NoNul kv.1 ∧ NoNul kv.2) {k : Str}
    (hk : NoNul k) :
    (setAll Properties.create kvs).get k = kvs.foldl (fun m kv => m.set kv.1 kv.2) AMap.empty k := by
  have key : ∀ (kvs : List (Str × Str)), (∀ kv ∈ kvs, NoNul kv.1 ∧ NoNul kv.2) → ∀ (p : Properties) (m : AMap),
      p.WF → p.get k = m k → (setAll p kvs).get k = kvs.foldl (fun m kv => m.set kv.1 kv.2) m k := by
    intro kvs
    induction kvs with
    | nil => intro _ p m _ e; exact e
    | cons kv kvs ih =>
      intro h p m hp e
      obtain ⟨h1, h2⟩ := h kv (by simp)
      refine ih (fun kv hkv => h kv (by simp [hkv])) _ _ (Properties.wf_set hp _ _) ?_
      rw [Properties.get_set hp, cstr_of_noNul h1, cstr_of_noNul h2, cstr_of_noNul hk, e]
      by_cases hkk : kv.1 = k
      · simp [AMap.set, hkk]
      · simp [AMap.set, hkk, Ne.symm hkk]
  exact key kvs h _ _ Properties.wf_create (by rw [Properties.get_create]; rfl)

/-! ### Broken messages -/

/-- In a quoted text, whatever it is. -/
theorem readLoop_quoted_pieces (ps : List Piece) (r : Reader) (hst : r.st = .qKey ∨ r.st = .qVal)
    (hc : r.complete = false) (hp : ∀ p ∈ ps, p.InQuotes) :
    ∃ r', (∀ rest, readLoop r (bytes (written ps) ++ rest) = readLoop r' rest) ∧
      (r'.st = .qKey ∨ r'.st = .qVal) ∧ r'.complete = false := by
  induction ps generalizing r with
  | nil => exact ⟨r, by simp, hst, hc⟩
  | cons p ps ih =>
    have hp' : ∀ p ∈ ps, p.InQuotes := fun p h => hp p (by simp [h])
    have h0 := hp p (by simp)
    rw [written_cons]
    cases p with
    | plain c =>
      obtain ⟨_, h7, h1, h2, h3⟩ := h0
      have hf : ((r.feed c).st = .qKey ∨ (r.feed c).st = .qVal) ∧ (r.feed c).complete = false := by
        rcases hst with h | h
        · by_cases h4 : c = 61
          · by_cases hv : isValidKey r.key = true <;>
              simp [Reader.feed, Reader.step, h, Reader.stepQKey, h4, hv, hc]
          · simp [Reader.feed, Reader.step, h, Reader.stepQKey, h1, h2, h4, hc]
        · simp [Reader.feed, Reader.step, h, Reader.stepQVal, h1, h2, hc]
      obtain ⟨r', e, h'⟩ := ih (r.feed c) hf.1 hf.2 hp'
      refine ⟨r', ?_, h'⟩
      intro rest
      simp only [Piece.written, List.cons_append, List.nil_append, bytes_cons]
      rw [readLoop_cons _ _ _ hc h7, e]
    | escaped c =>
      obtain ⟨_, h7, h1⟩ := h0
      have hf : (r.feed 92).complete = false ∧
          (((r.feed 92).feed c).st = .qKey ∨ ((r.feed 92).feed c).st = .qVal) ∧
          ((r.feed 92).feed c).complete = false := by
        rcases hst with h | h <;> by_cases h4 : c = 110 <;>
          simp [Reader.feed, Reader.step, h, Reader.stepQKey, Reader.stepQVal, Reader.stepEscKey,
            Reader.stepEscVal, h4, h1, hc]
      obtain ⟨r', e, h'⟩ := ih _ hf.2.1 hf.2.2 hp'
      refine ⟨r', ?_, h'⟩
      intro rest
      simp only [Piece.written, List.cons_append, List.nil_append, bytes_cons]
      rw [readLoop_cons _ _ _ hc (by decide), readLoop_cons _ _ _ hf.1 h7, e]

/-- In a text without quotes, whatever it is. -/
theorem readLoop_bare_pieces (ps : List Piece) (r : Reader) (hst : r.st = .uKey ∨ r.st = .uVal)
    (hc : r.complete = false) (hp : ∀ p ∈ ps, p.Bare) :
    ∃ r', (∀ rest, readLoop r (bytes (written ps) ++ rest) = readLoop r' rest) ∧
      (r'.st = .uKey ∨ r'.st = .uVal) ∧ r'.complete = false := by
  induction ps generalizing r with
  | nil => exact ⟨r, by simp, hst, hc⟩
  | cons p ps ih =>
    have hp' : ∀ p ∈ ps, p.Bare := fun p h => hp p (by simp [h])
    have h0 := hp p (by simp)
    rw [written_cons]
    cases p with
    | plain c =>
      obtain ⟨_, h7, h1, h2, h3⟩ := h0
      have hf : ((r.feed c).st = .uKey ∨ (r.feed c).st = .uVal) ∧ (r.feed c).complete = false := by
        rcases hst with h | h
        · by_cases h4 : c = 61
          · by_cases hv : isValidKey r.key = true <;>
              simp [Reader.feed, Reader.step, h, Reader.stepUKey, h4, hv, hc]
          · simp [Reader.feed, Reader.step, h, Reader.stepUKey, h1, h2, h3, h4, hc]
        · simp [Reader.feed, Reader.step, h, Reader.stepUVal, h1, h2, h3, hc]
      obtain ⟨r', e, h'⟩ := ih (r.feed c) hf.1 hf.2 hp'
      refine ⟨r', ?_, h'⟩
      intro rest
      simp only [Piece.written, List.cons_append, List.nil_append, bytes_cons]
      rw [readLoop_cons _ _ _ hc h7, e]
    | escaped c =>
      obtain ⟨_, h7, h1⟩ := h0
      have hf : (r.feed 92).complete = false ∧
          (((r.feed 92).feed c).st = .uKey ∨ ((r.feed 92).feed c).st = .uVal) ∧
          ((r.feed 92).feed c).complete = false := by
        rcases hst with h | h <;> by_cases h4 : c = 110 <;>
          simp [Reader.feed, Reader.step, h, Reader.stepUKey, Reader.stepUVal, Reader.stepEscKey,
            Reader.stepEscVal, h4, h1, hc]
      obtain ⟨r', e, h'⟩ := ih _ hf.2.1 hf.2.2 hp'
      refine ⟨r', ?_, h'⟩
      intro rest
      simp only [Piece.written, List.cons_append, List.nil_append, bytes_cons]
      rw [readLoop_cons _ _ _ hc (by decide), readLoop_cons _ _ _ hf.1 h7, e]

/-- Behind a broken message the type is forgotten and no field is open. -/
theorem readLoop_broken {t : MsgType} {line : Str} (h : Broken t line) (r : Reader) (hst : r.st = .pfx 0)
    (hc : r.complete = false) (hk : r.key = []) :
    ∃ r', (∀ rest, readLoop r (bytes line ++ rest) = readLoop r' rest) ∧ r'.mtype = none ∧
      r'.complete = false ∧ (r'.st = .pass ∨ r'.st = .pfx 0) := by
  cases h with
  | quotedEscape fs text sep ps hh hsep hp =>
    obtain ⟨r1, e1, hr1⟩ := readLoop_headOf hh r hst hc hk
    obtain ⟨r2, e2, s2, c2, hr2⟩ := hr1.separator hsep
    have hquote : (r2.feed 34).st = .qKey ∧ (r2.feed 34).complete = false := by
      simp [Reader.feed, Reader.step, s2, Reader.stepSpace, c2]
    obtain ⟨r3, e3, s3, c3⟩ := readLoop_quoted_pieces ps (r2.feed 34) (Or.inl hquote.1) hquote.2 hp
    have hf : (r3.feed 92).complete = false ∧ ((r3.feed 92).feed 10).mtype = none ∧
        ((r3.feed 92).feed 10).complete = false ∧ ((r3.feed 92).feed 10).st = .pass := by
      rcases s3 with h | h <;>
        simp [Reader.feed, Reader.step, h, Reader.stepQKey, Reader.stepQVal, Reader.stepEscKey,
          Reader.stepEscVal, Reader.abandon, c3]
    refine ⟨(r3.feed 92).feed 10, ?_, hf.2.1, hf.2.2.1, Or.inl hf.2.2.2⟩
    intro rest
    simp only [bytes_append, List.append_assoc, e1, e2, bytes_cons, bytes_nil, List.cons_append, List.nil_append]
    rw [readLoop_cons _ _ _ c2 (by decide), e3, readLoop_cons _ _ _ c3 (by decide),
      readLoop_cons _ _ _ hf.1 (by decide)]
  | bareEscape fs text sep c ps hh hsep h0 h34 h13 hp =>
    obtain ⟨_, h7, h32, h92, h10⟩ := h0
    obtain ⟨r1, e1, hr1⟩ := readLoop_headOf hh r hst hc hk
    obtain ⟨r2, e2, s2, c2, hr2⟩ := hr1.separator hsep
    have hfirst : (r2.feed c).st = .uKey ∧ (r2.feed c).complete = false := by
      simp [Reader.feed, Reader.step, s2, Reader.stepSpace, c2, h32, h34, h13, h10]
    obtain ⟨r3, e3, s3, c3⟩ := readLoop_bare_pieces ps (r2.feed c) (Or.inl hfirst.1) hfirst.2 hp
    have hf : (r3.feed 92).complete = false ∧ ((r3.feed 92).feed 10).mtype = none ∧
        ((r3.feed 92).feed 10).complete = false ∧ ((r3.feed 92).feed 10).st = .pass := by
      rcases s3 with h | h <;>
        simp [Reader.feed, Reader.step, h, Reader.stepUKey, Reader.stepUVal, Reader.stepEscKey,
          Reader.stepEscVal, Reader.abandon, c3]
    refine ⟨(r3.feed 92).feed 10, ?_, hf.2.1, hf.2.2.1, Or.inl hf.2.2.2⟩
    intro rest
    simp only [bytes_append, List.append_assoc, e1, e2, bytes_cons, bytes_nil, List.cons_append, List.nil_append]
    rw [readLoop_cons _ _ _ c2 h7, e3, readLoop_cons _ _ _ c3 (by decide), readLoop_cons _ _ _ hf.1 (by decide)]
  | stray fs text sep f x tail hh hsep hf hq h7 h32 h10 htail =>
    obtain ⟨r1, e1, hr1⟩ := readLoop_headOf hh r hst hc hk
    obtain ⟨r2, e2, s2, c2, hr2⟩ := hr1.separator hsep
    obtain ⟨r3, e3, hr3, s3⟩ := readLoop_field s2 c2 hr2 f hf
    have hx : (r3.feed x).st = .pass ∧ (r3.feed x).complete = false ∧ (r3.feed x).mtype = none := by
      simp [Reader.feed, Reader.step, s3 hq, Reader.stepSpaceExpect, h32, h10, hr3.incomplete]
    refine ⟨{ r3.feed x with st := .pfx 0, log := (r3.feed x).log ++ (tail ++ [10]) }, ?_, hx.2.2, hx.2.1, Or.inr rfl⟩
    intro rest
    have hsplit : bytes (text ++ sep ++ f.written ++ [x] ++ tail ++ b!"\n") ++ rest =
        bytes text ++ (bytes sep ++ (bytes f.written ++ (.byte x :: (bytes (tail ++ [10]) ++ rest)))) := by
      simp [bytes]
    rw [hsplit, e1, e2, e3, readLoop_cons _ _ _ hr3.incomplete h7,
      readLoop_pass tail _ rest hx.1 hx.2.1 htail]

/-- Nothing is returned if only foreign lines follow. -/
theorem readLoop_foreign_end (ls : List Str)
    (hl : ∀ l ∈ ls, (∀ c ∈ l, c.toNat < 128 ∧ c ≠ 10) ∧ ¬ traxPrefix <+: l) (r : Reader) (hm : r.mtype = none)
    (hc : r.complete = false) (hst : r.st = .pass ∨ r.st = .pfx 0) (rest : List InEv)
    (hrest : rest = [] ∨ ∃ t, rest = .fail :: t) :
    (readLoop r (bytes (ls.flatMap fun l => l ++ b!"\n") ++ rest)).1.mtype = none := by
  induction ls generalizing r with
  | nil =>
    rcases hrest with rfl | ⟨t, rfl⟩
    · simp [readLoop, hc, Reader.onFail, hm]
    · simp [readLoop, hc, Reader.onFail, hm, InEv.char]
  | cons l ls ih =>
    obtain ⟨h7, hp⟩ := hl l (by simp)
    rw [List.flatMap_cons, bytes_append, List.append_assoc]
    rcases hst with h | h
    · rw [readLoop_pass l r _ h hc h7]
      exact ih (fun l h => hl l (by simp [h])) _ (by exact hm) (by exact hc) (Or.inr rfl)
    · rw [readLoop_foreign l 0 r _ h hc (by decide) h7 hp]
      exact ih (fun l h => hl l (by simp [h])) _ (by exact hm) (by exact hc) (Or.inr rfl)

end Trax
