import Verif.Lemmas.StrMap
import Verif.Spec.Wire

/-! Helper lemmas about the message layer. -/

namespace Trax
open Spec

/-! ### Keys -/

theorem isValidKey_iff (k : Str) : isValidKey k = true ↔ ValidKey k := by
  unfold isValidKey ValidKey
  split
  · next h => simp; intro h2; omega
  · next h =>
    simp only [List.all_eq_true, Bool.or_eq_true, beq_iff_eq]
    constructor
    · intro h2; exact ⟨by omega, fun c hc => by
        rcases h2 c hc with (h3 | h3) | h3
        · exact Or.inl h3
        · exact Or.inr (Or.inl h3)
        · exact Or.inr (Or.inr h3)⟩
    · rintro ⟨_, h2⟩ c hc
      rcases h2 c hc with h3 | h3 | h3
      · exact Or.inl (Or.inl h3)
      · exact Or.inl (Or.inr h3)
      · exact Or.inr h3

/-- Characters of a valid key. -/
def keyChar (c : UInt8) : Bool := isAlnum c || c == ch%'.' || c == ch%'_'

theorem Spec.ValidKey.chars {k : Str} (h : ValidKey k) : ∀ c ∈ k, keyChar c = true := by
  intro c hc
  unfold keyChar
  rcases h.2 c hc with h | h | h <;> simp [h]

theorem keyChar_facts {c : UInt8} (h : keyChar c = true) :
    c ≠ 0 ∧ c.toNat < 128 ∧ c ≠ 34 ∧ c ≠ 92 ∧ c ≠ 10 ∧ c ≠ 61 ∧ c ≠ 32 := by
  have h256 : ∀ n, n < 256 → (keyChar (UInt8.ofNat n) = true →
      UInt8.ofNat n ≠ 0 ∧ (UInt8.ofNat n).toNat < 128 ∧ UInt8.ofNat n ≠ 34 ∧ UInt8.ofNat n ≠ 92 ∧
      UInt8.ofNat n ≠ 10 ∧ UInt8.ofNat n ≠ 61 ∧ UInt8.ofNat n ≠ 32) := by decide +kernel
  have := h256 c.toNat c.toNat_lt
  rw [UInt8.ofNat_toNat] at this
  exact this h

/-- `a` does not become a property when read after the characters `k`. -/
def ArgSafe (k a : Str) : Prop := ∀ p q, a = p ++ 61 :: q → isValidKey (k ++ p) = false

theorem argSafe_cons {k : Str} {c : UInt8} {a : Str} (h : ArgSafe k (c :: a)) :
    (c = 61 → isValidKey k = false) ∧ ArgSafe (k ++ [c]) a := by
  constructor
  · intro hc
    have := h [] a (by simp [hc])
    simpa using this
  · intro p q hpq
    have := h (c :: p) q (by simp [hpq])
    simpa using this

theorem argSafe_of_clear {a : Str} (h : ¬ LooksLikeProperty a) : ArgSafe [] a := by
  intro p q hpq
  cases hv : isValidKey ([] ++ p) with
  | false => rfl
  | true =>
    exfalso
    apply h
    refine ⟨p, q, by simpa using hpq, ?_⟩
    rw [isValidKey_iff] at hv
    simpa using hv

/-! ### Escaping -/

theorem escape_quote (t : Str) : escape (34 :: t) = 92 :: 34 :: escape t := rfl
theorem escape_backslash (t : Str) : escape (92 :: t) = 92 :: 92 :: escape t := rfl
theorem escape_newline (t : Str) : escape (10 :: t) = 92 :: 110 :: escape t := rfl
theorem escape_other (c : UInt8) (t : Str) (h1 : c ≠ 34) (h2 : c ≠ 92) (h3 : c ≠ 10) :
    escape (c :: t) = c :: escape t := by simp [escape, h1, h2, h3]

/-! ### The writer -/

theorem escPieces_flatten (pend s : Str) : (escPieces pend s).flatten = pend ++ escape s := by
  induction s generalizing pend with
  | nil => simp [escPieces, escape]
  | cons c t ih =>
    simp only [escPieces, escape, isSpecial]
    by_cases h1 : c = 34
    · simp [h1, ih]
    · by_cases h2 : c = 92
      · simp [h2, ih]
      · by_cases h3 : c = 10
        · simp [h3, ih]
        · simp [h1, h2, h3, ih]

/-! ### The reader, character by character -/

theorem readLoop_cons (r : Reader) (c : UInt8) (t : List InEv) (hc : r.complete = false)
    (h7 : c.toNat < 128) : readLoop r (.byte c :: t) = readLoop (r.feed c) t := by
  rw [readLoop]; simp [hc, InEv.char, h7]

theorem readLoop_complete (r : Reader) (inp : List InEv) (hc : r.complete = true) :
    readLoop r inp = (r, inp) := by
  cases inp <;> simp [readLoop, hc]

theorem bytes_append (a b : Str) : bytes (a ++ b) = bytes a ++ bytes b := by simp [bytes]
@[simp] theorem bytes_cons (a : UInt8) (b : Str) : bytes (a :: b) = .byte a :: bytes b := rfl
@[simp] theorem bytes_nil : bytes [] = [] := rfl

/-- Reading an escaped text inside quotes, before an equals sign. -/
theorem readLoop_qKey_escape (a : Str) (r : Reader) (rest : List InEv) (hst : r.st = .qKey)
    (hc : r.complete = false) (ha : ∀ c ∈ a, c.toNat < 128) (hs : ArgSafe r.key a) :
    readLoop r (bytes (escape a) ++ rest) =
      readLoop { r with key := r.key ++ a, log := r.log ++ escape a } rest := by
  induction a generalizing r with
  | nil => simp [escape]
  | cons c t ih =>
    obtain ⟨heq, hs'⟩ := argSafe_cons hs
    have h7 : c.toNat < 128 := ha c (by simp)
    have ht : ∀ c ∈ t, c.toNat < 128 := fun c hc => ha c (by simp [hc])
    by_cases h1 : c = 34
    · subst h1
      rw [escape_quote]; simp only [List.cons_append, bytes_cons]
      rw [readLoop_cons _ _ _ (by exact hc) (by decide), readLoop_cons _ _ _ (by simp [Reader.feed, Reader.step, hst, Reader.stepQKey, hc]) (by decide), ih]
      · simp [Reader.feed, Reader.step, hst, Reader.stepQKey, Reader.stepEscKey]
      · simp [Reader.feed, Reader.step, hst, Reader.stepQKey, Reader.stepEscKey]
      · simp [Reader.feed, Reader.step, hst, Reader.stepQKey, Reader.stepEscKey, hc]
      · exact ht
      · simpa [Reader.feed, Reader.step, hst, Reader.stepQKey, Reader.stepEscKey] using hs'
    · by_cases h2 : c = 92
      · subst h2
        rw [escape_backslash]; simp only [List.cons_append, bytes_cons]
        rw [readLoop_cons _ _ _ (by exact hc) (by decide), readLoop_cons _ _ _ (by simp [Reader.feed, Reader.step, hst, Reader.stepQKey, hc]) (by decide), ih]
        · simp [Reader.feed, Reader.step, hst, Reader.stepQKey, Reader.stepEscKey]
        · simp [Reader.feed, Reader.step, hst, Reader.stepQKey, Reader.stepEscKey]
        · simp [Reader.feed, Reader.step, hst, Reader.stepQKey, Reader.stepEscKey, hc]
        · exact ht
        · simpa [Reader.feed, Reader.step, hst, Reader.stepQKey, Reader.stepEscKey] using hs'
      · by_cases h3 : c = 10
        · subst h3
          rw [escape_newline]; simp only [List.cons_append, bytes_cons]
          rw [readLoop_cons _ _ _ (by exact hc) (by decide), readLoop_cons _ _ _ (by simp [Reader.feed, Reader.step, hst, Reader.stepQKey, hc]) (by decide), ih]
          · simp [Reader.feed, Reader.step, hst, Reader.stepQKey, Reader.stepEscKey]
          · simp [Reader.feed, Reader.step, hst, Reader.stepQKey, Reader.stepEscKey]
          · simp [Reader.feed, Reader.step, hst, Reader.stepQKey, Reader.stepEscKey, hc]
          · exact ht
          · simpa [Reader.feed, Reader.step, hst, Reader.stepQKey, Reader.stepEscKey] using hs'
        · rw [escape_other c t h1 h2 h3]; simp only [List.cons_append, bytes_cons]
          have hfeed : r.feed c = { r with key := r.key ++ [c], log := r.log ++ [c] } := by
            by_cases h4 : c = 61
            · simp [Reader.feed, Reader.step, hst, Reader.stepQKey, h4, heq h4]
            · simp [Reader.feed, Reader.step, hst, Reader.stepQKey, h1, h2, h4]
          rw [readLoop_cons _ _ _ (by exact hc) h7, hfeed, ih]
          · simp
          · exact hst
          · exact hc
          · exact ht
          · exact hs'

/-- Reading the characters of a valid key inside quotes. -/
theorem readLoop_qKey_key (k : Str) (r : Reader) (rest : List InEv) (hst : r.st = .qKey)
    (hc : r.complete = false) (hk : ∀ c ∈ k, keyChar c = true) :
    readLoop r (bytes k ++ rest) =
      readLoop { r with key := r.key ++ k, log := r.log ++ k } rest := by
  induction k generalizing r with
  | nil => simp
  | cons c t ih =>
    obtain ⟨_, h7, h1, h2, h3, h4, _⟩ := keyChar_facts (hk c (by simp))
    simp only [List.cons_append, bytes_cons]
    have hfeed : r.feed c = { r with key := r.key ++ [c], log := r.log ++ [c] } := by
      simp [Reader.feed, Reader.step, hst, Reader.stepQKey, h1, h2, h4]
    rw [readLoop_cons _ _ _ (by exact hc) h7, hfeed, ih]
    · simp
    · exact hst
    · exact hc
    · exact fun c hc => hk c (by simp [hc])

/-- Reading an escaped text inside quotes, after the equals sign. -/
theorem readLoop_qVal_escape (a : Str) (r : Reader) (rest : List InEv) (hst : r.st = .qVal)
    (hc : r.complete = false) (ha : ∀ c ∈ a, c.toNat < 128) :
    readLoop r (bytes (escape a) ++ rest) =
      readLoop { r with val := r.val ++ a, log := r.log ++ escape a } rest := by
  induction a generalizing r with
  | nil => simp [escape]
  | cons c t ih =>
    have h7 : c.toNat < 128 := ha c (by simp)
    have ht : ∀ c ∈ t, c.toNat < 128 := fun c hc => ha c (by simp [hc])
    by_cases h1 : c = 34
    · subst h1
      rw [escape_quote]; simp only [List.cons_append, bytes_cons]
      rw [readLoop_cons _ _ _ (by exact hc) (by decide), readLoop_cons _ _ _ (by simp [Reader.feed, Reader.step, hst, Reader.stepQVal, hc]) (by decide), ih]
      · simp [Reader.feed, Reader.step, hst, Reader.stepQVal, Reader.stepEscVal]
      · simp [Reader.feed, Reader.step, hst, Reader.stepQVal, Reader.stepEscVal]
      · simp [Reader.feed, Reader.step, hst, Reader.stepQVal, Reader.stepEscVal, hc]
      · exact ht
    · by_cases h2 : c = 92
      · subst h2
        rw [escape_backslash]; simp only [List.cons_append, bytes_cons]
        rw [readLoop_cons _ _ _ (by exact hc) (by decide), readLoop_cons _ _ _ (by simp [Reader.feed, Reader.step, hst, Reader.stepQVal, hc]) (by decide), ih]
        · simp [Reader.feed, Reader.step, hst, Reader.stepQVal, Reader.stepEscVal]
        · simp [Reader.feed, Reader.step, hst, Reader.stepQVal, Reader.stepEscVal]
        · simp [Reader.feed, Reader.step, hst, Reader.stepQVal, Reader.stepEscVal, hc]
        · exact ht
      · by_cases h3 : c = 10
        · subst h3
          rw [escape_newline]; simp only [List.cons_append, bytes_cons]
          rw [readLoop_cons _ _ _ (by exact hc) (by decide), readLoop_cons _ _ _ (by simp [Reader.feed, Reader.step, hst, Reader.stepQVal, hc]) (by decide), ih]
          · simp [Reader.feed, Reader.step, hst, Reader.stepQVal, Reader.stepEscVal]
          · simp [Reader.feed, Reader.step, hst, Reader.stepQVal, Reader.stepEscVal]
          · simp [Reader.feed, Reader.step, hst, Reader.stepQVal, Reader.stepEscVal, hc]
          · exact ht
        · rw [escape_other c t h1 h2 h3]; simp only [List.cons_append, bytes_cons]
          have hfeed : r.feed c = { r with val := r.val ++ [c], log := r.log ++ [c] } := by
            simp [Reader.feed, Reader.step, hst, Reader.stepQVal, h1, h2]
          rw [readLoop_cons _ _ _ (by exact hc) h7, hfeed, ih]
          · simp
          · exact hst
          · exact hc
          · exact ht

theorem Spec.Plain.ascii {s : Str} (h : Plain s) : ∀ c ∈ s, c.toNat < 128 := fun c hc => (h c hc).2
theorem Spec.Plain.noNul {s : Str} (h : Plain s) : NoNul s := fun c hc => (h c hc).1

/-- Reading one quoted argument and the separator after it. -/
theorem readLoop_arg (a : Str) (r : Reader) (rest : List InEv) (hst : r.st = .space)
    (hc : r.complete = false) (ha : Plain a) (hs : ¬ LooksLikeProperty a) :
    readLoop r (bytes (quoted (escape a)) ++ rest) =
      readLoop { r with key := a, val := [], args := r.args ++ [a],
                        log := r.log ++ quoted (escape a) } rest := by
  simp only [quoted, bytes_append, List.append_assoc, bytes_cons, bytes_nil, List.cons_append, List.nil_append]
  rw [readLoop_cons _ _ _ (by exact hc) (by decide)]
  have h1 : r.feed 34 = { r with st := .qKey, key := [], val := [], log := r.log ++ [34] } := by
    simp [Reader.feed, Reader.step, hst, Reader.stepSpace]
  rw [h1, readLoop_qKey_escape a _ _ rfl (by exact hc) ha.ascii (by exact argSafe_of_clear hs)]
  rw [readLoop_cons _ _ _ (by exact hc) (by decide), readLoop_cons]
  · congr 1
    simp [Reader.feed, Reader.step, Reader.stepQKey, Reader.stepSpaceExpect, Reader.addArg,
      cstr_of_noNul ha.noNul, hst]
  · simp [Reader.feed, Reader.step, Reader.stepQKey, Reader.addArg, hc]
  · decide

/-- Reading one quoted property and the separator after it. -/
theorem readLoop_prop (k v : Str) (r : Reader) (rest : List InEv) (hst : r.st = .space)
    (hc : r.complete = false) (hk : ValidKey k) (hv : Plain v) :
    readLoop r (bytes (quoted (k ++ b!"=" ++ escape v)) ++ rest) =
      readLoop { r with key := [], val := [], props := r.props.set k v,
                        log := r.log ++ quoted (k ++ b!"=" ++ escape v) } rest := by
  simp only [quoted, bytes_append, List.append_assoc, bytes_cons, bytes_nil, List.cons_append, List.nil_append]
  rw [readLoop_cons _ _ _ (by exact hc) (by decide)]
  have h1 : r.feed 34 = { r with st := .qKey, key := [], val := [], log := r.log ++ [34] } := by
    simp [Reader.feed, Reader.step, hst, Reader.stepSpace]
  rw [h1, readLoop_qKey_key k _ _ rfl (by exact hc) hk.chars]
  rw [readLoop_cons _ _ _ (by exact hc) (by decide)]
  have h2 : Reader.feed { r with st := .qKey, key := [] ++ k, val := [], log := r.log ++ [34] ++ k } 61 =
      { r with st := .qVal, key := k, val := [], log := r.log ++ [34] ++ k ++ [61] } := by
    simp [Reader.feed, Reader.step, Reader.stepQKey, (isValidKey_iff k).mpr hk]
  rw [h2, readLoop_qVal_escape v _ _ rfl (by exact hc) hv.ascii]
  rw [readLoop_cons _ _ _ (by exact hc) (by decide), readLoop_cons]
  · congr 1
    simp [Reader.feed, Reader.step, Reader.stepQVal, Reader.stepSpaceExpect, Reader.addProp, hst]
  · simp [Reader.feed, Reader.step, Reader.stepQVal, Reader.addProp, hc]
  · decide

theorem readLoop_args (args : List Str) (r : Reader) (rest : List InEv) (hst : r.st = .space)
    (hc : r.complete = false) (ha : ∀ a ∈ args, Plain a) (hs : ∀ a ∈ args, ¬ LooksLikeProperty a) :
    ∃ k v, readLoop r (bytes (args.flatMap fun a => quoted (escape a)) ++ rest) =
      readLoop { r with key := k, val := v, args := r.args ++ args,
                        log := r.log ++ args.flatMap fun a => quoted (escape a) } rest := by
  induction args generalizing r with
  | nil => exact ⟨r.key, r.val, by simp⟩
  | cons a t ih =>
    simp only [List.flatMap_cons, bytes_append, List.append_assoc]
    rw [readLoop_arg a r _ hst hc (ha a (by simp)) (hs a (by simp))]
    have := ih { r with key := a, val := [], args := r.args ++ [a], log := r.log ++ quoted (escape a) }
      hst hc (fun a h => ha a (by simp [h])) (fun a h => hs a (by simp [h]))
    obtain ⟨k, v, h⟩ := this
    refine ⟨k, v, ?_⟩
    rw [h]; simp

theorem readLoop_props (props : List (Str × Str)) (r : Reader) (rest : List InEv) (hst : r.st = .space)
    (hc : r.complete = false) (hk : ∀ kv ∈ props, ValidKey kv.1) (hv : ∀ kv ∈ props, Plain kv.2) :
    ∃ k v, readLoop r (bytes (props.flatMap fun kv => quoted (kv.1 ++ b!"=" ++ escape kv.2)) ++ rest) =
      readLoop { r with key := k, val := v, props := props.foldl (fun p kv => p.set kv.1 kv.2) r.props,
                        log := r.log ++ props.flatMap fun kv => quoted (kv.1 ++ b!"=" ++ escape kv.2) } rest := by
  induction props generalizing r with
  | nil => exact ⟨r.key, r.val, by simp⟩
  | cons a t ih =>
    simp only [List.flatMap_cons, bytes_append (quoted _), List.append_assoc (bytes (quoted _))]
    rw [readLoop_prop a.1 a.2 r _ hst hc (hk a (by simp)) (hv a (by simp))]
    have := ih { r with key := [], val := [], props := r.props.set a.1 a.2,
                        log := r.log ++ quoted (a.1 ++ b!"=" ++ escape a.2) }
      hst hc (fun a h => hk a (by simp [h])) (fun a h => hv a (by simp [h]))
    obtain ⟨k, v, h⟩ := this
    refine ⟨k, v, ?_⟩
    rw [h]; simp

theorem isAlnum_facts {c : UInt8} (h : isAlnum c = true) : c ≠ 0 ∧ c.toNat < 128 := by
  have hk : keyChar c = true := by simp [keyChar, h]
  exact ⟨(keyChar_facts hk).1, (keyChar_facts hk).2.1⟩

/-- One character of the prefix. -/
theorem readLoop_pfx (r : Reader) (i : Nat) (c : UInt8) (t : List InEv) (hst : r.st = .pfx i)
    (hc : r.complete = false) (h : traxPrefix[i]? = some c) (h7 : c.toNat < 128) :
    readLoop r (.byte c :: t) =
      readLoop { r with st := if i + 1 = traxPrefix.length then .type else .pfx (i + 1),
                        log := r.log ++ [c] } t := by
  rw [readLoop_cons _ _ _ (by exact hc) h7]
  simp only [Reader.feed, Reader.step, hst, Reader.stepPrefix, h, if_true]

/-- The whole prefix. -/
theorem readLoop_prefix (r : Reader) (rest : List InEv) (hst : r.st = .pfx 0)
    (hc : r.complete = false) :
    readLoop r (bytes b!"@@TRAX:" ++ rest) =
      readLoop { r with st := .type, log := r.log ++ b!"@@TRAX:" } rest := by
  simp only [bytes_cons, bytes_nil, List.cons_append, List.nil_append]
  rw [readLoop_pfx r 0 _ _ hst hc (by decide) (by decide),
    readLoop_pfx _ 1 _ _ (by rfl) (by exact hc) (by decide) (by decide),
    readLoop_pfx _ 2 _ _ (by rfl) (by exact hc) (by decide) (by decide),
    readLoop_pfx _ 3 _ _ (by rfl) (by exact hc) (by decide) (by decide),
    readLoop_pfx _ 4 _ _ (by rfl) (by exact hc) (by decide) (by decide),
    readLoop_pfx _ 5 _ _ (by rfl) (by exact hc) (by decide) (by decide),
    readLoop_pfx _ 6 _ _ (by rfl) (by exact hc) (by decide) (by decide)]
  simp [traxPrefix]

/-- The letters of the message type. -/
theorem readLoop_type (k : Str) (r : Reader) (rest : List InEv) (hst : r.st = .type)
    (hc : r.complete = false) (hk : ∀ c ∈ k, isAlnum c = true) :
    readLoop r (bytes k ++ rest) =
      readLoop { r with key := r.key ++ k, log := r.log ++ k } rest := by
  induction k generalizing r with
  | nil => simp
  | cons c t ih =>
    have ha := hk c (by simp)
    simp only [List.cons_append, bytes_cons]
    have hfeed : r.feed c = { r with key := r.key ++ [c], log := r.log ++ [c] } := by
      simp [Reader.feed, Reader.step, hst, Reader.stepType, ha]
    rw [readLoop_cons _ _ _ hc (isAlnum_facts ha).2, hfeed, ih]
    · simp
    · exact hst
    · exact hc
    · exact fun c hc => hk c (by simp [hc])

theorem name_alnum (t : MsgType) : ∀ c ∈ (typeName t), isAlnum c = true := by
  cases t <;> decide

theorem parse_name (t : MsgType) : parseMessageType (typeName t) = some t := by
  cases t <;> decide

theorem name_noNul (t : MsgType) : NoNul (typeName t) := by cases t <;> decide

theorem name_eq (t : MsgType) : t.name = typeName t := by cases t <;> rfl

/-! ### Names -/

theorem small_eq (c : UInt8) : small c = toLower c := by
  have h256 : ∀ n, n < 256 → small (UInt8.ofNat n) = toLower (UInt8.ofNat n) := by decide +kernel
  have := h256 c.toNat c.toNat_lt
  rwa [UInt8.ofNat_toNat] at this

theorem map_small (s : Str) : s.map small = s.map toLower := by
  apply List.map_congr_left
  intro c _
  exact small_eq c

theorem small_alnum {c : UInt8} (h : 97 ≤ (small c).toNat ∧ (small c).toNat ≤ 122) : isAlnum c = true := by
  have h256 : ∀ n, n < 256 → (97 ≤ (small (UInt8.ofNat n)).toNat ∧ (small (UInt8.ofNat n)).toNat ≤ 122 →
      isAlnum (UInt8.ofNat n) = true) := by decide +kernel
  have := h256 c.toNat c.toNat_lt
  rw [UInt8.ofNat_toNat] at this
  exact this h

theorem Spec.Spelling.alnum {t : MsgType} {name : Str} (h : Spelling t name) :
    ∀ c ∈ name, isAlnum c = true := by
  have key : ∀ w : Str, (∀ c ∈ w, 97 ≤ c.toNat ∧ c.toNat ≤ 122) → name.map small = w →
      ∀ c ∈ name, isAlnum c = true := by
    intro w hw e c hc
    apply small_alnum
    apply hw
    rw [← e]
    exact List.mem_map.mpr ⟨c, hc, rfl⟩
  rcases h with h | ⟨-, h⟩
  · refine key _ ?_ h
    cases t <;> decide
  · exact key _ (by decide) h

theorem Spec.Spelling.parse {t : MsgType} {name : Str} (h : Spelling t name) :
    parseMessageType name = some t := by
  have key : ∀ w : Str, name.map small = w → ∀ v : Str, eqNoCase name v = (w == v.map toLower) := by
    intro w e v
    rw [← e, map_small]
    rfl
  rcases h with h | ⟨rfl, h⟩
  · cases t <;> simp only [parseMessageType, key _ h] <;> decide
  · simp only [parseMessageType, key _ h]
    decide

theorem spelling_of_parse {name : Str} {t : MsgType} (h : parseMessageType name = some t) : Spelling t name := by
  have key : ∀ v : Str, eqNoCase name v = true → name.map small = v.map toLower := by
    intro v e
    rw [map_small]
    exact beq_iff_eq.mp e
  unfold parseMessageType at h
  repeat' split at h
  all_goals first
    | (cases h; next hh => exact Or.inl (key _ hh))
    | (cases h; next hh => exact Or.inr ⟨rfl, key _ hh⟩)
    | cases h

theorem parse_none {name : Str} (h : ∀ t, ¬ Spelling t name) : parseMessageType name = none := by
  cases e : parseMessageType name with
  | none => rfl
  | some t => exact absurd (spelling_of_parse e) (h t)

/-- Reading the prefix, the type name and the first separator, from the start of a line. -/
theorem readLoop_head (t : MsgType) (r : Reader) (rest : List InEv) (hst : r.st = .pfx 0)
    (hc : r.complete = false) (hk : r.key = []) :
    readLoop r (bytes (b!"@@TRAX:" ++ (typeName t) ++ b!" ") ++ rest) =
      readLoop { r with mtype := some t, st := .space, key := [], val := [],
                        log := r.log ++ (b!"@@TRAX:" ++ (typeName t) ++ b!" ") } rest := by
  rw [bytes_append, bytes_append, List.append_assoc, List.append_assoc, readLoop_prefix r _ hst hc,
    readLoop_type (typeName t) _ _ (by rfl) (by exact hc) (name_alnum t)]
  simp only [bytes_cons, bytes_nil, List.cons_append, List.nil_append]
  rw [readLoop_cons _ _ _ (by exact hc) (by decide)]
  have h32 : isAlnum 32 = false := by decide
  congr 1
  simp [Reader.feed, Reader.step, Reader.stepType, hk, cstr_of_noNul (name_noNul t), parse_name, h32,
    Reader.resetBufs]

end Trax

namespace Trax
open Spec

/-! ### Whole messages -/

/-- Reading a message from the start of a line, whatever the reader has logged or collected. -/
theorem readLoop_wire (t : MsgType) (args : List Str) (props : List (Str × Str)) (r : Reader)
    (rest : List InEv) (hst : r.st = .pfx 0) (hc : r.complete = false) (hk : r.key = [])
    (hd : Deliverable args props) :
    ∃ k v, readLoop r (bytes (wire t args props) ++ rest) =
      ({ r with mtype := some t, complete := true, st := .space, key := k, val := v, args := r.args ++ args,
                props := props.foldl (fun p kv => p.set kv.1 kv.2) r.props,
                log := r.log ++ wire t args props }, rest) := by
  unfold wire
  rw [bytes_append _ b!"\n", bytes_append, bytes_append, List.append_assoc, List.append_assoc,
    List.append_assoc, readLoop_head t r _ hst hc hk]
  obtain ⟨k1, v1, h1⟩ := readLoop_args args
    { r with mtype := some t, st := .space, key := [], val := [],
             log := r.log ++ (b!"@@TRAX:" ++ (typeName t) ++ b!" ") }
    (bytes (props.flatMap fun kv => quoted (kv.1 ++ b!"=" ++ escape kv.2)) ++ (bytes b!"\n" ++ rest))
    rfl hc hd.args_plain hd.args_clear
  rw [h1]
  obtain ⟨k2, v2, h2⟩ := readLoop_props props
    { r with mtype := some t, st := .space, key := k1, val := v1, args := r.args ++ args,
             log := r.log ++ (b!"@@TRAX:" ++ (typeName t) ++ b!" ") ++ args.flatMap fun a => quoted (escape a) }
    (bytes b!"\n" ++ rest) rfl hc hd.keys_valid hd.values_plain
  rw [h2]
  refine ⟨k2, v2, ?_⟩
  simp only [bytes_cons, bytes_nil, List.cons_append, List.nil_append]
  rw [readLoop_cons _ _ _ (by exact hc) (by decide), readLoop_complete]
  · simp [Reader.feed, Reader.step, Reader.stepSpace]
  · simp [Reader.feed, Reader.step, Reader.stepSpace]

theorem readMessage_wire (mt : Option MsgType) (p0 : Properties) (t : MsgType) (args : List Str)
    (props : List (Str × Str)) (rest : List InEv) (hd : Deliverable args props) :
    readMessage mt p0 (bytes (wire t args props) ++ rest) =
      { mtype := some t, args := args, props := props.foldl (fun p kv => p.set kv.1 kv.2) p0,
        log := wire t args props, rest := rest } := by
  obtain ⟨k, v, h⟩ := readLoop_wire t args props (Reader.start mt p0) rest rfl rfl rfl hd
  unfold readMessage
  rw [h]
  simp [Reader.start]

/-! ### Foreign lines -/

/-- In the state "skip", everything up to the end of the line is ignored. -/
theorem readLoop_pass (l : Str) (r : Reader) (rest : List InEv) (hst : r.st = .pass)
    (hc : r.complete = false) (h7 : ∀ c ∈ l, c.toNat < 128 ∧ c ≠ 10) :
    readLoop r (bytes (l ++ [10]) ++ rest) =
      readLoop { r with st := .pfx 0, log := r.log ++ (l ++ [10]) } rest := by
  induction l generalizing r with
  | nil =>
    simp only [List.nil_append, bytes_cons, bytes_nil, List.cons_append]
    rw [readLoop_cons _ _ _ hc (by decide)]
    simp [Reader.feed, Reader.step, hst, Reader.stepPass]
  | cons c t ih =>
    obtain ⟨ha, hn⟩ := h7 c (by simp)
    simp only [List.cons_append, bytes_cons]
    have hfeed : r.feed c = { r with log := r.log ++ [c] } := by
      simp [Reader.feed, Reader.step, hst, Reader.stepPass, hn]
    rw [readLoop_cons _ _ _ hc ha, hfeed, ih _ (by exact hst) (by exact hc) (fun c h => h7 c (by simp [h]))]
    simp

/-- A line that does not continue the prefix from position `i` is ignored. -/
theorem readLoop_foreign (l : Str) (i : Nat) (r : Reader) (rest : List InEv) (hst : r.st = .pfx i)
    (hc : r.complete = false) (hi : i < traxPrefix.length) (h7 : ∀ c ∈ l, c.toNat < 128 ∧ c ≠ 10)
    (hp : ¬ traxPrefix.drop i <+: l) :
    readLoop r (bytes (l ++ [10]) ++ rest) =
      readLoop { r with st := .pfx 0, log := r.log ++ (l ++ [10]) } rest := by
  induction l generalizing r i with
  | nil =>
    simp only [List.nil_append, bytes_cons, bytes_nil, List.cons_append]
    rw [readLoop_cons _ _ _ hc (by decide)]
    have hne : ¬ traxPrefix[i]? = some 10 := by
      intro h
      have := List.mem_of_getElem? h
      revert this; decide
    simp [Reader.feed, Reader.step, hst, Reader.stepPrefix, hne]
  | cons c t ih =>
    obtain ⟨ha, hn⟩ := h7 c (by simp)
    have h7t : ∀ c ∈ t, c.toNat < 128 ∧ c ≠ 10 := fun c h => h7 c (by simp [h])
    simp only [List.cons_append, bytes_cons]
    rw [readLoop_cons _ _ _ hc ha]
    by_cases hm : traxPrefix[i]? = some c
    · have hdrop : traxPrefix.drop i = c :: traxPrefix.drop (i + 1) := by
        rw [List.drop_eq_getElem_cons hi]
        congr 1
        rw [List.getElem?_eq_getElem hi] at hm
        exact Option.some.inj hm
      rw [hdrop] at hp
      have hlt : i + 1 < traxPrefix.length := by
        apply Classical.byContradiction
        intro hge
        apply hp
        rw [List.drop_eq_nil_of_le (by omega)]
        simp
      have hfeed : r.feed c = { r with st := .pfx (i + 1), log := r.log ++ [c] } := by
        simp only [Reader.feed, Reader.step, hst, Reader.stepPrefix, hm, if_true]
        rw [if_neg (by omega)]
      rw [hfeed, ih (i + 1) _ rfl (by exact hc) hlt h7t]
      · simp
      · intro h
        apply hp
        rw [List.cons_prefix_cons]
        exact ⟨rfl, h⟩
    · have hfeed : r.feed c = { r with st := .pass, log := r.log ++ [c] } := by
        simp only [Reader.feed, Reader.step, hst, Reader.stepPrefix, hm, if_false, hn]
      rw [hfeed, readLoop_pass t _ rest rfl (by exact hc) h7t]
      simp

end Trax
