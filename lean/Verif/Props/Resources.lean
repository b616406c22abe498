import Verif.Model.Resources

/-!
# C177: the images in the test utility
-/

namespace Trax.Resources

/-! ## Specification -/

/-- What a correct decompressor does, from its documentation. `Holds s input output`: in state `s`, the rest of the input stands for the rest of the output. Given a piece of the rest of the input (and the truth about whether there is more) and room
for output, it uses some of the input and makes some of the output; it is done when all output has been made; it only asks for more input when it has used all of the piece and there is more; it only says that there
is more output when there is no room left; and it does not fail. -/
def Correct {σ : Type} (inf : Inflate σ) (Holds : σ → Str → Str → Prop) : Prop :=
  ∀ s piece later output room more, Holds s (piece ++ later) output → 0 < room → (more = false → later = []) →
    ∃ output', output = (inf s piece room more).out ++ output' ∧
      (inf s piece room more).out.length ≤ room ∧ (inf s piece room more).used ≤ piece.length ∧
      Holds (inf s piece room more).next ((piece ++ later).drop (inf s piece room more).used) output' ∧
      (inf s piece room more).status ≠ .failed ∧
      ((inf s piece room more).status = .done → output' = []) ∧
      ((inf s piece room more).status = .needsInput → (inf s piece room more).used = piece.length ∧ later ≠ []) ∧
      ((inf s piece room more).status = .moreOutput → (inf s piece room more).out.length = room)

/-- Data cut into segments of 1024 bytes, of which only the last one has another length. -/
inductive Cut : List Str → Str → Prop where
  | last (data : Str) : Cut [data] data
  | more (seg : Str) (segs : List Str) (data : Str) : seg.length = 1024 → Cut segs data → Cut (seg :: segs) (seg ++ data)

/-- The first entry of that name. -/
def Entry (table : List Resource) (name : Str) (r : Resource) : Prop :=
  ∃ before later, table = before ++ r :: later ∧ r.name = name ∧ ∀ x ∈ before, x.name ≠ name

/-! ## Lemmas -/

variable {σ : Type} {inf : Inflate σ} {Holds : σ → Str → Str → Prop}

theorem inflateSegment_ok (hc : Correct inf Holds) (seg later : Str) (more : Bool) (hmore : more = false → later = []) (fuel : Nat) :
    ∀ (ofs dict : Nat) (s : σ) (got : List Str) (output : Str), output.length < fuel → dict < chunkSize → ofs ≤ seg.length →
      Holds s (seg.drop ofs ++ later) output → (∀ c ∈ got, 0 < c.length ∧ c.length ≤ 32768) →
      ∃ result dict' s' got' output', inflateSegment inf (fun _ => true) seg more fuel ofs dict s got = .ok (result, dict', s', got') ∧
        got'.flatten ++ output' = got.flatten ++ output ∧ dict' < chunkSize ∧ (∀ c ∈ got', 0 < c.length ∧ c.length ≤ 32768) ∧ output'.length ≤ output.length ∧
        ((result = 1 ∧ output' = []) ∨ (result = 3 ∧ later ≠ [] ∧ Holds s' later output')) := by
  induction fuel with
  | zero => intro _ _ _ _ _ h; omega
  | succ fuel ih =>
    intro ofs dict s got output hfuel hdict hofs hh hgot
    obtain ⟨output', h1, h2, h3, h4, h5, h6, h7, h8⟩ := hc s (seg.drop ofs) later output (chunkSize - dict) more hh (by omega) hmore
    rw [inflateSegment]
    generalize inf s (seg.drop ofs) (chunkSize - dict) more = r at h1 h2 h3 h4 h5 h6 h7 h8 ⊢
    dsimp only
    rw [if_neg (by simp)]
    have hlen : (seg.drop ofs).length = seg.length - ofs := List.length_drop
    have hchunk : chunkSize = 32768 := rfl
    have hmod : (dict + r.out.length) % chunkSize < chunkSize := Nat.mod_lt _ (by decide)
    have hgot' : ∀ c ∈ (if r.out.length ≠ 0 then got ++ [r.out] else got), 0 < c.length ∧ c.length ≤ 32768 := by
      intro c hc'
      split at hc'
      · rename_i hne
        rcases List.mem_append.1 hc' with h | h
        · exact hgot c h
        · rw [List.mem_singleton.1 h]; omega
      · exact hgot c hc'
    have hflat : (if r.out.length ≠ 0 then got ++ [r.out] else got).flatten = got.flatten ++ r.out := by
      by_cases hne : r.out.length ≠ 0
      · rw [if_pos hne]; simp
      · rw [if_neg hne]
        have : r.out = [] := List.eq_nil_of_length_eq_zero (by omega)
        rw [this]; simp
    generalize (if r.out.length ≠ 0 then got ++ [r.out] else got) = got1 at hgot' hflat ⊢
    have hol : output.length = r.out.length + output'.length := by rw [h1]; simp
    have hdrop : (seg.drop ofs ++ later).drop r.used = seg.drop (ofs + r.used) ++ later := by
      rw [List.drop_append_of_le_length h3, List.drop_drop]
    cases e : r.status with
    | failed => exact absurd e h5
    | done =>
      dsimp only
      exact ⟨1, _, _, _, output', rfl, by rw [hflat, h1]; simp, hmod, hgot', by omega, .inl ⟨rfl, h6 e⟩⟩
    | needsInput =>
      dsimp only
      obtain ⟨h9, h10⟩ := h7 e
      rw [if_pos (by omega)]
      refine ⟨3, _, _, _, output', rfl, by rw [hflat, h1]; simp, hmod, hgot', by omega, .inr ⟨rfl, h10, ?_⟩⟩
      rw [hdrop, List.drop_of_length_le (by omega)] at h4
      exact h4
    | moreOutput =>
      dsimp only
      have h9 := h8 e
      rw [hdrop] at h4
      obtain ⟨result, dict', s', got', out2, g1, g2, g3, g4, g5, g6⟩ := ih (ofs + r.used) ((dict + r.out.length) % chunkSize) r.next got1 output' (by omega) hmod (by omega) h4 hgot'
      refine ⟨result, dict', s', got', out2, g1, ?_, g3, g4, by omega, g6⟩
      rw [g2, hflat, h1]; simp

theorem cut_ne {segs : List Str} {data : Str} (h : Cut segs data) : segs ≠ [] := by
  cases h <;> simp

theorem inflateSegments_ok (hc : Correct inf Holds) (fuel deflated : Nat) (segs : List Str) (data : Str) (hcut : Cut segs data) :
    ∀ (index dict : Nat) (s : σ) (got : List Str) (output : Str), output.length < fuel → dict < chunkSize → deflated = index * 1024 + data.length →
      Holds s data output → (∀ c ∈ got, 0 < c.length ∧ c.length ≤ 32768) →
      ∃ got', inflateSegments inf (fun _ => true) fuel deflated segs index dict s got = .ok (1, got') ∧ got'.flatten = got.flatten ++ output ∧
        ∀ c ∈ got', 0 < c.length ∧ c.length ≤ 32768 := by
  induction hcut with
  | last data =>
    intro index dict s got output hfuel hdict hdef hh hgot
    rw [inflateSegments]
    have hs : segmentSize deflated index ([] : List Str).isEmpty = data.length := by
      show deflated - index * 1024 = data.length; omega
    rw [hs, if_pos (Nat.le_refl _), List.take_length]
    obtain ⟨result, dict', s', got', out2, g1, g2, g3, g4, g5, g6⟩ := inflateSegment_ok hc data [] (!([] : List Str).isEmpty) (fun _ => rfl) fuel 0 dict s got output hfuel hdict (by omega) (by simpa using hh) hgot
    rw [g1]
    dsimp only
    rcases g6 with ⟨e1, e2⟩ | ⟨_, e2, _⟩
    · subst e1 e2
      exact ⟨got', by simp, by simpa using g2, g4⟩
    · exact absurd rfl e2
  | more seg segs data hseg hcut ih =>
    intro index dict s got output hfuel hdict hdef hh hgot
    rw [inflateSegments]
    have hemp : segs.isEmpty = false := by
      cases segs with
      | nil => exact absurd rfl (cut_ne hcut)
      | cons a b => rfl
    have hs : segmentSize deflated index segs.isEmpty = seg.length := by
      rw [hemp, hseg]; rfl
    rw [hs, if_pos (Nat.le_refl _), List.take_length]
    obtain ⟨result, dict', s', got', out2, g1, g2, g3, g4, g5, g6⟩ := inflateSegment_ok hc seg data (!segs.isEmpty) (by rw [hemp]; intro h; cases h) fuel 0 dict s got output hfuel hdict (by omega) (by simpa using hh) hgot
    rw [g1]
    dsimp only
    rcases g6 with ⟨e1, e2⟩ | ⟨e1, e2, e3⟩
    · subst e1 e2
      exact ⟨got', by simp, by simpa using g2, g4⟩
    · subst e1
      rw [if_neg (by simp)]
      obtain ⟨got2, k1, k2, k3⟩ := ih (index + 1) dict' s' got' out2 (by omega) g3 (by rw [List.length_append, hseg] at hdef; rw [hdef, Nat.add_mul, Nat.one_mul, Nat.add_assoc]) e3 g4
      exact ⟨got2, k1, by rw [k2, g2], k3⟩

theorem plainSegments_ok (inflated : Nat) (segs : List Str) (data : Str) (hcut : Cut segs data) : ∀ (index : Nat) (got : List Str), inflated = index * 1024 + data.length →
    ∃ got', plainSegments inflated segs index got = .ok got' ∧ got'.flatten = got.flatten ++ data := by
  induction hcut with
  | last data =>
    intro index got hdef
    rw [plainSegments]
    have hs : segmentSize inflated index ([] : List Str).isEmpty = data.length := by
      show inflated - index * 1024 = data.length; omega
    rw [hs, if_pos (Nat.le_refl _), List.take_length, plainSegments]
    exact ⟨_, rfl, by simp⟩
  | more seg segs data hseg hcut ih =>
    intro index got hdef
    rw [plainSegments]
    have hemp : segs.isEmpty = false := by
      cases segs with
      | nil => exact absurd rfl (cut_ne hcut)
      | cons a b => rfl
    have hs : segmentSize inflated index segs.isEmpty = seg.length := by
      rw [hemp, hseg]; rfl
    rw [hs, if_pos (Nat.le_refl _), List.take_length]
    obtain ⟨got', k1, k2⟩ := ih (index + 1) (got ++ [seg]) (by rw [List.length_append, hseg] at hdef; rw [hdef, Nat.add_mul, Nat.one_mul, Nat.add_assoc])
    exact ⟨got', k1, by rw [k2]; simp⟩

theorem fill_ok (fresh : Nat → UInt8) (got : List Str) (plain : Str) (h : got.flatten = plain) : fill fresh plain.length got = .ok plain := by
  unfold fill
  rw [h, if_pos (Nat.le_refl _)]
  simp

theorem copy_entry (init : σ) (fresh : Nat → UInt8) (fuel : Nat) {table : List Resource} {name : Str} {r : Resource} (h : Entry table name r) :
    ∃ later, copy inf init fresh fuel table name = copy inf init fresh fuel (r :: later) name ∧ r.name = name := by
  obtain ⟨before, later, e, hn, hb⟩ := h
  subst e
  refine ⟨later, ?_, hn⟩
  induction before with
  | nil => rfl
  | cons x before ih =>
    rw [List.cons_append, copy, if_neg (fun e => hb x (by simp) e.symm)]
    exact ih fun y hy => hb y (by simp [hy])

theorem get_entry (init : σ) (accept : List Str → Bool) (pointers : Resource → Str) (fuel : Nat) {table : List Resource} {name : Str} {r : Resource} (h : Entry table name r) :
    ∃ later, get inf init accept pointers fuel table name = get inf init accept pointers fuel (r :: later) name ∧ r.name = name := by
  obtain ⟨before, later, e, hn, hb⟩ := h
  subst e
  refine ⟨later, ?_, hn⟩
  induction before with
  | nil => rfl
  | cons x before ih =>
    rw [List.cons_append, get, if_neg (fun e => hb x (by simp) e.symm)]
    exact ih fun y hy => hb y (by simp [hy])

/-- All pieces so far were accepted. -/
def Accepted (accept : List Str → Bool) (got : List Str) : Prop := ∀ p, p <+: got → p ≠ [] → accept p = true

theorem accepted_snoc {accept : List Str → Bool} {got : List Str} {x : Str} (h : Accepted accept got) (hx : accept (got ++ [x]) = true) : Accepted accept (got ++ [x]) := by
  intro p hp hne
  rcases List.prefix_concat_iff.1 (by simpa using hp) with e | e
  · rw [e]; simpa using hx
  · exact h p e hne

theorem inflateSegment_stop (inf : Inflate σ) (accept : List Str → Bool) (seg : Str) (more : Bool) (fuel : Nat) : ∀ (ofs dict : Nat) (s : σ) (got : List Str) (result : Int) (dict' : Nat) (s' : σ) (got' : List Str),
    inflateSegment inf accept seg more fuel ofs dict s got = .ok (result, dict', s', got') → Accepted accept got →
    Accepted accept got' ∨ (result ≠ 3 ∧ ∃ g x, got' = g ++ [x] ∧ Accepted accept g) := by
  induction fuel with
  | zero => intro _ _ _ _ _ _ _ _ h; cases h
  | succ fuel ih =>
    intro ofs dict s got result dict' s' got' h ha
    rw [inflateSegment] at h
    generalize inf s (seg.drop ofs) (chunkSize - dict) more = r at h
    dsimp only at h
    by_cases hne : r.out.length ≠ 0
    · rw [if_pos hne] at h
      by_cases hacc : accept (got ++ [r.out]) = true
      · have ha' := accepted_snoc ha hacc
        rw [if_neg (by simp [hacc])] at h
        cases e : r.status <;> rw [e] at h <;> dsimp only at h
        · cases h; exact .inl ha'
        · cases h; exact .inl ha'
        · split at h
          · cases h; exact .inl ha'
          · exact ih _ _ _ _ _ _ _ _ h ha'
        · exact ih _ _ _ _ _ _ _ _ h ha'
      · rw [if_pos ⟨hne, by simpa using hacc⟩] at h
        cases h
        exact .inr ⟨by decide, got, r.out, rfl, ha⟩
    · rw [if_neg hne, if_neg (fun h => hne h.1)] at h
      cases e : r.status <;> rw [e] at h <;> dsimp only at h
      · cases h; exact .inl ha
      · cases h; exact .inl ha
      · split at h
        · cases h; exact .inl ha
        · exact ih _ _ _ _ _ _ _ _ h ha
      · exact ih _ _ _ _ _ _ _ _ h ha

theorem inflateSegments_stop (inf : Inflate σ) (accept : List Str → Bool) (fuel deflated : Nat) (segs : List Str) : ∀ (index dict : Nat) (s : σ) (got : List Str) (result : Int) (got' : List Str),
    inflateSegments inf accept fuel deflated segs index dict s got = .ok (result, got') → Accepted accept got →
    Accepted accept got' ∨ ∃ g x, got' = g ++ [x] ∧ Accepted accept g := by
  induction segs with
  | nil => intro _ _ _ _ _ _ h ha; cases h; exact .inl ha
  | cons seg segs ih =>
    intro index dict s got result got' h ha
    rw [inflateSegments] at h
    split at h
    · generalize he : inflateSegment inf accept (seg.take (segmentSize deflated index segs.isEmpty)) (!segs.isEmpty) fuel 0 dict s got = o at h
      cases o with
      | abort => cases h
      | ub => cases h
      | ok x =>
        obtain ⟨k, d, t, g⟩ := x
        dsimp only at h
        have hs := inflateSegment_stop inf accept _ _ fuel _ _ _ _ _ _ _ _ he ha
        split at h
        · cases h
          rcases hs with hs | ⟨_, hs⟩
          · exact .inl hs
          · exact .inr hs
        · rename_i hk
          rcases hs with hs | ⟨hs, _⟩
          · exact ih _ _ _ _ _ _ h hs
          · exact absurd hs hk
    · cases h

/-! ## C177 -/

/-- **C177** (copy, partial): with a correct decompressor, the copy of a resource is what was stored, all of it and nothing behind it, whatever its length. What is missing: the decompressor itself, and what happens if the data are
wrong, see `C177_failed_false`. -/
theorem C177_copy_partial (hc : Correct inf Holds) (init : σ) (fresh : Nat → UInt8) (table : List Resource) (name : Str) (r : Resource) (data plain : Str) (fuel : Nat)
    (he : Entry table name r) (hcut : Cut r.segments data) (hi : r.inflated = plain.length)
    (hd : (r.compressed = true ∧ r.deflated = data.length ∧ Holds init data plain) ∨ (r.compressed = false ∧ data = plain)) (hf : plain.length < fuel) :
    copy inf init fresh fuel table name = .ok (some plain) := by
  obtain ⟨later, e, hn⟩ := copy_entry (inf := inf) init fresh fuel he
  rw [e, copy, if_pos hn.symm]
  rcases hd with ⟨h1, h2, h3⟩ | ⟨h1, h2⟩
  · obtain ⟨got, g1, g2, _⟩ := inflateSegments_ok hc fuel r.deflated r.segments data hcut 0 0 init [] plain hf (by decide) (by omega) h3 (by simp)
    simp only [h1, if_true, inflate, g1]
    rw [hi, fill_ok fresh got plain (by simpa using g2)]
  · subst h2
    obtain ⟨got, g1, g2⟩ := plainSegments_ok r.inflated r.segments data hcut 0 [] (by omega)
    simp only [h1, Bool.false_eq_true, if_false, g1]
    rw [hi, fill_ok fresh got data (by simpa using g2)]

/-- **C177** (pieces, partial): with a correct decompressor, a callback that accepts all gets what was stored under the name, in pieces of 1 to 32768 bytes. What is missing: resources without compression, see `C177_plain_false`. -/
theorem C177_pieces_partial (hc : Correct inf Holds) (init : σ) (pointers : Resource → Str) (table : List Resource) (name : Str) (r : Resource) (data plain : Str) (fuel : Nat)
    (he : Entry table name r) (hcut : Cut r.segments data) (h1 : r.compressed = true) (h2 : r.deflated = data.length) (h3 : Holds init data plain) (hf : plain.length < fuel) :
    ∃ pieces, get inf init (fun _ => true) pointers fuel table name = .ok (some pieces) ∧ pieces.flatten = plain ∧ ∀ c ∈ pieces, 0 < c.length ∧ c.length ≤ 32768 := by
  obtain ⟨later, e, hn⟩ := get_entry (inf := inf) init (fun _ => true) pointers fuel he
  obtain ⟨got, g1, g2, g3⟩ := inflateSegments_ok hc fuel r.deflated r.segments data hcut 0 0 init [] plain hf (by decide) (by omega) h3 (by simp)
  refine ⟨got, ?_, by simpa using g2, g3⟩
  rw [e, get, if_pos hn.symm]
  simp only [h1, if_true, inflate, g1]

/-- **C177** (missing): a name that is not in the table is reported by all functions; no callback is called and no buffer made. -/
theorem C177_missing (init : σ) (fresh : Nat → UInt8) (accept : List Str → Bool) (pointers : Resource → Str) (fuel : Nat) (table : List Resource) (name : Str) (h : ∀ r ∈ table, r.name ≠ name) :
    has table name = false ∧ copy inf init fresh fuel table name = .ok Option.none ∧ get inf init accept pointers fuel table name = .ok Option.none ∧ length table name = Option.none := by
  induction table with
  | nil => exact ⟨rfl, rfl, rfl, rfl⟩
  | cons x table ih =>
    have hx : name ≠ x.name := fun e => h x (by simp) e.symm
    obtain ⟨a, b, c, d⟩ := ih fun r hr => h r (by simp [hr])
    exact ⟨by rw [has, if_neg hx, a], by rw [copy, if_neg hx, b], by rw [get, if_neg hx, c], by rw [length, if_neg hx, d]⟩

/-- **C177** (there): a name in the table is found, with the lengths of its first entry. -/
theorem C177_there (table : List Resource) (name : Str) (r : Resource) (h : Entry table name r) :
    has table name = true ∧ length table name = some (r.deflated, r.inflated) := by
  obtain ⟨before, later, e, hn, hb⟩ := h
  subst e
  induction before with
  | nil => exact ⟨by simp [has, hn], by simp [length, hn]⟩
  | cons x before ih =>
    have hx : name ≠ x.name := fun e => hb x (by simp) e.symm
    obtain ⟨a, b⟩ := ih fun y hy => hb y (by simp [hy])
    exact ⟨by rw [List.cons_append, has, if_neg hx, a], by rw [List.cons_append, length, if_neg hx, b]⟩

/-- **C177** (failed, false): when the decompressor reports an error at once, the copy still reports success, with a buffer of memory that was never written. -/
theorem C177_failed_false (inf : Inflate σ) (init : σ) (fresh : Nat → UInt8) (table : List Resource) (name : Str) (r : Resource) (data : Str) (fuel : Nat)
    (he : Entry table name r) (hcut : Cut r.segments data) (h1 : r.compressed = true) (h2 : r.deflated = data.length)
    (hbad : ∀ piece room more, (inf init piece room more).status = .failed ∧ (inf init piece room more).out = []) :
    copy inf init fresh (fuel + 1) table name = .ok (some ((List.range r.inflated).map fresh)) := by
  obtain ⟨later, e, hn⟩ := copy_entry (inf := inf) init fresh (fuel + 1) he
  rw [e, copy, if_pos hn.symm]
  have hinf : inflate inf init (fun _ => true) (fuel + 1) r = .ok (0, []) := by
    unfold inflate
    have hseg : ∀ seg more, inflateSegment inf (fun _ => true) seg more (fuel + 1) 0 0 init [] =
        .ok (0, 0, (inf init (seg.drop 0) (chunkSize - 0) more).next, []) := by
      intro seg more
      obtain ⟨b1, b2⟩ := hbad (seg.drop 0) (chunkSize - 0) more
      rw [inflateSegment]
      generalize inf init (seg.drop 0) (chunkSize - 0) more = x at b1 b2 ⊢
      simp [b1, b2]
    generalize hsegs : r.segments = segs at hcut
    cases hcut with
    | last =>
      rw [inflateSegments]
      have hs : segmentSize r.deflated 0 ([] : List Str).isEmpty = data.length := by
        show r.deflated - 0 * 1024 = data.length; omega
      rw [hs, if_pos (Nat.le_refl _), hseg]
      simp
    | more seg segs data hl hcut =>
      rw [inflateSegments]
      have hemp : segs.isEmpty = false := by
        cases segs with
        | nil => exact absurd rfl (cut_ne hcut)
        | cons a b => rfl
      have hs : segmentSize r.deflated 0 segs.isEmpty = seg.length := by
        rw [hemp, hl]; rfl
      rw [hs, if_pos (Nat.le_refl _), hseg]
      simp
  simp only [h1, if_true, hinf]
  simp [fill]

/-- **C177** (overrun, false): the copy does not look at the size of its buffer: if the table has a length that is smaller than that of the data, it writes behind the buffer. -/
theorem C177_overrun_false (hc : Correct inf Holds) (init : σ) (fresh : Nat → UInt8) (table : List Resource) (name : Str) (r : Resource) (data plain : Str) (fuel : Nat)
    (he : Entry table name r) (hcut : Cut r.segments data) (hi : r.inflated < plain.length)
    (h1 : r.compressed = true) (h2 : r.deflated = data.length) (h3 : Holds init data plain) (hf : plain.length < fuel) :
    copy inf init fresh fuel table name = .ub := by
  obtain ⟨later, e, hn⟩ := copy_entry (inf := inf) init fresh fuel he
  rw [e, copy, if_pos hn.symm]
  obtain ⟨got, g1, g2, _⟩ := inflateSegments_ok hc fuel r.deflated r.segments data hcut 0 0 init [] plain hf (by decide) (by omega) h3 (by simp)
  simp only [h1, if_true, inflate, g1]
  have g3 : got.flatten = plain := by simpa using g2
  have : fill fresh r.inflated got = .ub := by
    unfold fill
    rw [g3, if_neg (by omega)]
  rw [this]

/-- **C177** (plain, false): a resource that is stored without compression is never passed to the callback: it gets the table of the pointers to the segments instead, and what is behind this table if the resource is longer than it,
which is undefined behaviour. -/
theorem C177_plain_false (init : σ) (accept : List Str → Bool) (pointers : Resource → Str) (fuel : Nat) (table : List Resource) (name : Str) (r : Resource)
    (he : Entry table name r) (h1 : r.compressed = false) :
    get inf init accept pointers fuel table name = if r.deflated ≤ 8 * (r.segments.length + 1) then .ok (some [(pointers r).take r.deflated]) else .ub := by
  obtain ⟨later, e, hn⟩ := get_entry (inf := inf) init accept pointers fuel he
  rw [e, get, if_pos hn.symm]
  simp only [h1, Bool.false_eq_true, if_false]

/-! ## The hypotheses can be met -/

/-- A decompressor for data that are stored as they are, in one block: it copies as much as there is room for. The state is the number of bytes that are still to come. -/
def stored : Inflate Nat := fun n piece room _ =>
  let k := min (min n piece.length) room
  ⟨k, piece.take k, if n ≤ k then .done else if k = room then .moreOutput else .needsInput, n - k⟩

theorem stored_correct : Correct stored (fun n input output => output = input.take n ∧ n ≤ input.length) := by
  intro n piece later output room more h hr hm
  obtain ⟨h1, h2⟩ := h
  have hk : min (min n piece.length) room ≤ piece.length := by omega
  refine ⟨((piece ++ later).drop (min (min n piece.length) room)).take (n - min (min n piece.length) room), ?_, ?_, hk, ⟨rfl, ?_⟩, ?_, ?_, ?_, ?_⟩
  · show output = piece.take (min (min n piece.length) room) ++ _
    rw [h1]
    have e : piece.take (min (min n piece.length) room) = (piece ++ later).take (min (min n piece.length) room) := (List.take_append_of_le_length hk).symm
    rw [e]
    conv => lhs; rw [show n = min (min n piece.length) room + (n - min (min n piece.length) room) by omega]
    rw [List.take_add]
  · show (piece.take (min (min n piece.length) room)).length ≤ room
    rw [List.length_take]; omega
  · show n - min (min n piece.length) room ≤ ((piece ++ later).drop (min (min n piece.length) room)).length
    rw [List.length_drop]; omega
  · show (if n ≤ min (min n piece.length) room then Status.done else if min (min n piece.length) room = room then .moreOutput else .needsInput) ≠ .failed
    split
    · simp
    · split <;> simp
  · show (if n ≤ min (min n piece.length) room then Status.done else if min (min n piece.length) room = room then .moreOutput else .needsInput) = .done → _
    intro e
    split at e
    · rename_i hn
      rw [show n - min (min n piece.length) room = 0 by omega]; simp
    · split at e <;> cases e
  · show (if n ≤ min (min n piece.length) room then Status.done else if min (min n piece.length) room = room then .moreOutput else .needsInput) = .needsInput → min (min n piece.length) room = piece.length ∧ later ≠ []
    intro e
    split at e
    · cases e
    · split at e
      · cases e
      · rename_i a b
        refine ⟨by omega, ?_⟩
        intro hl
        subst hl
        simp only [List.append_nil] at h2
        omega
  · show (if n ≤ min (min n piece.length) room then Status.done else if min (min n piece.length) room = room then .moreOutput else .needsInput) = .moreOutput → (piece.take (min (min n piece.length) room)).length = room
    intro e
    split at e
    · cases e
    · split at e
      · rename_i a b
        rw [List.length_take]; omega
      · cases e

/-- **C177** (stop): with any decompressor and any data, a callback that refuses a piece gets no other: all pieces but the last one it got were accepted. -/
theorem C177_stop (inf : Inflate σ) (init : σ) (accept : List Str → Bool) (pointers : Resource → Str) (table : List Resource) (name : Str) (r : Resource) (fuel : Nat) (pieces : List Str)
    (he : Entry table name r) (h1 : r.compressed = true) (h : get inf init accept pointers fuel table name = .ok (some pieces)) :
    ∀ before piece later, pieces = before ++ [piece] ++ later → later ≠ [] → accept (before ++ [piece]) = true := by
  obtain ⟨tl, e, hn⟩ := get_entry (inf := inf) init accept pointers fuel he
  rw [e, get, if_pos hn.symm, if_pos h1] at h
  intro before piece later hp hne
  generalize hi : inflate inf init accept fuel r = o at h
  cases o with
  | abort => cases h
  | ub => cases h
  | ok x =>
    obtain ⟨k, got⟩ := x
    cases h
    rcases inflateSegments_stop inf accept fuel r.deflated r.segments 0 0 init [] k pieces hi (by intro p hp hne; exact absurd (List.prefix_nil.1 hp) hne) with ha | ⟨g, y, hg, ha⟩
    · exact ha _ ⟨later, hp.symm⟩ (by simp)
    · refine ha _ ?_ (by simp)
      rcases List.eq_nil_or_concat later with e | ⟨l, z, e⟩
      · exact absurd e hne
      · subst e
        rw [hg] at hp
        have : g ++ [y] = (before ++ [piece] ++ l) ++ [z] := by rw [hp]; simp
        exact ⟨l, (List.append_inj' this rfl).1.symm⟩

example : get stored 5 (fun _ => false) (fun _ => []) 9 [⟨b!"x", true, [b!"abcde"], 5, 5⟩] b!"x" = .ok (some [b!"abcde"]) := by decide +kernel

/-- A resource of 1500 bytes in two segments. -/
def sample : Resource := ⟨b!"static.jpg", true, [List.replicate 1024 7, List.replicate 476 9], 1500, 1500⟩

example : copy stored 1500 (fun _ => 0) 1501 [⟨b!"other", false, [], 0, 0⟩, sample] b!"static.jpg" = .ok (some (List.replicate 1024 7 ++ List.replicate 476 9)) :=
  C177_copy_partial stored_correct 1500 _ _ _ sample (List.replicate 1024 7 ++ List.replicate 476 9) _ 1501
    ⟨[⟨b!"other", false, [], 0, 0⟩], [], rfl, rfl, by decide⟩
    (.more _ _ _ (by decide +kernel) (.last _)) (by decide +kernel) (.inl ⟨rfl, by decide +kernel, by decide +kernel⟩) (by decide +kernel)

example : copy stored 5 (fun _ => 0) 9 [⟨b!"x", true, [b!"abcde"], 4, 5⟩] b!"x" = .ub := by decide +kernel

/-- A decompressor that reports an error. -/
example : copy (fun (_ : Unit) _ _ _ => ⟨0, [], .failed, ()⟩) () (fun _ => 5) 1 [⟨b!"x", true, [b!"abc"], 4, 3⟩] b!"x" = .ok (some [5, 5, 5, 5]) := by decide +kernel

/-- A resource of three bytes without compression: the callback gets three bytes of a pointer. -/
example : get (fun (_ : Unit) _ _ _ => ⟨0, [], .failed, ()⟩) () (fun _ => true) (fun _ => [16, 32, 64, 0, 0, 0, 0, 0]) 1 [⟨b!"x", false, [b!"abc"], 3, 3⟩] b!"x" = .ok (some [[16, 32, 64]]) := by decide +kernel

end Trax.Resources
