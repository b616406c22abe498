import Verif.Lemmas.Sort
import Verif.Lemmas.FloatOps

/-!
# Lemmas about rasterisation: buffers and spans
-/

namespace Trax
open Region

/-! ## Loops -/

theorem forN_inv {σ : Type} (f : Nat → σ → Outcome σ) (P : Nat → σ → Prop) (n : Nat) (s : σ) (h0 : P 0 s)
    (hstep : ∀ i s, i < n → P i s → ∃ s', f i s = .ok s' ∧ P (i + 1) s') :
    ∃ s', Outcome.forN f n s = .ok s' ∧ P n s' := by
  induction n with
  | zero => exact ⟨s, rfl, h0⟩
  | succ n ih =>
    obtain ⟨s1, h1, h2⟩ := ih fun i s hi => hstep i s (by omega)
    obtain ⟨s2, h3, h4⟩ := hstep n s1 (by omega) h2
    exact ⟨s2, by rw [Outcome.forN, h1, Outcome.bind_ok, h3], h4⟩

theorem forEach_inv {α σ : Type} (f : α → σ → Outcome σ) (P : List α → σ → Prop) (l : List α) (s : σ)
    (h0 : P [] s) (hstep : ∀ done a s, a ∈ l → P done s → ∃ s', f a s = .ok s' ∧ P (done ++ [a]) s') :
    ∃ s', Outcome.forEach f l s = .ok s' ∧ P l s' := by
  suffices ∀ done s, P done s → ∃ s', Outcome.forEach f l s = .ok s' ∧ P (done ++ l) s' by
    simpa using this [] s h0
  induction l with
  | nil => intro done s h; exact ⟨s, rfl, by simpa using h⟩
  | cons a l ih =>
    intro done s h
    obtain ⟨s1, h1, h2⟩ := hstep done a s (by simp) h
    obtain ⟨s2, h3, h4⟩ := ih (fun done b s hb => hstep done b s (by simp [hb])) (done ++ [a]) s1 h2
    refine ⟨s2, ?_, by simpa using h4⟩
    rw [Outcome.forEach, h1, Outcome.bind_ok, h3]

/-! ## Spans -/

/-- The content of `buf` with ones in the places `lo … hi`. -/
def Painted (buf out : List UInt8) (S : Nat → Prop) : Prop :=
  out.length = buf.length ∧ ∀ k, k < buf.length → (S k → out.getD k 0 = 1) ∧ (¬ S k → out.getD k 0 = buf.getD k 0)

theorem writeAt_ok (buf : List UInt8) (i : Nat) (v : UInt8) (h : i < buf.length) :
    writeAt buf i v = .ok (buf.set i v) := by
  unfold writeAt
  rw [if_pos ⟨by omega, by omega⟩, Int.toNat_natCast]

theorem getD_set (buf : List UInt8) (i k : Nat) (v : UInt8) (h : i < buf.length) :
    (buf.set i v).getD k 0 = if k = i then v else buf.getD k 0 := by
  simp only [List.getD_eq_getElem?_getD, List.getElem?_set]
  by_cases hk : k = i
  · subst hk; simp [h]
  · have : ¬ i = k := fun he => hk he.symm
    simp [hk, this]

/-- Filling columns `a … b` of a row within a buffer of `w` columns. -/
theorem fillSpan_spec (w row : Nat) (a b : Int) (buf : List UInt8) (ha : 0 ≤ a) (hb : b < w)
    (hlen : (row + 1) * w ≤ buf.length) :
    ∃ out, fillSpan w row a b buf = .ok out ∧ Painted buf out fun k => (row * w : Nat) + a ≤ k ∧ (k : Int) ≤ (row * w : Nat) + b := by
  unfold fillSpan
  rw [Nat.add_mul, Nat.one_mul] at hlen
  obtain ⟨out, h1, h2⟩ := forN_inv (fun k buf => writeAt buf ((row : Int) * w + (a + k)) 1)
    (fun n out => Painted buf out fun k => (row * w : Nat) + a ≤ k ∧ (k : Int) < (row * w : Nat) + a + n)
    (b + 1 - a).toNat buf
    (by
      refine ⟨rfl, fun k hk => ⟨fun h => ?_, fun _ => rfl⟩⟩
      have := h.1; have := h.2; simp at *; omega)
    (by
      intro i s hi ⟨hl, hp⟩
      obtain ⟨c, hc⟩ : ∃ c : Nat, (c : Int) = (row : Int) * w + (a + i) :=
        ⟨((row * w : Nat) + (a + i)).toNat, by
          rw [Int.toNat_of_nonneg (by positivity)]; push_cast; ring⟩
      have hcast : ((row * w : Nat) : Int) = (row : Int) * w := by push_cast; rfl
      have hclt : c < s.length := by rw [hl]; omega
      refine ⟨s.set c 1, ?_, by simp [hl], ?_⟩
      · rw [← hc]; exact writeAt_ok s c 1 hclt
      · intro k hk
        rw [getD_set s c k 1 hclt]
        by_cases hkc : k = c
        · subst hkc
          rw [if_pos rfl]
          refine ⟨fun _ => rfl, fun hn => absurd ?_ hn⟩
          rw [hcast]; push_cast; omega
        · rw [if_neg hkc]
          refine ⟨fun hS => (hp k hk).1 ?_, fun hS => (hp k hk).2 fun hh => hS ?_⟩
          · rw [hcast] at hS ⊢; push_cast at hS; omega
          · rw [hcast] at hh ⊢; push_cast; omega)
  refine ⟨out, h1, h2.1, fun k hk => ?_⟩
  by_cases hab : a ≤ b + 1
  · have e : ((b + 1 - a).toNat : Int) = b + 1 - a := Int.toNat_of_nonneg (by omega)
    rw [e] at h2
    refine ⟨fun h => (h2.2 k hk).1 ?_, fun h => (h2.2 k hk).2 fun hh => h ?_⟩ <;> omega
  · have e : (b + 1 - a).toNat = 0 := Int.toNat_of_nonpos (by omega)
    rw [e] at h2
    refine ⟨fun h => by omega, fun h => (h2.2 k hk).2 fun hh => ?_⟩
    simp at hh; omega

/-- The spans filled by `fillRow`. -/
def rowSpans (width : Int) : List Int → List (Int × Int)
  | a :: b :: rest =>
    if a ≥ width then []
    else if a = b ∧ rest ≠ [] then rowSpans width (b :: rest)
    else if b ≥ 0 then ((if a < 0 then 0 else a), (if b ≥ width then width - 1 else b)) :: rowSpans width rest
    else rowSpans width rest
  | _ => []

/-- The spans filled by `legacyFill`, given an even number of nodes. -/
def legacySpans (width : Int) : List Int → List (Int × Int)
  | a :: b :: rest =>
    if a ≥ width then []
    else if b > 0 then ((if a < 0 then 0 else a), (if b > width then width - 1 else b) - 1) :: legacySpans width rest
    else legacySpans width rest
  | _ => []

theorem rowSpans_range (width : Int) (nodes : List Int) : ∀ s ∈ rowSpans width nodes, 0 ≤ s.1 ∧ s.2 < width := by
  induction nodes using rowSpans.induct width with
  | case1 a b rest h => rw [rowSpans, if_pos h]; simp
  | case2 a b rest h h2 ih => rw [rowSpans, if_neg h, if_pos h2]; exact ih
  | case3 a b rest h h2 h3 ih =>
    rw [rowSpans, if_neg h, if_neg h2, if_pos h3]
    intro s hs
    rcases List.mem_cons.mp hs with rfl | hs
    · constructor
      · simp only; split <;> omega
      · simp only; split <;> omega
    · exact ih s hs
  | case4 a b rest h h2 h3 ih => rw [rowSpans, if_neg h, if_neg h2, if_neg h3]; exact ih
  | case5 nodes h => rw [rowSpans]; simp; exact h

theorem legacySpans_range (width : Int) (nodes : List Int) : ∀ s ∈ legacySpans width nodes, 0 ≤ s.1 ∧ s.2 < width := by
  induction nodes using legacySpans.induct width with
  | case1 a b rest h => rw [legacySpans, if_pos h]; simp
  | case2 a b rest h h3 ih =>
    rw [legacySpans, if_neg h, if_pos h3]
    intro s hs
    rcases List.mem_cons.mp hs with rfl | hs
    · constructor
      · simp only; split <;> omega
      · simp only; split <;> omega
    · exact ih s hs
  | case3 a b rest h h3 ih => rw [legacySpans, if_neg h, if_neg h3]; exact ih
  | case4 nodes h => rw [legacySpans]; simp; exact h

theorem fillRow_eq (width row : Int) (nodes : List Int) (buf : List UInt8) :
    fillRow width row nodes buf = Outcome.forEach (fun s buf => fillSpan width row s.1 s.2 buf) (rowSpans width nodes) buf := by
  induction nodes using rowSpans.induct width generalizing buf with
  | case1 a b rest h => rw [rowSpans, if_pos h, fillRow, if_pos h]; rfl
  | case2 a b rest h h2 ih => rw [rowSpans, if_neg h, if_pos h2, fillRow, if_neg h, if_pos h2]; exact ih buf
  | case3 a b rest h h2 h3 ih =>
    rw [rowSpans, if_neg h, if_neg h2, if_pos h3, fillRow, if_neg h, if_neg h2, if_pos h3, Outcome.forEach]
    congr 1
    funext buf
    exact ih buf
  | case4 a b rest h h2 h3 ih =>
    rw [rowSpans, if_neg h, if_neg h2, if_neg h3, fillRow, if_neg h, if_neg h2, if_neg h3]; exact ih buf
  | case5 nodes h => rw [rowSpans, fillRow, Outcome.forEach] <;> exact h

theorem legacyFill_eq (width row : Int) (nodes : List Int) (buf : List UInt8) (heven : nodes.length % 2 = 0) :
    legacyFill width row nodes buf =
      Outcome.forEach (fun s buf => fillSpan width row s.1 s.2 buf) (legacySpans width nodes) buf := by
  induction nodes using legacySpans.induct width generalizing buf with
  | case1 a b rest h => rw [legacySpans, if_pos h, legacyFill, if_pos h]; rfl
  | case2 a b rest h h3 ih =>
    rw [legacySpans, if_neg h, if_pos h3, legacyFill, if_neg h, if_pos h3, Outcome.forEach]
    congr 1
    funext buf
    exact ih buf (by simp only [List.length_cons] at heven; omega)
  | case3 a b rest h h3 ih =>
    rw [legacySpans, if_neg h, if_neg h3, legacyFill, if_neg h, if_neg h3]
    exact ih buf (by simp only [List.length_cons] at heven; omega)
  | case4 nodes h =>
    match nodes, h, heven with
    | [], _, _ => rfl
    | a :: b :: rest, h, _ => exact (h a b rest rfl).elim

theorem Painted.trans {a b c : List UInt8} {S T : Nat → Prop} (h1 : Painted a b S) (h2 : Painted b c T) :
    Painted a c fun k => S k ∨ T k := by
  classical
  refine ⟨h2.1.trans h1.1, fun k hk => ?_⟩
  have hk' : k < b.length := by rw [h1.1]; exact hk
  by_cases hT : T k
  · exact ⟨fun _ => (h2.2 k hk').1 hT, fun h => absurd (.inr hT) h⟩
  · rw [(h2.2 k hk').2 hT]
    exact ⟨fun h => (h1.2 k hk).1 (h.resolve_right hT), fun h => (h1.2 k hk).2 fun hs => h (.inl hs)⟩

theorem Painted.congr {a b : List UInt8} {S T : Nat → Prop} (h : Painted a b S) (e : ∀ k, k < a.length → (S k ↔ T k)) :
    Painted a b T :=
  ⟨h.1, fun k hk => ⟨fun ht => (h.2 k hk).1 ((e k hk).mpr ht), fun ht => (h.2 k hk).2 fun hs => ht ((e k hk).mp hs)⟩⟩

/-- All spans of a row. -/
theorem spans_spec (w row : Nat) (spans : List (Int × Int)) (hs : ∀ s ∈ spans, 0 ≤ s.1 ∧ s.2 < w) (buf : List UInt8)
    (hlen : (row + 1) * w ≤ buf.length) :
    ∃ out, Outcome.forEach (fun s buf => fillSpan w row s.1 s.2 buf) spans buf = .ok out ∧
      Painted buf out fun k => ∃ s ∈ spans, (row * w : Nat) + s.1 ≤ k ∧ (k : Int) ≤ (row * w : Nat) + s.2 := by
  obtain ⟨out, h1, h2⟩ := forEach_inv (fun s buf => fillSpan w row s.1 s.2 buf)
    (fun done out => Painted buf out fun k => ∃ s ∈ done, ((row * w : Nat) : Int) + s.1 ≤ (k : Int) ∧ (k : Int) ≤ (row * w : Nat) + s.2)
    spans buf ⟨rfl, fun k hk => ⟨by simp, fun _ => rfl⟩⟩
    (by
      intro done s b hs' hp
      obtain ⟨out, h1, h2⟩ := fillSpan_spec w row s.1 s.2 b (hs s hs').1 (hs s hs').2 (by rw [hp.1]; exact hlen)
      refine ⟨out, h1, (hp.trans h2).congr fun k _ => ?_⟩
      simp only [List.mem_append, List.mem_singleton]
      constructor
      · rintro (⟨t, ht, h⟩ | h)
        · exact ⟨t, .inl ht, h⟩
        · exact ⟨s, .inr rfl, h⟩
      · rintro ⟨t, ht | rfl, h⟩
        · exact .inl ⟨t, ht, h⟩
        · exact .inr h)
  exact ⟨out, h1, h2⟩

/-! ## Edges -/

/-- Every point with the one before it. -/
def pathEdges {α : Type} (prev : α) : List α → List (α × α)
  | [] => []
  | p :: ps => (p, prev) :: pathEdges p ps

theorem zip_dropLast {α : Type} (ps : List α) (l : α) : ps.zip (l :: ps.dropLast) = pathEdges l ps := by
  induction ps generalizing l with
  | nil => rfl
  | cons p ps ih =>
    rw [List.zip_cons_cons, pathEdges]
    cases ps with
    | nil => rfl
    | cons q qs => rw [List.dropLast_cons_cons, ih p]

theorem edges_eq (ps : List (Flt × Flt)) : edges ps = match ps.getLast? with | none => [] | some l => pathEdges l ps := by
  unfold edges
  cases ps.getLast? with
  | none => rfl
  | some l => simp only; exact zip_dropLast ps l

theorem mem_pathEdges {α : Type} (prev : α) (ps : List α) : ∀ e ∈ pathEdges prev ps, e.1 ∈ ps ∧ (e.2 = prev ∨ e.2 ∈ ps) := by
  induction ps generalizing prev with
  | nil => simp [pathEdges]
  | cons p ps ih =>
    intro e he
    rcases List.mem_cons.mp he with rfl | he
    · simp
    · obtain ⟨h1, h2⟩ := ih p e he
      refine ⟨by simp [h1], .inr ?_⟩
      rcases h2 with h2 | h2
      · rw [h2]; simp
      · simp [h2]

theorem mem_edges (ps : List (Flt × Flt)) : ∀ e ∈ edges ps, e.1 ∈ ps ∧ e.2 ∈ ps := by
  intro e he
  rw [edges_eq] at he
  cases hl : ps.getLast? with
  | none => rw [hl] at he; simp at he
  | some l =>
    rw [hl] at he
    have hm : l ∈ ps := List.mem_of_getLast? hl
    obtain ⟨h1, h2⟩ := mem_pathEdges l ps e he
    refine ⟨h1, ?_⟩
    rcases h2 with h2 | h2
    · rw [h2]; exact hm
    · exact h2

theorem pathEdges_length {α : Type} (prev : α) (ps : List α) : (pathEdges prev ps).length = ps.length := by
  induction ps generalizing prev with
  | nil => rfl
  | cons p ps ih => rw [pathEdges, List.length_cons, ih, List.length_cons]

theorem edges_length (ps : List (Flt × Flt)) : (edges ps).length = ps.length := by
  rw [edges_eq]
  cases hl : ps.getLast? with
  | none => rw [List.getLast?_eq_none_iff.mp hl]; rfl
  | some l => exact pathEdges_length l ps

/-- The number of changes of a property along a path tells whether its ends differ. -/
theorem path_changes {α : Type} (f : α → Bool) (prev : α) (ps : List α) :
    ((pathEdges prev ps).countP fun e => f e.1 != f e.2) % 2 = if f ((prev :: ps).getLast (by simp)) = f prev then 0 else 1 := by
  induction ps generalizing prev with
  | nil => simp [pathEdges]
  | cons p ps ih =>
    rw [pathEdges, List.countP_cons, List.getLast_cons (by simp)]
    have := ih p
    cases h1 : f p <;> cases h2 : f prev <;> cases h3 : f ((p :: ps).getLast (by simp)) <;> simp [h1, h3] at this ⊢ <;> omega

/-- Around a closed path it changes an even number of times. -/
theorem edges_changes (f : Flt × Flt → Bool) (ps : List (Flt × Flt)) :
    ((edges ps).countP fun e => f e.1 != f e.2) % 2 = 0 := by
  rw [edges_eq]
  cases hl : ps.getLast? with
  | none => rfl
  | some l =>
    simp only
    rw [path_changes]
    have hne : ps ≠ [] := by rintro rfl; simp at hl
    rw [List.getLast_cons hne]
    rw [List.getLast?_eq_some_getLast hne] at hl
    simp only [Option.some.injEq] at hl
    rw [hl]
    simp

end Trax
