import Verif.Model.Properties

/-! Helper lemmas about the string map. -/

namespace Trax

/-! ### C strings -/

theorem cstr_of_noNul {s : Str} (h : NoNul s) : cstr s = s := by
  unfold cstr
  induction s with
  | nil => rfl
  | cons a t ih =>
    have ha : (a != 0) = true := by simpa using h a (by simp)
    rw [List.takeWhile_cons, if_pos ha, ih (fun c hc => h c (by simp [hc]))]

theorem noNul_cstr (s : Str) : NoNul (cstr s) := by
  intro c hc
  have := List.all_takeWhile (p := (· != (0 : UInt8))) (l := s)
  rw [List.all_eq_true] at this
  simpa using this c hc

@[simp] theorem cstr_cstr (s : Str) : cstr (cstr s) = cstr s := cstr_of_noNul (noNul_cstr s)

@[simp] theorem cstr_nil : cstr [] = [] := rfl

theorem noNul_nil : NoNul [] := by intro c hc; cases hc

theorem noNul_append {a b : Str} : NoNul (a ++ b) ↔ NoNul a ∧ NoNul b := by
  unfold NoNul; constructor
  · intro h; exact ⟨fun c hc => h c (by simp [hc]), fun c hc => h c (by simp [hc])⟩
  · rintro ⟨h1, h2⟩ c hc
    rcases List.mem_append.mp hc with h | h
    · exact h1 c h
    · exact h2 c h

theorem noNul_cons {a : UInt8} {b : Str} : NoNul (a :: b) ↔ a ≠ 0 ∧ NoNul b := by
  unfold NoNul; simp

/-! ### Buckets -/

theorem bucketGet_put (b : Bucket) (k v k' : Str) :
    bucketGet (bucketPut b k v) k' = if k = k' then some v else bucketGet b k' := by
  induction b with
  | nil => simp [bucketPut, bucketGet]
  | cons p t ih =>
    obtain ⟨a, w⟩ := p
    simp only [bucketPut]
    split
    · next h => subst h; simp only [bucketGet]; split <;> simp_all
    · next h =>
      simp only [bucketGet]
      split
      · next h2 =>
        subst h2
        rw [if_neg (fun h3 => h h3.symm)]
      · exact ih

theorem bucketGet_eq_none {b : Bucket} {k : Str} : bucketGet b k = none ↔ k ∉ b.map Prod.fst := by
  induction b with
  | nil => simp [bucketGet]
  | cons p t ih =>
    obtain ⟨a, w⟩ := p
    simp only [bucketGet, List.map_cons, List.mem_cons, not_or]
    split
    · next h => simp [h]
    · next h => rw [ih]; constructor
                · intro h2; exact ⟨fun h3 => h h3.symm, h2⟩
                · exact And.right

theorem bucketGet_eq_some {b : Bucket} (hn : (b.map Prod.fst).Nodup) {k v : Str} :
    bucketGet b k = some v ↔ (k, v) ∈ b := by
  induction b with
  | nil => simp [bucketGet]
  | cons p t ih =>
    obtain ⟨a, w⟩ := p
    simp only [List.map_cons, List.nodup_cons] at hn
    simp only [bucketGet, List.mem_cons, Prod.mk.injEq]
    split
    · next h =>
      subst h
      constructor
      · intro h; left; simpa using h.symm
      · rintro (⟨_, h⟩ | h)
        · simp [h]
        · exact absurd (List.mem_map_of_mem (f := Prod.fst) h) hn.1
    · next h =>
      rw [ih hn.2]
      constructor
      · exact Or.inr
      · rintro (⟨h2, _⟩ | h2)
        · exact absurd h2.symm h
        · exact h2

theorem bucketPut_keys (b : Bucket) (k v : Str) :
    (bucketPut b k v).map Prod.fst =
      if k ∈ b.map Prod.fst then b.map Prod.fst else b.map Prod.fst ++ [k] := by
  induction b with
  | nil => simp [bucketPut]
  | cons p t ih =>
    obtain ⟨a, w⟩ := p
    simp only [bucketPut]
    split
    · next h => subst h; simp
    · next h =>
      simp only [List.map_cons, ih, List.mem_cons]
      have : ¬ k = a := fun h2 => h h2.symm
      simp only [this, false_or]
      split <;> simp

theorem bucketPut_nodup {b : Bucket} (hn : (b.map Prod.fst).Nodup) (k v : Str) :
    ((bucketPut b k v).map Prod.fst).Nodup := by
  rw [bucketPut_keys]
  split
  · exact hn
  · next h =>
    rw [List.nodup_append]
    refine ⟨hn, by simp, ?_⟩
    intro a ha b hb
    simp only [List.mem_singleton] at hb
    subst hb
    exact fun h2 => h (h2 ▸ ha)

theorem mem_bucketPut {b : Bucket} {k v : Str} {p : Str × Str} (h : p ∈ bucketPut b k v) :
    p = (k, v) ∨ p ∈ b := by
  induction b with
  | nil => simp only [bucketPut, List.mem_singleton] at h; exact Or.inl h
  | cons q t ih =>
    obtain ⟨a, w⟩ := q
    simp only [bucketPut] at h
    split at h
    · rcases List.mem_cons.mp h with h | h
      · exact Or.inl h
      · exact Or.inr (List.mem_cons_of_mem _ h)
    · rcases List.mem_cons.mp h with h | h
      · exact Or.inr (h ▸ List.mem_cons_self)
      · rcases ih h with h | h
        · exact Or.inl h
        · exact Or.inr (List.mem_cons_of_mem _ h)

/-- Putting the pairs of a duplicate-free bucket one after the other behind an existing
bucket that has none of these keys appends them. -/
theorem foldl_bucketPut {b : Bucket} (acc : Bucket)
    (hn : (acc.map Prod.fst ++ b.map Prod.fst).Nodup) :
    b.foldl (fun acc kv => bucketPut acc kv.1 kv.2) acc = acc ++ b := by
  induction b generalizing acc with
  | nil => simp
  | cons p t ih =>
    have hput : bucketPut acc p.1 p.2 = acc ++ [p] := by
      have hk : p.1 ∉ acc.map Prod.fst := by
        rw [List.nodup_append] at hn
        intro hmem
        exact hn.2.2 _ hmem p.1 (by simp) rfl
      clear ih hn
      induction acc with
      | nil => simp [bucketPut]
      | cons q s ih =>
        obtain ⟨a, w⟩ := q
        simp only [List.map_cons, List.mem_cons, not_or] at hk
        simp only [bucketPut]
        rw [if_neg (fun h => hk.1 h.symm), ih hk.2]
        rfl
    rw [List.foldl_cons, hput, ih]
    · simp
    · simpa using hn

/-! ### Maps -/

namespace StrMap

/-- The invariant of every map built by the API. -/
structure WF (m : StrMap) (n : Nat) : Prop where
  len : m.buckets.length = n
  idx : ∀ i (h : i < m.buckets.length), ∀ kv ∈ m.buckets[i], m.index kv.1 = i
  nodup : ∀ b ∈ m.buckets, (b.map Prod.fst).Nodup
  noNul : ∀ b ∈ m.buckets, ∀ kv ∈ b, NoNul kv.1 ∧ NoNul kv.2

theorem wf_new (n : Nat) : (StrMap.new n).WF n := by
  refine ⟨by simp [new], ?_, ?_, ?_⟩
  · intro i h kv hkv
    simp [new] at hkv
  · intro b hb
    simp only [new, List.mem_replicate] at hb
    simp [hb.2]
  · intro b hb kv hkv
    simp only [new, List.mem_replicate] at hb
    simp [hb.2] at hkv

theorem put_length (m : StrMap) (k v : Str) : (m.put k v).buckets.length = m.buckets.length := by
  simp [put]

theorem index_put (m : StrMap) (k v k' : Str) : (m.put k v).index k' = m.index k' := by
  simp [index, put_length]

theorem index_lt {m : StrMap} {n : Nat} (h : m.WF n) (hn : 0 < n) (k : Str) :
    m.index k < m.buckets.length := by
  unfold index; rw [h.len]; exact Nat.mod_lt _ hn

theorem wf_put {m : StrMap} {n : Nat} (h : m.WF n) (k v : Str) : (m.put k v).WF n := by
  have hmem : ∀ b ∈ (m.put k v).buckets, ∃ b' ∈ m.buckets, b = b' ∨ b = bucketPut b' (cstr k) (cstr v) := by
    intro b hb
    simp only [put] at hb
    obtain ⟨i, hi, rfl⟩ := List.getElem_of_mem hb
    rw [List.getElem_modify]
    simp only [List.length_modify] at hi
    refine ⟨m.buckets[i], List.getElem_mem _, ?_⟩
    split
    · right; rfl
    · left; rfl
  refine ⟨by rw [put_length, h.len], ?_, ?_, ?_⟩
  · intro i hi kv hkv
    rw [index_put]
    have hi' : i < m.buckets.length := by rw [put_length] at hi; exact hi
    simp only [put, List.getElem_modify] at hkv
    split at hkv
    · next heq =>
      rcases mem_bucketPut hkv with h1 | h1
      · subst h1; exact heq
      · exact h.idx i hi' kv h1
    · exact h.idx i hi' kv hkv
  · intro b hb
    obtain ⟨b', hb', rfl | rfl⟩ := hmem b hb
    · exact h.nodup _ hb'
    · exact bucketPut_nodup (h.nodup _ hb') _ _
  · intro b hb kv hkv
    obtain ⟨b', hb', rfl | rfl⟩ := hmem b hb
    · exact h.noNul _ hb' kv hkv
    · rcases mem_bucketPut hkv with h1 | h1
      · subst h1; exact ⟨noNul_cstr _, noNul_cstr _⟩
      · exact h.noNul _ hb' kv h1

theorem wf_foldl_put {m : StrMap} {n : Nat} (h : m.WF n) (l : List (Str × Str)) :
    (l.foldl (fun m kv => m.put kv.1 kv.2) m).WF n := by
  induction l generalizing m with
  | nil => exact h
  | cons p t ih => exact ih (wf_put h _ _)

theorem pair_put {m : StrMap} {n : Nat} (h : m.WF n) (hn : 0 < n) (k v k' : Str) :
    (m.put k v).pair k' = if cstr k = cstr k' then some (cstr v) else m.pair k' := by
  have hlt := index_lt h hn
  unfold pair
  rw [index_put]
  have hl : m.index (cstr k') < (m.put k v).buckets.length := by rw [put_length]; exact hlt _
  rw [List.getD_eq_getElem?_getD, List.getElem?_eq_getElem hl, Option.getD_some]
  rw [List.getD_eq_getElem?_getD, List.getElem?_eq_getElem (hlt _), Option.getD_some]
  simp only [put, List.getElem_modify]
  split
  · rw [bucketGet_put]
  · next hne =>
    rw [if_neg]
    intro heq
    exact hne (by rw [heq])

theorem pair_new (n : Nat) (k : Str) : (StrMap.new n).pair k = none := by
  unfold pair new
  rw [List.getD_eq_getElem?_getD, List.getElem?_replicate]
  split <;> simp [bucketGet]

/-- Membership in the enumeration is the same as lookup. -/
theorem mem_enum {m : StrMap} {n : Nat} (h : m.WF n) (hn : 0 < n) (k v : Str) :
    (k, v) ∈ m.enum ↔ NoNul k ∧ m.pair k = some v := by
  have hlt := index_lt h hn
  unfold enum
  rw [List.mem_flatten]
  constructor
  · rintro ⟨b, hb, hkv⟩
    have hk := (h.noNul b hb _ hkv).1
    refine ⟨hk, ?_⟩
    obtain ⟨i, hi, rfl⟩ := List.getElem_of_mem hb
    have := h.idx i hi _ hkv
    simp only at this
    unfold pair
    rw [cstr_of_noNul hk, this, List.getD_eq_getElem?_getD, List.getElem?_eq_getElem hi, Option.getD_some,
      bucketGet_eq_some (h.nodup _ hb)]
    exact hkv
  · rintro ⟨hk, hp⟩
    unfold pair at hp
    rw [cstr_of_noNul hk, List.getD_eq_getElem?_getD, List.getElem?_eq_getElem (hlt _), Option.getD_some,
      bucketGet_eq_some (h.nodup _ (List.getElem_mem _))] at hp
    exact ⟨_, List.getElem_mem _, hp⟩

theorem enum_keys_nodup {m : StrMap} {n : Nat} (h : m.WF n) : (m.enum.map Prod.fst).Nodup := by
  unfold enum
  rw [List.map_flatten, List.nodup_iff_pairwise_ne, List.pairwise_flatten]
  constructor
  · intro l hl
    obtain ⟨b, hb, rfl⟩ := List.mem_map.mp hl
    exact h.nodup b hb
  · rw [List.pairwise_map, List.pairwise_iff_getElem]
    intro i j hi hj hij x hx y hy hxy
    obtain ⟨p, hp, rfl⟩ := List.mem_map.mp hx
    obtain ⟨q, hq, rfl⟩ := List.mem_map.mp hy
    have h1 := h.idx i hi p hp
    have h2 := h.idx j hj q hq
    rw [hxy] at h1
    omega

theorem count_eq (m : StrMap) : m.count = m.enum.length := by
  have h1 : ∀ (b : Bucket) (n : Nat), b.foldl (fun n _ => n + 1) n = n + b.length := by
    intro b
    induction b with
    | nil => simp
    | cons p t ih => intro n; rw [List.foldl_cons, ih, List.length_cons]; omega
  have h2 : ∀ (bs : List Bucket) (n : Nat),
      bs.foldl (fun n b => b.foldl (fun n _ => n + 1) n) n = n + bs.flatten.length := by
    intro bs
    induction bs with
    | nil => simp
    | cons b t ih =>
      intro n
      rw [List.foldl_cons, ih, h1, List.flatten_cons, List.length_append]; omega
  unfold count enum
  rw [h2]; omega

/-- The bucket-wise view of a sequence of `put`s of NUL-free pairs. -/
theorem getElem_foldl_put (l : List (Str × Str)) (m : StrMap)
    (hl : ∀ kv ∈ l, NoNul kv.1 ∧ NoNul kv.2) (i : Nat) (hi : i < m.buckets.length)
    (hi' : i < (l.foldl (fun m kv => m.put kv.1 kv.2) m).buckets.length) :
    (l.foldl (fun m kv => m.put kv.1 kv.2) m).buckets[i] =
      (l.filter fun kv => m.index kv.1 == i).foldl (fun acc kv => bucketPut acc kv.1 kv.2) m.buckets[i] := by
  induction l generalizing m with
  | nil => simp
  | cons p t ih =>
    simp only [List.foldl_cons] at hi' ⊢
    have hp := hl p (by simp)
    rw [ih (m.put p.1 p.2) (fun kv h => hl kv (by simp [h])) (by rw [put_length]; exact hi) hi']
    simp only [index_put, List.filter_cons]
    have hb : (m.put p.1 p.2).buckets[i]'(by rw [put_length]; exact hi) =
        if m.index p.1 = i then bucketPut m.buckets[i] p.1 p.2 else m.buckets[i] := by
      simp only [put, List.getElem_modify, cstr_of_noNul hp.1, cstr_of_noNul hp.2]
    rw [hb]
    by_cases hidx : m.index p.1 = i
    · simp [hidx]
    · simp [hidx]

theorem length_foldl_put (l : List (Str × Str)) (m : StrMap) :
    (l.foldl (fun m kv => m.put kv.1 kv.2) m).buckets.length = m.buckets.length := by
  induction l generalizing m with
  | nil => rfl
  | cons p t ih => rw [List.foldl_cons, ih, put_length]

/-- Entering the enumeration of a map into a fresh map of the same size rebuilds it exactly. -/
theorem foldl_put_enum {m : StrMap} {n : Nat} (h : m.WF n) :
    m.enum.foldl (fun m kv => m.put kv.1 kv.2) (StrMap.new n) = m := by
  have hl : ∀ kv ∈ m.enum, NoNul kv.1 ∧ NoNul kv.2 := by
    intro kv hkv
    unfold enum at hkv
    obtain ⟨b, hb, hkv⟩ := List.mem_flatten.mp hkv
    exact h.noNul b hb kv hkv
  have hindex : ∀ k, (StrMap.new n).index k = m.index k := by
    intro k; simp [index, new, h.len]
  suffices hs : (m.enum.foldl (fun m kv => m.put kv.1 kv.2) (StrMap.new n)).buckets = m.buckets by
    cases hm : m.enum.foldl (fun m kv => m.put kv.1 kv.2) (StrMap.new n) with
    | mk bs => rw [hm] at hs; simp only at hs; subst hs; rfl
  apply List.ext_getElem
  · rw [length_foldl_put]; simp [new, h.len]
  · intro i h1 h2
    have hi : i < (StrMap.new n).buckets.length := by simp [new]; rw [← h.len]; exact h2
    rw [getElem_foldl_put _ _ hl i hi h1]
    have hf : (m.enum.filter fun kv => (StrMap.new n).index kv.1 == i) = m.buckets[i] := by
      simp only [hindex]
      unfold enum
      have hsplit : m.buckets = m.buckets.take i ++ m.buckets[i] :: m.buckets.drop (i + 1) := by
        rw [← List.drop_eq_getElem_cons h2, List.take_append_drop]
      have hpre : (m.buckets.take i).flatten.filter (fun kv => m.index kv.1 == i) = [] := by
        rw [List.filter_eq_nil_iff]
        intro kv hkv
        obtain ⟨b, hb, hkv⟩ := List.mem_flatten.mp hkv
        obtain ⟨j, hj, rfl⟩ := List.getElem_of_mem hb
        simp only [List.length_take] at hj
        rw [List.getElem_take] at hkv
        have := h.idx j (by omega) kv hkv
        simp; omega
      have hpost : (m.buckets.drop (i + 1)).flatten.filter (fun kv => m.index kv.1 == i) = [] := by
        rw [List.filter_eq_nil_iff]
        intro kv hkv
        obtain ⟨b, hb, hkv⟩ := List.mem_flatten.mp hkv
        obtain ⟨j, hj, rfl⟩ := List.getElem_of_mem hb
        simp only [List.length_drop] at hj
        rw [List.getElem_drop] at hkv
        have := h.idx (i + 1 + j) (by omega) kv hkv
        simp; omega
      have hmid : (m.buckets[i]).filter (fun kv => m.index kv.1 == i) = m.buckets[i] := by
        rw [List.filter_eq_self]
        intro kv hkv
        simpa using h.idx i h2 kv hkv
      conv => lhs; arg 2; arg 1; rw [hsplit]
      rw [List.flatten_append, List.flatten_cons, List.filter_append, List.filter_append, hpre, hmid, hpost]
      simp
    rw [hf]
    have hnew : (StrMap.new n).buckets[i] = [] := by simp [new]
    rw [hnew, foldl_bucketPut]
    · simp
    · simpa using h.nodup _ (List.getElem_mem h2)

end StrMap

/-! ### Properties -/

namespace Properties

theorem get_eq (p : Properties) (k : Str) : p.get k = p.pair k := by
  unfold get StrMap.getSize StrMap.getCopy
  cases h : StrMap.pair p k <;> simp

/-- The second `sm_get` call of `trax_properties_get` never fails. -/
theorem get_second_call (p : Properties) (k : Str) (h : ¬ StrMap.getSize p k < 1) :
    (StrMap.getCopy p k (StrMap.getSize p k)).isSome := by
  unfold StrMap.getSize StrMap.getCopy at *
  cases hp : StrMap.pair p k <;> simp_all

theorem has_eq (p : Properties) (k : Str) : p.has k = (p.get k).isSome := by
  rw [get_eq]
  unfold has StrMap.getSize
  cases h : StrMap.pair p k <;> simp

/-- Property objects of the API: 32 buckets, invariant. -/
abbrev WF (p : Properties) : Prop := StrMap.WF p 32

theorem wf_create : WF create := StrMap.wf_new 32

theorem wf_set {p : Properties} (h : p.WF) (k v : Str) : (p.set k v).WF := StrMap.wf_put h k v

theorem get_create (k : Str) : create.get k = none := by rw [get_eq]; exact StrMap.pair_new 32 k

theorem get_set {p : Properties} (h : p.WF) (k v k' : Str) :
    (p.set k v).get k' = if cstr k = cstr k' then some (cstr v) else p.get k' := by
  rw [get_eq, get_eq]; exact StrMap.pair_put h (by decide) k v k'

theorem mem_enumerate {p : Properties} (h : p.WF) (k v : Str) :
    (k, v) ∈ p.enumerate ↔ NoNul k ∧ p.get k = some v := by
  rw [get_eq]; exact StrMap.mem_enum h (by decide) k v

theorem foldl_set_enumerate {p : Properties} (h : p.WF) :
    p.enumerate.foldl (fun m kv => m.set kv.1 kv.2) create = p := StrMap.foldl_put_enum h

end Properties

end Trax
