import Verif.Props.Matlab
import Verif.Lemmas.Properties
import Verif.Lemmas.MessageOps
import Verif.Props.Numbers
import Verif.Props.Lists

/-!
# C120–C122: properties, sets of formats and lists of images as arrays of MATLAB
-/

namespace Trax
open Mex Spec

/-! ## C120: properties -/

theorem Spec.FieldName.same {k : Str} (h : FieldName k) : fieldName k = k := by
  obtain ⟨c, s, rfl, _, hs⟩ := h
  show c :: s.map fieldChar = c :: s
  congr 1
  induction s with
  | nil => rfl
  | cons d s ih =>
    rw [List.map_cons, ih fun d hd => hs d (List.mem_cons_of_mem _ hd)]
    congr 1
    unfold fieldChar
    rcases hs d List.mem_cons_self with h | h <;> simp [h]

theorem isAlpha_ne {c : UInt8} (h : isAlpha c = true) : c ≠ 0 := by rintro rfl; revert h; decide

theorem isAlnum_ne {c : UInt8} (h : isAlnum c = true ∨ c = ch%'_') : c ≠ 0 := by rintro rfl; revert h; decide

theorem Spec.FieldName.noNul {k : Str} (h : FieldName k) : NoNul k := by
  obtain ⟨c, s, rfl, hc, hs⟩ := h
  intro d hd
  rcases List.mem_cons.mp hd with rfl | hd
  · exact isAlpha_ne hc
  · exact isAlnum_ne (hs d hd)

theorem setValue_text {p : Properties} {k s : Str} (hs : NoNul s) : setValue p k (.text s) = p.set k s := by
  show p.set k (cstr s) = _
  rw [cstr_of_noNul hs]

/-- C120, structures: properties whose keys are names of fields become a structure with a field for each, which contains the
text of the property, and `struct_to_parameters` makes the same properties of it. -/
theorem C120_struct_partial (kvs : List (Str × Str)) (hk : ∀ kv ∈ kvs, FieldName kv.1 ∧ NoNul kv.2) :
    ∃ fields, parametersToStruct (Properties.ofPairs kvs) = some fields ∧ (fields.map Prod.fst).Nodup ∧
      (∀ k x, (k, x) ∈ fields ↔ NoNul k ∧ ∃ v, (Properties.ofPairs kvs).get k = some v ∧ x = .text v) ∧
      ∀ k, (structToParameters fields).get k = (Properties.ofPairs kvs).get k := by
  have hwf := Properties.wf_ofPairs kvs
  have hnn : ∀ kv ∈ kvs, NoNul kv.1 ∧ NoNul kv.2 := fun kv h => ⟨(hk kv h).1.noNul, (hk kv h).2⟩
  have hsame : ∀ kv ∈ (Properties.ofPairs kvs).enumerate, fieldName kv.1 = kv.1 :=
    fun kv h => (hk kv (mem_ofPairs_enumerate hnn h)).1.same
  have hm1 : ((Properties.ofPairs kvs).enumerate.map fun kv => fieldName kv.1) = (Properties.ofPairs kvs).enumerate.map Prod.fst :=
    List.map_congr_left hsame
  have hm2 : ((Properties.ofPairs kvs).enumerate.map fun kv => (fieldName kv.1, Value.text kv.2)) =
      (Properties.ofPairs kvs).enumerate.map fun kv => (kv.1, Value.text kv.2) :=
    List.map_congr_left fun kv h => by rw [hsame kv h]
  have hnd : ((Properties.ofPairs kvs).enumerate.map Prod.fst).Nodup := StrMap.enum_keys_nodup hwf
  refine ⟨(Properties.ofPairs kvs).enumerate.map fun kv => (kv.1, Value.text kv.2), ?_, ?_, ?_, ?_⟩
  · unfold parametersToStruct
    rw [hm1, hm2, if_pos hnd]
  · rw [List.map_map]; exact hnd
  · intro k x
    rw [List.mem_map]
    constructor
    · rintro ⟨kv, hkv, e⟩
      cases e
      obtain ⟨h1, h2⟩ := (Properties.mem_enumerate hwf kv.1 kv.2).mp hkv
      exact ⟨h1, kv.2, h2, rfl⟩
    · rintro ⟨h1, v, h2, rfl⟩
      exact ⟨(k, v), (Properties.mem_enumerate hwf k v).mpr ⟨h1, h2⟩, rfl⟩
  · intro k
    have hnv := Deliverable.noNul_enumerate hwf
    have : structToParameters ((Properties.ofPairs kvs).enumerate.map fun kv => (kv.1, Value.text kv.2)) =
        (Properties.ofPairs kvs).enumerate.foldl (fun m kv => m.set kv.1 kv.2) Properties.create := by
      unfold structToParameters
      rw [List.foldl_map]
      generalize (Properties.ofPairs kvs).enumerate = l at hnv
      generalize Properties.create = p
      induction l generalizing p with
      | nil => rfl
      | cons kv l ih =>
        rw [List.foldl_cons, List.foldl_cons]
        dsimp only
        rw [setValue_text (hnv kv List.mem_cons_self).2]
        exact ih (fun kv h => hnv kv (List.mem_cons_of_mem _ h)) _
    rw [this, Properties.foldl_set_enumerate hwf]

example : FieldName b!"frame_rate" := ⟨ch%'f', b!"rame_rate", rfl, by decide, by decide⟩

/-- C120, structures of a user: a text becomes the value of the property with the name of the field, a number
the text of the next `float` with six decimals. -/
theorem C120_fields (fields : List (Str × Value)) (hn : (fields.map Prod.fst).Nodup) (hk : ∀ f ∈ fields, FieldName f.1) :
    (∀ k s, (k, .text s) ∈ fields → NoNul s → (structToParameters fields).get k = some s) ∧
    (∀ k x, (k, .number x) ∈ fields → ∃ y, NextFloat x y ∧ (structToParameters fields).get k = some (fmtFloat 6 y)) ∧
    ∀ k, NoNul k → (∀ x, (k, x) ∉ fields) → (structToParameters fields).get k = none := by
  have wf : ∀ (fs : List (Str × Value)) (p : Properties), p.WF → (fs.foldl (fun p f => setValue p f.1 f.2) p).WF := by
    intro fs
    induction fs with
    | nil => intro p hp; exact hp
    | cons f fs ih =>
      intro p hp
      rw [List.foldl_cons]
      apply ih
      unfold setValue Properties.setFloat
      cases f.2 <;> exact Properties.wf_set hp _ _
  have step : ∀ (p : Properties) (k : Str) (v : Value), p.WF → NoNul k → (setValue p k v).WF ∧
      ∀ k', NoNul k' → (setValue p k v).get k' = if k = k' then (setValue Properties.create k v).get k else p.get k' := by
    intro p k v hp hk
    cases v with
    | text s =>
      refine ⟨Properties.wf_set hp _ _, fun k' hk' => ?_⟩
      unfold setValue
      dsimp only
      rw [Properties.get_set hp, Properties.get_set Properties.wf_create, cstr_of_noNul hk, cstr_of_noNul hk', if_pos rfl]
    | number x =>
      refine ⟨Properties.wf_set hp _ _, fun k' hk' => ?_⟩
      unfold setValue Properties.setFloat
      dsimp only
      rw [Properties.get_set hp, Properties.get_set Properties.wf_create, cstr_of_noNul hk, cstr_of_noNul hk', if_pos rfl]
  have key : ∀ (fs : List (Str × Value)) (p : Properties), p.WF → (fs.map Prod.fst).Nodup → (∀ f ∈ fs, NoNul f.1) →
      (∀ k v, (k, v) ∈ fs → (fs.foldl (fun p f => setValue p f.1 f.2) p).get k = (setValue Properties.create k v).get k) ∧
      ∀ k, NoNul k → (∀ v, (k, v) ∉ fs) → (fs.foldl (fun p f => setValue p f.1 f.2) p).get k = p.get k := by
    intro fs
    induction fs with
    | nil => intro p _ _ _; exact ⟨fun k v h => absurd h (by simp), fun k _ _ => rfl⟩
    | cons f fs ih =>
      intro p hp hnd hnn
      obtain ⟨s1, s2⟩ := step p f.1 f.2 hp (hnn f List.mem_cons_self)
      rw [List.map_cons, List.nodup_cons] at hnd
      obtain ⟨i1, i2⟩ := ih (setValue p f.1 f.2) s1 hnd.2 fun g hg => hnn g (List.mem_cons_of_mem _ hg)
      refine ⟨fun k v hkv => ?_, fun k hk hno => ?_⟩
      · rcases List.mem_cons.mp hkv with e | hin
        · subst e
          rw [List.foldl_cons, i2 k (hnn (k, v) List.mem_cons_self) fun v' hin => hnd.1 (List.mem_map.mpr ⟨_, hin, rfl⟩)]
          rw [s2 k (hnn (k, v) List.mem_cons_self), if_pos rfl]
        · rw [List.foldl_cons]; exact i1 k v hin
      · rw [List.foldl_cons, i2 k hk fun v hin => hno v (List.mem_cons_of_mem _ hin), s2 k hk, if_neg]
        intro e
        exact hno f.2 (by rw [← e]; exact List.mem_cons_self)
  obtain ⟨k1, k2⟩ := key fields Properties.create Properties.wf_create hn fun f hf => (hk f hf).noNul
  refine ⟨fun k s hin hs => ?_, fun k x hin => ?_, fun k hk hno => ?_⟩
  · refine (k1 k _ hin).trans ?_
    rw [setValue_text hs, Properties.get_set Properties.wf_create, if_pos rfl, cstr_of_noNul hs]
  · refine ⟨x.toFloat, nextFloat_toFloat x, (k1 k _ hin).trans ?_⟩
    unfold setValue Properties.setFloat
    dsimp only
    rw [Properties.get_set Properties.wf_create, if_pos rfl, cstr_of_noNul (fmtFloat_noNul _ _)]
  · exact (k2 k hk hno).trans (Properties.get_create k)

/-- C120, cells: a row of a key and a value is a property, and the cells made of exactly one property are read as this property. -/
theorem C120_cell_partial (k v : Str) (hk : NoNul k) (hv : NoNul v) :
    (∃ p, cellToParameters 1 2 [.text k, .text v] = .ok (some p) ∧ ∀ k', NoNul k' → p.get k' = if k' = k then some v else none) ∧
    parametersToCell (Properties.ofPairs [(k, v)]) = (1, 2, [.text k, .text v]) := by
  refine ⟨⟨Properties.create.set k v, ?_, fun k' hk' => ?_⟩, ?_⟩
  · show Outcome.ok (some (setValue Properties.create (cstr k) (.text v))) = _
    rw [cstr_of_noNul hk, setValue_text hv]
  · rw [Properties.get_set Properties.wf_create, cstr_of_noNul hk, cstr_of_noNul hk', cstr_of_noNul hv, Properties.get_create]
    by_cases h : k = k'
    · rw [if_pos h, if_pos h.symm]
    · rw [if_neg h, if_neg fun e => h e.symm]
  · have hwf := Properties.wf_ofPairs [(k, v)]
    have hnd : ((Properties.ofPairs [(k, v)]).enumerate.map Prod.fst).Nodup := StrMap.enum_keys_nodup hwf
    have hall : ∀ kv ∈ (Properties.ofPairs [(k, v)]).enumerate, kv = (k, v) := by
      intro kv h
      have := mem_ofPairs_enumerate (kvs := [(k, v)]) (by intro kv h; rw [List.mem_singleton.mp h]; exact ⟨hk, hv⟩) h
      exact List.mem_singleton.mp this
    have hin : (k, v) ∈ (Properties.ofPairs [(k, v)]).enumerate := by
      rw [Properties.mem_enumerate hwf]
      refine ⟨hk, ?_⟩
      show (Properties.create.set k v).get k = _
      rw [Properties.get_set Properties.wf_create, if_pos rfl, cstr_of_noNul hv]
    have : (Properties.ofPairs [(k, v)]).enumerate = [(k, v)] := by
      generalize (Properties.ofPairs [(k, v)]).enumerate = l at *
      match l, hin with
      | [a], _ => rw [hall a (by simp)]
      | a :: b :: l, _ =>
        have ha := hall a (by simp)
        have hb := hall b (by simp)
        subst ha; subst hb
        simp at hnd
    unfold parametersToCell
    rw [this]
    rfl

example : NoNul b!"key" ∧ NoNul b!"value" := by decide

/-- The full C120 is false: of more than one property, and of none, `cell_to_parameters` makes nothing again; a column of keys and
values is read beyond its end; the field of a property whose key contains a full stop has another name. -/
theorem C120_properties_false :
    (∀ p : Properties, p.enumerate.length ≠ 1 →
      cellToParameters (parametersToCell p).1 (parametersToCell p).2.1 (parametersToCell p).2.2 = .ok none) ∧
    cellToParameters 2 1 [.text b!"key", .text b!"value"] = .ub ∧
    (∃ fields, parametersToStruct (Properties.ofPairs [(b!"a.b", b!"1")]) = some fields ∧
      (structToParameters fields).get b!"a.b" = none ∧ (Properties.ofPairs [(b!"a.b", b!"1")]).get b!"a.b" = some b!"1") := by
  refine ⟨fun p hp => ?_, rfl, _, rfl, by decide +kernel, by decide +kernel⟩
  unfold cellToParameters parametersToCell
  rw [if_pos (by dsimp only; omega)]

/-! ## C121: sets of formats -/

theorem toLower_eq (a b : UInt8) (hb : 97 ≤ b.toNat ∧ b.toNat ≤ 122) :
    toLower a = b ↔ (a = b ∨ (65 ≤ a.toNat ∧ a.toNat ≤ 90 ∧ b.toNat = a.toNat + 32)) := by
  unfold toLower
  have hadd : (a + 32).toNat = (a.toNat + 32) % 256 := UInt8.toNat_add a 32
  by_cases h : 65 ≤ a.toNat ∧ a.toNat ≤ 90
  · rw [if_pos (by simp [h])]
    constructor
    · rintro rfl
      exact .inr ⟨h.1, h.2, by omega⟩
    · rintro (rfl | ⟨_, _, e⟩)
      · omega
      · apply UInt8.toNat_inj.mp; omega
  · rw [if_neg (by simp; omega)]
    constructor
    · exact .inl
    · rintro (e | ⟨h1, h2, _⟩)
      · exact e
      · exact absurd ⟨h1, h2⟩ h

theorem lower_eq (s name : Str) (hn : ∀ c ∈ name, 97 ≤ c.toNat ∧ c.toNat ≤ 122) :
    lower s = name ↔ List.Forall₂ (fun a b : UInt8 => a = b ∨ (65 ≤ a.toNat ∧ a.toNat ≤ 90 ∧ b.toNat = a.toNat + 32)) s name := by
  unfold lower
  induction s generalizing name with
  | nil =>
    cases name with
    | nil => exact ⟨fun _ => .nil, fun _ => rfl⟩
    | cons b name => exact ⟨fun h => (by cases h), fun h => (by cases h)⟩
  | cons a s ih =>
    cases name with
    | nil => exact ⟨fun h => (by cases h), fun h => (by cases h)⟩
    | cons b name =>
      rw [List.map_cons, List.cons.injEq, List.forall₂_cons, toLower_eq a b (hn b List.mem_cons_self),
        ih name fun c hc => hn c (List.mem_cons_of_mem _ hc)]

theorem regionCode_iff (s : Str) (c : UInt32) : regionCode s = some c ↔ Names mexRegions s c := by
  unfold Names mexRegions
  simp only [List.mem_cons, Prod.mk.injEq, List.not_mem_nil, or_false]
  unfold regionCode
  constructor
  · intro h
    split_ifs at h with h1 h2 h3
    · cases h; exact ⟨_, .inl ⟨rfl, rfl⟩, (lower_eq s _ (by decide)).mp h1⟩
    · cases h; exact ⟨_, .inr (.inl ⟨rfl, rfl⟩), (lower_eq s _ (by decide)).mp h2⟩
    · cases h; exact ⟨_, .inr (.inr ⟨rfl, rfl⟩), (lower_eq s _ (by decide)).mp h3⟩
  · rintro ⟨_, ⟨rfl, rfl⟩ | ⟨rfl, rfl⟩ | ⟨rfl, rfl⟩, h⟩ <;> rw [(lower_eq s _ (by decide)).mpr h] <;> rfl

theorem imageCode_iff (s : Str) (c : UInt32) : imageCode s = some c ↔ Names mexImages s c := by
  unfold Names mexImages
  simp only [List.mem_cons, Prod.mk.injEq, List.not_mem_nil, or_false]
  unfold imageCode
  constructor
  · intro h
    split_ifs at h with h1 h2 h3 h4
    · cases h; exact ⟨_, .inl ⟨rfl, rfl⟩, (lower_eq s _ (by decide)).mp h1⟩
    · cases h; exact ⟨_, .inr (.inl ⟨rfl, rfl⟩), (lower_eq s _ (by decide)).mp h2⟩
    · cases h; exact ⟨_, .inr (.inr (.inl ⟨rfl, rfl⟩)), (lower_eq s _ (by decide)).mp h3⟩
    · cases h; exact ⟨_, .inr (.inr (.inr ⟨rfl, rfl⟩)), (lower_eq s _ (by decide)).mp h4⟩
  · rintro ⟨_, ⟨rfl, rfl⟩ | ⟨rfl, rfl⟩ | ⟨rfl, rfl⟩ | ⟨rfl, rfl⟩, h⟩ <;> rw [(lower_eq s _ (by decide)).mpr h] <;> rfl

theorem channelCode_iff (s : Str) (c : UInt32) : channelCode s = some c ↔ Names mexChannels s c := by
  unfold Names mexChannels
  simp only [List.mem_cons, Prod.mk.injEq, List.not_mem_nil, or_false]
  unfold channelCode
  constructor
  · intro h
    split_ifs at h with h1 h2 h3
    · cases h; exact ⟨_, .inl ⟨rfl, rfl⟩, (lower_eq s _ (by decide)).mp h1⟩
    · cases h; exact ⟨_, .inr (.inl ⟨rfl, rfl⟩), (lower_eq s _ (by decide)).mp h2⟩
    · cases h; exact ⟨_, .inr (.inr ⟨rfl, rfl⟩), (lower_eq s _ (by decide)).mp h3⟩
  · rintro ⟨_, ⟨rfl, rfl⟩ | ⟨rfl, rfl⟩ | ⟨rfl, rfl⟩, h⟩ <;> rw [(lower_eq s _ (by decide)).mpr h] <;> rfl

/-- A table in which each code is another power of two. -/
def Powers (table : List (Str × UInt32)) : Prop := ∀ name code, (name, code) ∈ table → ∃ i, code.toNat = 2 ^ i

theorem and_power {c code : UInt32} {i : Nat} (h : code.toNat = 2 ^ i) : c &&& code ≠ 0 ↔ c.toNat.testBit i = true := by
  rw [Ne, ← UInt32.toNat_inj, UInt32.toNat_and, h, Nat.and_two_pow]
  cases c.toNat.testBit i <;> simp

theorem flagsLoop_some {table : List (Str × UInt32)} {parser : Str → Option UInt32} (hp : ∀ s c, parser s = some c ↔ Names table s c)
    (l : List Str) (codes : UInt32) (hl : ∀ s ∈ l, ∃ c, Names table s c) :
    ∃ r, flagsLoop parser l codes = some r ∧
      ∀ i, r.toNat.testBit i = true ↔ codes.toNat.testBit i = true ∨ ∃ s ∈ l, ∃ c, Names table s c ∧ c.toNat.testBit i = true := by
  induction l generalizing codes with
  | nil => exact ⟨codes, rfl, fun i => by simp⟩
  | cons s l ih =>
    obtain ⟨c, hc⟩ := hl s List.mem_cons_self
    obtain ⟨r, h1, h2⟩ := ih (codes ||| c) fun t ht => hl t (List.mem_cons_of_mem _ ht)
    refine ⟨r, ?_, fun i => ?_⟩
    · unfold flagsLoop
      rw [(hp s c).mpr hc]
      exact h1
    · rw [h2 i, UInt32.toNat_or, Nat.testBit_or, Bool.or_eq_true]
      constructor
      · rintro ((h | h) | ⟨t, ht, h⟩)
        · exact .inl h
        · exact .inr ⟨s, List.mem_cons_self, c, hc, h⟩
        · exact .inr ⟨t, List.mem_cons_of_mem _ ht, h⟩
      · rintro (h | ⟨t, ht, d, hd, h⟩)
        · exact .inl (.inl h)
        · rcases List.mem_cons.mp ht with rfl | ht
          · have : c = d := by
              have := ((hp t c).mpr hc).symm.trans ((hp t d).mpr hd)
              cases this; rfl
            subst this
            exact .inl (.inr h)
          · exact .inr ⟨t, ht, d, hd, h⟩

theorem flagsLoop_none {table : List (Str × UInt32)} {parser : Str → Option UInt32} (hp : ∀ s c, parser s = some c ↔ Names table s c)
    (l : List Str) (codes : UInt32) (hl : ∃ s ∈ l, ∀ c, ¬ Names table s c) : flagsLoop parser l codes = none := by
  induction l generalizing codes with
  | nil => obtain ⟨s, hs, _⟩ := hl; cases hs
  | cons s l ih =>
    unfold flagsLoop
    cases hc : parser s with
    | none => rfl
    | some c =>
      dsimp only
      apply ih
      obtain ⟨t, ht, hn⟩ := hl
      rcases List.mem_cons.mp ht with rfl | ht
      · exact absurd ((hp t c).mp hc) (hn c)
      · exact ⟨t, ht, hn⟩

theorem getFlags_union {table : List (Str × UInt32)} {parser : Str → Option UInt32} (hp : ∀ s c, parser s = some c ↔ Names table s c)
    (hpow : Powers table) {rows cols : Nat} {l : List Str} (hv : min rows cols = 1) (hl : l.length = max rows cols) :
    ((∀ s ∈ l, ∃ c, Names table s c) → ∃ c, getFlags parser (.many rows cols l) = some c ∧ Union table l c) ∧
    ((∃ s ∈ l, ∀ c, ¬ Names table s c) → getFlags parser (.many rows cols l) = none) := by
  have e : getFlags parser (.many rows cols l) = flagsLoop parser l 0 := by
    show (if min rows cols ≠ 1 then none else flagsLoop parser (l.take (max rows cols)) 0) = _
    rw [if_neg (by omega), ← hl, List.take_length]
  rw [e]
  refine ⟨fun h => ?_, flagsLoop_none hp l 0⟩
  obtain ⟨c, h1, h2⟩ := flagsLoop_some hp l 0 h
  have h3 : ∀ i, c.toNat.testBit i = true ↔ ∃ s ∈ l, ∃ c, Names table s c ∧ c.toNat.testBit i = true := by
    intro i
    rw [h2 i]
    simp
  refine ⟨c, h1, fun name code hin => ?_, fun i hi => ?_⟩
  · obtain ⟨i, hi⟩ := hpow name code hin
    rw [and_power hi, h3 i]
    constructor
    · rintro ⟨s, hs, d, hd, hb⟩
      obtain ⟨name', hin', hf⟩ := hd
      obtain ⟨j, hj⟩ := hpow name' d hin'
      rw [hj, Nat.testBit_two_pow] at hb
      have hji : j = i := by simpa using hb
      have : d = code := UInt32.toNat_inj.mp (by rw [hj, hi, hji])
      subst this
      exact ⟨s, hs, name', hin', hf⟩
    · rintro ⟨s, hs, hn⟩
      exact ⟨s, hs, code, hn, by rw [hi, Nat.testBit_two_pow]; simp⟩
  · obtain ⟨s, _, d, ⟨name, hin, _⟩, hb⟩ := (h3 i).mp hi
    obtain ⟨j, hj⟩ := hpow name d hin
    rw [hj, Nat.testBit_two_pow] at hb
    have hji : j = i := by simpa using hb
    exact ⟨name, d, hin, by rw [hj, hji]⟩

theorem powers_region : Powers mexRegions := by
  intro name code h
  simp only [mexRegions, List.mem_cons, Prod.mk.injEq, List.not_mem_nil, or_false] at h
  rcases h with ⟨_, rfl⟩ | ⟨_, rfl⟩ | ⟨_, rfl⟩
  exacts [⟨1, rfl⟩, ⟨2, rfl⟩, ⟨3, rfl⟩]

theorem powers_image : Powers mexImages := by
  intro name code h
  simp only [mexImages, List.mem_cons, Prod.mk.injEq, List.not_mem_nil, or_false] at h
  rcases h with ⟨_, rfl⟩ | ⟨_, rfl⟩ | ⟨_, rfl⟩ | ⟨_, rfl⟩
  exacts [⟨0, rfl⟩, ⟨1, rfl⟩, ⟨3, rfl⟩, ⟨2, rfl⟩]

theorem powers_channel : Powers mexChannels := by
  intro name code h
  simp only [mexChannels, List.mem_cons, Prod.mk.injEq, List.not_mem_nil, or_false] at h
  rcases h with ⟨_, rfl⟩ | ⟨_, rfl⟩ | ⟨_, rfl⟩
  exacts [⟨0, rfl⟩, ⟨1, rfl⟩, ⟨2, rfl⟩]

/-- C121, from names to sets: a name, or a row or column of names, in letters of either case, is the set of what it names; a
name that is not known is refused. -/
theorem C121_flags (parser : Str → Option UInt32) (table : List (Str × UInt32))
    (hk : parser = regionCode ∧ table = mexRegions ∨ parser = imageCode ∧ table = mexImages ∨ parser = channelCode ∧ table = mexChannels) :
    (∀ s c, getFlags parser (.one s) = some c ↔ Names table s c) ∧
    ∀ (rows cols : Nat) (l : List Str), min rows cols = 1 → l.length = max rows cols →
      ((∀ s ∈ l, ∃ c, Names table s c) → ∃ c, getFlags parser (.many rows cols l) = some c ∧ Union table l c) ∧
      ((∃ s ∈ l, ∀ c, ¬ Names table s c) → getFlags parser (.many rows cols l) = none) := by
  rcases hk with ⟨rfl, rfl⟩ | ⟨rfl, rfl⟩ | ⟨rfl, rfl⟩
  · exact ⟨regionCode_iff, fun rows cols l h1 h2 => getFlags_union regionCode_iff powers_region h1 h2⟩
  · exact ⟨imageCode_iff, fun rows cols l h1 h2 => getFlags_union imageCode_iff powers_image h1 h2⟩
  · exact ⟨channelCode_iff, fun rows cols l h1 h2 => getFlags_union channelCode_iff powers_channel h1 h2⟩

example : getFlags imageCode (.many 1 2 [b!"Path", b!"MEMORY"]) = some 5 ∧ Names mexImages b!"Path" 1 :=
  ⟨by decide +kernel, (imageCode_iff _ _).mp (by decide +kernel)⟩

/-- The names of the codes of `table` that are in the set. -/
theorem row_filter (table : List (Str × UInt32)) (f : UInt32) :
    ∀ name ∈ (table.filter fun e => supports f e.2).map Prod.fst, ∃ code, (name, code) ∈ table ∧ f &&& code ≠ 0 := by
  intro name h
  obtain ⟨e, he, rfl⟩ := List.mem_map.mp h
  obtain ⟨h1, h2⟩ := List.mem_filter.mp he
  exact ⟨e.2, h1, by unfold supports at h2; simpa using h2⟩

theorem decode_eq (f : UInt32) :
    decodeRegion f = row ((mexRegions.filter fun e => supports f e.2).map Prod.fst) ∧
    decodeImage f = row ((mexImages.filter fun e => supports f e.2).map Prod.fst) ∧
    decodeChannels f = row ((mexChannels.filter fun e => supports f e.2).map Prod.fst) := by
  refine ⟨?_, ?_, ?_⟩
  · unfold decodeRegion mexRegions
    simp only [List.filter_cons, List.filter_nil]
    cases supports f 2 <;> cases supports f 4 <;> cases supports f 8 <;> rfl
  · unfold decodeImage mexImages
    simp only [List.filter_cons, List.filter_nil]
    cases supports f 1 <;> cases supports f 2 <;> cases supports f 8 <;> cases supports f 4 <;> rfl
  · unfold decodeChannels mexChannels
    simp only [List.filter_cons, List.filter_nil]
    cases supports f 1 <;> cases supports f 2 <;> cases supports f 4 <;> rfl

theorem forall₂_refl_name (s : Str) : List.Forall₂ (fun a b : UInt8 => a = b ∨ (65 ≤ a.toNat ∧ a.toNat ≤ 90 ∧ b.toNat = a.toNat + 32)) s s := by
  induction s with
  | nil => exact .nil
  | cons a s ih => exact .cons (.inl rfl) ih

theorem names_unique {table : List (Str × UInt32)} {parser : Str → Option UInt32} (hp : ∀ s c, parser s = some c ↔ Names table s c)
    {s : Str} {c d : UInt32} (h1 : Names table s c) (h2 : Names table s d) : c = d := by
  have := ((hp s c).mpr h1).symm.trans ((hp s d).mpr h2)
  cases this; rfl

theorem decode_table {table : List (Str × UInt32)} {parser : Str → Option UInt32} (hp : ∀ s c, parser s = some c ↔ Names table s c)
    (hpow : Powers table) (hnd : (table.map Prod.fst).Nodup) (f : UInt32) :
    ∃ l, row ((table.filter fun e => supports f e.2).map Prod.fst) = .many 1 l.length l ∧ l.Nodup ∧
      (∀ name, name ∈ l ↔ ∃ code, (name, code) ∈ table ∧ f &&& code ≠ 0) ∧
      (l ≠ [] → ∃ c, getFlags parser (.many 1 l.length l) = some c ∧ (∀ name code, (name, code) ∈ table → (c &&& code ≠ 0 ↔ f &&& code ≠ 0)) ∧
        ∀ i, c.toNat.testBit i = true → ∃ name code, (name, code) ∈ table ∧ code.toNat = 2 ^ i) ∧
      (l = [] → getFlags parser (.many 1 l.length l) = none) := by
  have hmem : ∀ name, name ∈ (table.filter fun e => supports f e.2).map Prod.fst ↔ ∃ code, (name, code) ∈ table ∧ f &&& code ≠ 0 := by
    intro name
    refine ⟨row_filter table f name, ?_⟩
    rintro ⟨code, h1, h2⟩
    exact List.mem_map.mpr ⟨(name, code), List.mem_filter.mpr ⟨h1, by unfold supports; simpa using h2⟩, rfl⟩
  refine ⟨_, rfl, (List.Sublist.map _ List.filter_sublist).nodup hnd, hmem, ?_, ?_⟩
  · intro hne
    have hlen : 1 ≤ ((table.filter fun e => supports f e.2).map Prod.fst).length := List.length_pos_iff.mpr hne
    obtain ⟨c, h1, h2, h3⟩ := (getFlags_union hp hpow (rows := 1) (cols := ((table.filter fun e => supports f e.2).map Prod.fst).length)
      (l := (table.filter fun e => supports f e.2).map Prod.fst) (by omega) (by omega)).1 (by
        intro s hs
        obtain ⟨code, h, _⟩ := (hmem s).mp hs
        exact ⟨code, s, h, forall₂_refl_name s⟩)
    refine ⟨c, h1, fun name code hin => ?_, h3⟩
    rw [h2 name code hin]
    constructor
    · rintro ⟨s, hs, hn⟩
      obtain ⟨code', h4, h5⟩ := (hmem s).mp hs
      rwa [names_unique hp hn ⟨s, h4, forall₂_refl_name s⟩]
    · intro h
      exact ⟨name, (hmem name).mpr ⟨code, hin, h⟩, name, hin, forall₂_refl_name name⟩
  · intro h
    rw [h]
    rfl

/-- C121, from sets to names: the row contains the name of each member of the set, once, and `get_flags` makes
the set of it again, if it is not empty. -/
theorem C121_names_partial (f : UInt32) (parser : Str → Option UInt32) (table : List (Str × UInt32)) (cells : Cells Str)
    (hk : parser = regionCode ∧ table = mexRegions ∧ cells = decodeRegion f ∨ parser = imageCode ∧ table = mexImages ∧ cells = decodeImage f ∨
      parser = channelCode ∧ table = mexChannels ∧ cells = decodeChannels f) :
    ∃ l, cells = .many 1 l.length l ∧ l.Nodup ∧ (∀ name, name ∈ l ↔ ∃ code, (name, code) ∈ table ∧ f &&& code ≠ 0) ∧
      (l ≠ [] → ∃ c, getFlags parser cells = some c ∧ (∀ name code, (name, code) ∈ table → (c &&& code ≠ 0 ↔ f &&& code ≠ 0)) ∧
        ∀ i, c.toNat.testBit i = true → ∃ name code, (name, code) ∈ table ∧ code.toNat = 2 ^ i) := by
  rcases hk with ⟨rfl, rfl, rfl⟩ | ⟨rfl, rfl, rfl⟩ | ⟨rfl, rfl, rfl⟩
  · obtain ⟨l, h1, h2, h3, h4, _⟩ := decode_table regionCode_iff powers_region (by decide) f
    rw [(decode_eq f).1, h1]
    exact ⟨l, rfl, h2, h3, h4⟩
  · obtain ⟨l, h1, h2, h3, h4, _⟩ := decode_table imageCode_iff powers_image (by decide) f
    rw [(decode_eq f).2.1, h1]
    exact ⟨l, rfl, h2, h3, h4⟩
  · obtain ⟨l, h1, h2, h3, h4, _⟩ := decode_table channelCode_iff powers_channel (by decide) f
    rw [(decode_eq f).2.2, h1]
    exact ⟨l, rfl, h2, h3, h4⟩

/-- The full C121 is false: the row of names of the empty set is refused. -/
theorem C121_names_false : getFlags regionCode (decodeRegion 0) = none := rfl

/-! ## C122: lists of images -/

set_option linter.unusedSimpArgs false

theorem hasArray_back (fresh : Nat → UInt8) {image : Image} (h : HasArray image) :
    ∃ arr, imageToArray image = .ok (some arr) ∧ arrayToImage fresh arr = .ok (some image) := by
  cases h with
  | memory w h f data hp =>
    obtain ⟨arr, h1, _, h2⟩ := (C118_images_partial fresh).1 w h f data hp
    exact ⟨arr, h1, h2⟩
  | path p hp => exact ⟨_, (C118_images_partial fresh).2 p hp⟩

/-- C122: the images of a list are in the cells of a row, in the order of the channels colour, depth and infrared, as the arrays of
the single images, and `array_to_images` for these channels makes the same list of it. One image alone needs no cell. -/
theorem C122_lists_partial (fresh : Nat → UInt8) (color depth ir : Option Image) (channels : UInt32)
    (ha : ∀ image, some image ∈ [color, depth, ir] → HasArray image)
    (hc : channels.toNat = (if color.isSome then 1 else 0) + (if depth.isSome then 2 else 0) + (if ir.isSome then 4 else 0)) (hne : channels ≠ 0) :
    ∃ cells, imagesToArray [color, depth, ir] = .ok (some (.many 1 cells.length cells)) ∧
      List.Forall₂ (fun image arr => imageToArray image = .ok (some arr)) (color.toList ++ depth.toList ++ ir.toList) cells ∧
      arrayToImages fresh channels (.many 1 cells.length cells) = .ok (some [color, depth, ir]) ∧
      ∀ arr, cells = [arr] → arrayToImages fresh channels (.one arr) = .ok (some [color, depth, ir]) := by
  have hch : channels = (if color.isSome then 1 else 0) + (if depth.isSome then 2 else 0) + (if ir.isSome then 4 else 0) := by
    apply UInt32.toNat_inj.mp
    rw [hc]
    cases color <;> cases depth <;> cases ir <;> rfl
  clear hc
  subst hch
  have hA : ∀ image, some image ∈ [color, depth, ir] → ∃ arr, imageToArray image = .ok (some arr) ∧ arrayToImage fresh arr = .ok (some image) :=
    fun image h => hasArray_back fresh (ha image h)
  clear ha
  have k1 : ImageList.count 1 = .ok 1 := by decide +kernel
  have k2 : ImageList.count 2 = .ok 1 := by decide +kernel
  have k3 : ImageList.count 3 = .ok 2 := by decide +kernel
  have k4 : ImageList.count 4 = .ok 1 := by decide +kernel
  have k5 : ImageList.count 5 = .ok 2 := by decide +kernel
  have k6 : ImageList.count 6 = .ok 2 := by decide +kernel
  have k7 : ImageList.count 7 = .ok 3 := by decide +kernel
  rcases color with _ | a <;> rcases depth with _ | b <;> rcases ir with _ | c
  · exact absurd rfl hne
  · obtain ⟨c', c1, c2⟩ := hA c (by simp)
    refine ⟨[c'], ?_, .cons c1 (.nil), ?_, ?_⟩
    · simp [imagesToArray, imagesLoop, imageOf, ImageList.channelId, ImageList.channelIndex, Outcome.map, Outcome.bind, c1] <;> rfl
    · simp [arrayToImages, arraysLoop, k4, Outcome.bind, supports, ImageList.channelId, setImage, ImageList.channelIndex, ImageList.create, c2] <;> rfl
    · rintro arr e
      cases e
      simp [arrayToImages, k4, Outcome.bind, Outcome.map, setImage, ImageList.channelIndex, ImageList.create, c2] <;> rfl
  · obtain ⟨b', b1, b2⟩ := hA b (by simp)
    refine ⟨[b'], ?_, .cons b1 (.nil), ?_, ?_⟩
    · simp [imagesToArray, imagesLoop, imageOf, ImageList.channelId, ImageList.channelIndex, Outcome.map, Outcome.bind, b1] <;> rfl
    · simp [arrayToImages, arraysLoop, k2, Outcome.bind, supports, ImageList.channelId, setImage, ImageList.channelIndex, ImageList.create, b2] <;> rfl
    · rintro arr e
      cases e
      simp [arrayToImages, k2, Outcome.bind, Outcome.map, setImage, ImageList.channelIndex, ImageList.create, b2] <;> rfl
  · obtain ⟨b', b1, b2⟩ := hA b (by simp)
    obtain ⟨c', c1, c2⟩ := hA c (by simp)
    refine ⟨[b', c'], ?_, .cons b1 (.cons c1 (.nil)), ?_, ?_⟩
    · simp [imagesToArray, imagesLoop, imageOf, ImageList.channelId, ImageList.channelIndex, Outcome.map, Outcome.bind, b1, c1] <;> rfl
    · simp [arrayToImages, arraysLoop, k6, Outcome.bind, supports, ImageList.channelId, setImage, ImageList.channelIndex, ImageList.create, b2, c2] <;> rfl
    · rintro arr e
      cases e
  · obtain ⟨a', a1, a2⟩ := hA a (by simp)
    refine ⟨[a'], ?_, .cons a1 (.nil), ?_, ?_⟩
    · simp [imagesToArray, imagesLoop, imageOf, ImageList.channelId, ImageList.channelIndex, Outcome.map, Outcome.bind, a1] <;> rfl
    · simp [arrayToImages, arraysLoop, k1, Outcome.bind, supports, ImageList.channelId, setImage, ImageList.channelIndex, ImageList.create, a2] <;> rfl
    · rintro arr e
      cases e
      simp [arrayToImages, k1, Outcome.bind, Outcome.map, setImage, ImageList.channelIndex, ImageList.create, a2] <;> rfl
  · obtain ⟨a', a1, a2⟩ := hA a (by simp)
    obtain ⟨c', c1, c2⟩ := hA c (by simp)
    refine ⟨[a', c'], ?_, .cons a1 (.cons c1 (.nil)), ?_, ?_⟩
    · simp [imagesToArray, imagesLoop, imageOf, ImageList.channelId, ImageList.channelIndex, Outcome.map, Outcome.bind, a1, c1] <;> rfl
    · simp [arrayToImages, arraysLoop, k5, Outcome.bind, supports, ImageList.channelId, setImage, ImageList.channelIndex, ImageList.create, a2, c2] <;> rfl
    · rintro arr e
      cases e
  · obtain ⟨a', a1, a2⟩ := hA a (by simp)
    obtain ⟨b', b1, b2⟩ := hA b (by simp)
    refine ⟨[a', b'], ?_, .cons a1 (.cons b1 (.nil)), ?_, ?_⟩
    · simp [imagesToArray, imagesLoop, imageOf, ImageList.channelId, ImageList.channelIndex, Outcome.map, Outcome.bind, a1, b1] <;> rfl
    · simp [arrayToImages, arraysLoop, k3, Outcome.bind, supports, ImageList.channelId, setImage, ImageList.channelIndex, ImageList.create, a2, b2] <;> rfl
    · rintro arr e
      cases e
  · obtain ⟨a', a1, a2⟩ := hA a (by simp)
    obtain ⟨b', b1, b2⟩ := hA b (by simp)
    obtain ⟨c', c1, c2⟩ := hA c (by simp)
    refine ⟨[a', b', c'], ?_, .cons a1 (.cons b1 (.cons c1 (.nil))), ?_, ?_⟩
    · simp [imagesToArray, imagesLoop, imageOf, ImageList.channelId, ImageList.channelIndex, Outcome.map, Outcome.bind, a1, b1, c1] <;> rfl
    · simp [arrayToImages, arraysLoop, k7, Outcome.bind, supports, ImageList.channelId, setImage, ImageList.channelIndex, ImageList.create, a2, b2, c2] <;> rfl
    · rintro arr e
      cases e

example : HasArray (.path b!"a.png") ∧ HasArray (.memory (1 : Nat) (1 : Nat) 2 [7, 8]) :=
  ⟨.path _ (by decide), .memory 1 1 2 _ ⟨.inr (.inl rfl), by norm_num, by norm_num, by decide, by decide⟩⟩

/-- The full C122 is false: a list with a URL ends the program, an image for a channel that does not exist is written outside of
the list, and an empty list cannot be made of its cells. -/
theorem C122_lists_false (fresh : Nat → UInt8) :
    imagesToArray [some (.url b!"http://a/b.png"), none, none] = .abort ∧
    arrayToImages fresh 8 (.one (.text b!"a.png")) = .ub ∧
    imagesToArray ImageList.create = .ok (some (.many 1 0 [])) ∧ arrayToImages fresh 0 (.many 1 0 []) = .ok none :=
  ⟨rfl, rfl, rfl, rfl⟩

end Trax
