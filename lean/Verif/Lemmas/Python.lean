import Verif.Spec.Python
import Verif.Lemmas.Properties
import Mathlib.Tactic.SplitIfs
import Mathlib.Data.List.Forall2

/-!
# Texts, names and properties in the Python package: lemmas
-/

namespace Trax.Py
open Spec

/-! ## UTF-8 -/

theorem utf8_length {c : Nat} {s : Str} (h : utf8 c = some s) : 0 < s.length := by
  unfold utf8 at h
  split_ifs at h <;> cases h <;> simp

theorem utf8_valid {c : Nat} : (utf8 c).isSome ↔ c.isValidChar := by
  unfold utf8 Nat.isValidChar
  split_ifs <;> simp <;> omega

theorem toNat_ofNat {n : Nat} (h : n < 256) : (UInt8.ofNat n).toNat = n := by
  simp only [UInt8.toNat_ofNat']
  omega

theorem spelled_utf8 {c : Nat} {s : Str} (h : utf8 c = some s) (r : Str) : spelled (s ++ r) = (s.length, c) := by
  unfold utf8 at h
  split_ifs at h with h1 h2 h3 h4 h5
  · cases h
    simp only [spelled, List.cons_append]
    rw [toNat_ofNat (by omega), if_pos h1]
    rfl
  · cases h
    simp only [spelled, List.cons_append, List.nil_append, List.getElem?_cons_succ, List.getElem?_cons_zero, Option.getD_some]
    rw [toNat_ofNat (by omega), toNat_ofNat (by omega), if_neg (by omega), if_pos (by omega)]
    refine Prod.ext rfl ?_
    show _ % 32 * 64 + _ % 64 = c
    omega
  · cases h
    simp only [spelled, List.cons_append, List.nil_append, List.getElem?_cons_succ, List.getElem?_cons_zero, Option.getD_some]
    rw [toNat_ofNat (by omega), toNat_ofNat (by omega), toNat_ofNat (by omega), if_neg (by omega), if_neg (by omega), if_pos (by omega)]
    refine Prod.ext rfl ?_
    show _ % 16 * 4096 + _ % 64 * 64 + _ % 64 = c
    omega
  · cases h
    simp only [spelled, List.cons_append, List.nil_append, List.getElem?_cons_succ, List.getElem?_cons_zero, Option.getD_some]
    rw [toNat_ofNat (by omega), toNat_ofNat (by omega), toNat_ofNat (by omega), toNat_ofNat (by omega), if_neg (by omega), if_neg (by omega),
      if_neg (by omega)]
    refine Prod.ext rfl ?_
    show _ % 8 * 262144 + _ % 64 * 4096 + _ % 64 * 64 + _ % 64 = c
    omega

theorem decodeLoop_encode : ∀ {t : Text} {s : Str}, t.encode = some s → ∀ n, s.length ≤ n → decodeLoop n s = some t
  | [], s, h, n, _ => by
    cases h
    cases n <;> rfl
  | c :: t, s, h, n, hn => by
    simp only [Text.encode] at h
    cases ha : utf8 c with
    | none => rw [ha] at h; cases h
    | some a =>
      cases hb : Text.encode t with
      | none => rw [ha, hb] at h; cases h
      | some b =>
        rw [ha, hb] at h
        cases h
        have hl := utf8_length ha
        simp only [List.length_append] at hn
        obtain ⟨n, rfl⟩ : ∃ m, n = m + 1 := ⟨n - 1, by omega⟩
        have hne : a ++ b ≠ [] := by
          intro e
          rw [List.append_eq_nil_iff] at e
          rw [e.1] at hl
          simp at hl
        have hs := spelled_utf8 ha b
        cases hab : a ++ b with
        | nil => exact absurd hab hne
        | cons x y =>
          simp only [decodeLoop]
          rw [← hab, hs]
          simp only [List.take_left, List.drop_left, ha, if_true]
          rw [decodeLoop_encode hb n (by omega)]
          rfl

/-- Decoding gives back what was encoded. -/
theorem decode_encode {t : Text} {s : Str} (h : t.encode = some s) : decode s = some t := decodeLoop_encode h _ (Nat.le_refl _)

theorem encode_decodeLoop : ∀ (n : Nat) {s : Str} {t : Text}, decodeLoop n s = some t → t.encode = some s
  | 0, [], t, h => by cases h; rfl
  | 0, _ :: _, t, h => by cases h
  | n + 1, [], t, h => by cases h; rfl
  | n + 1, a :: s, t, h => by
    simp only [decodeLoop] at h
    split_ifs at h with hc
    rw [Option.map_eq_some_iff] at h
    obtain ⟨t', h', rfl⟩ := h
    simp only [Text.encode, hc, encode_decodeLoop n h', List.take_append_drop]

/-- Encoding gives back what was decoded. -/
theorem encode_decode {s : Str} {t : Text} (h : decode s = some t) : t.encode = some s := encode_decodeLoop _ h

theorem encode_isSome : ∀ {t : Text}, (∃ s, t.encode = some s) ↔ Encodable t
  | [] => ⟨fun _ _ h => (List.not_mem_nil h).elim, fun _ => ⟨[], rfl⟩⟩
  | c :: t => by
    have ih := @encode_isSome t
    have hc := @utf8_valid c
    unfold Encodable at ih ⊢
    simp only [List.forall_mem_cons, Text.encode]
    rw [← ih, ← hc]
    cases utf8 c <;> cases Text.encode t <;> simp

theorem utf8_nul {c : Nat} {s : Str} (h : utf8 c = some s) : 0 ∈ s ↔ c = 0 := by
  have key : ∀ n : Nat, n < 256 → ((0 : UInt8) = .ofNat n ↔ n = 0) := fun n hn =>
    ⟨fun e => by rw [← toNat_ofNat hn, ← e]; rfl, fun e => by rw [e]; rfl⟩
  unfold utf8 at h
  split_ifs at h <;> cases h <;> simp only [List.mem_cons, List.not_mem_nil, or_false]
  · rw [key _ (by omega)]
  · rw [key _ (by omega), key _ (by omega)]; omega
  · rw [key _ (by omega), key _ (by omega), key _ (by omega)]; omega
  · rw [key _ (by omega), key _ (by omega), key _ (by omega), key _ (by omega)]; omega

theorem encode_nul : ∀ {t : Text} {s : Str}, t.encode = some s → (0 ∈ s ↔ 0 ∈ t)
  | [], s, h => by cases h; simp
  | c :: t, s, h => by
    simp only [Text.encode] at h
    cases ha : utf8 c with
    | none => rw [ha] at h; cases h
    | some a =>
      cases hb : Text.encode t with
      | none => rw [ha, hb] at h; cases h
      | some b =>
        rw [ha, hb] at h
        cases h
        rw [List.mem_append, utf8_nul ha, encode_nul hb, List.mem_cons]
        exact or_congr ⟨Eq.symm, Eq.symm⟩ Iff.rfl

theorem noNul_iff {s : Str} : NoNul s ↔ 0 ∉ s := by
  constructor
  · intro h h0; exact h 0 h0 rfl
  · intro h c hc e; exact h (e ▸ hc)

/-- A text that C can take arrives there completely. -/
theorem toC_ctext {t : Text} (h : CText t) : ∃ s, t.encode = some s ∧ toC t = .ok s ∧ NoNul s := by
  obtain ⟨s, hs⟩ := encode_isSome.2 h.1
  have hn : NoNul s := by rw [noNul_iff, encode_nul hs]; exact h.2
  refine ⟨s, hs, ?_, hn⟩
  simp only [toC, hs, cstr_of_noNul hn]

theorem ctext_of_decode {s : Str} {t : Text} (hn : NoNul s) (h : decode s = some t) : CText t := by
  have he := encode_decode h
  exact ⟨encode_isSome.1 ⟨s, he⟩, by rw [← encode_nul he, ← noNul_iff]; exact hn⟩

/-! ## Properties -/

theorem mem_setdefault {d : Dict} {k v : Text} (h : ∀ w, (k, w) ∉ d) : d.setdefault k v = d ++ [(k, v)] := by
  unfold Dict.setdefault
  rw [if_neg]
  rw [List.any_eq_true]
  rintro ⟨⟨k', w⟩, hm, he⟩
  simp only [decide_eq_true_eq] at he
  subst he
  exact h w hm

/-- What `dict` collects from a list with every key once. -/
theorem foldl_dict : ∀ (l : List (Str × Str)) (d : Dict), (l.map Prod.fst).Nodup → (d.map Prod.fst).Nodup →
    (∀ e ∈ l, ∀ k w, decode e.1 = some k → (k, w) ∉ d) →
    ((l.foldl dictEntry d).map Prod.fst).Nodup ∧
    ∀ k v, (k, v) ∈ l.foldl dictEntry d ↔
      (k, v) ∈ d ∨ ∃ e ∈ l, decode e.1 = some k ∧ decode e.2 = some v
  | [], d, _, hd, _ => ⟨hd, fun k v => by simp⟩
  | (a, b) :: l, d, hl, hd, hn => by
    simp only [List.map_cons, List.nodup_cons] at hl
    simp only [List.foldl_cons]
    cases ha : decode a with
    | none =>
      rw [show dictEntry d (a, b) = d by simp only [dictEntry, ha]]
      obtain ⟨h1, h2⟩ := foldl_dict l d hl.2 hd (fun e he => hn e (List.mem_cons_of_mem _ he))
      refine ⟨h1, fun k v => ?_⟩
      rw [h2]
      simp [ha]
    | some x =>
      cases hb : decode b with
      | none =>
        rw [show dictEntry d (a, b) = d by simp only [dictEntry, ha, hb]]
        obtain ⟨h1, h2⟩ := foldl_dict l d hl.2 hd (fun e he => hn e (List.mem_cons_of_mem _ he))
        refine ⟨h1, fun k v => ?_⟩
        rw [h2]
        simp [hb]
      | some y =>
        rw [show dictEntry d (a, b) = d.setdefault x y by simp only [dictEntry, ha, hb]]
        have hx : ∀ w, (x, w) ∉ d := fun w => hn (a, b) List.mem_cons_self x w ha
        rw [mem_setdefault hx]
        have hd' : ((d ++ [(x, y)]).map Prod.fst).Nodup := by
          rw [List.map_append, List.nodup_append]
          refine ⟨hd, by simp, ?_⟩
          intro k hk k' hk' e
          simp only [List.map_cons, List.map_nil, List.mem_singleton] at hk'
          subst e hk'
          obtain ⟨⟨k', w⟩, hm, rfl⟩ := List.mem_map.1 hk
          exact hx w hm
        obtain ⟨h1, h2⟩ := foldl_dict l (d ++ [(x, y)]) hl.2 hd' (by
          intro e he k w hk hm
          rcases List.mem_append.1 hm with hm | hm
          · exact hn e (List.mem_cons_of_mem _ he) k w hk hm
          · simp only [List.mem_singleton, Prod.mk.injEq] at hm
            obtain ⟨rfl, rfl⟩ := hm
            have : e.1 = a := by
              have h1 := encode_decode hk
              have h2 := encode_decode ha
              rw [h1] at h2
              exact Option.some.inj h2
            exact hl.1 (List.mem_map.2 ⟨e, he, this⟩))
        refine ⟨h1, fun k v => ?_⟩
        rw [h2]
        simp only [List.mem_append, List.mem_cons, List.not_mem_nil, or_false, exists_eq_or_imp, ha, hb, Prod.mk.injEq, Option.some.injEq]
        constructor
        · rintro ((h | ⟨rfl, rfl⟩) | h)
          · exact .inl h
          · exact .inr (.inl ⟨rfl, rfl⟩)
          · exact .inr (.inr h)
        · rintro (h | ⟨rfl, rfl⟩ | h)
          · exact .inl (.inl h)
          · exact .inl (.inr ⟨rfl, rfl⟩)
          · exact .inr h

/-- The dictionary of any C properties: their entries that are texts. -/
theorem propDict_spec {p : Properties} {a : Trax.Spec.AMap} (h : PropRep p a) :
    ((propDict p).map Prod.fst).Nodup ∧
    ∀ k v, (k, v) ∈ propDict p ↔ ∃ x y, NoNul x ∧ a x = some y ∧ decode x = some k ∧ decode y = some v := by
  obtain ⟨h1, h2⟩ := foldl_dict p.enumerate [] (StrMap.enum_keys_nodup h.1) (by simp) (by simp)
  refine ⟨h1, fun k v => ?_⟩
  unfold propDict
  rw [h2]
  simp only [List.not_mem_nil, false_or]
  constructor
  · rintro ⟨⟨x, y⟩, hm, hx, hy⟩
    rw [Properties.mem_enumerate h.1] at hm
    exact ⟨x, y, hm.1, by rw [← h.2 x hm.1]; exact hm.2, hx, hy⟩
  · rintro ⟨x, y, hn, hxy, hx, hy⟩
    exact ⟨(x, y), by rw [Properties.mem_enumerate h.1]; exact ⟨hn, by rw [h.2 x hn]; exact hxy⟩, hx, hy⟩

/-- A C property object that holds texts: what it says for every key. -/
structure Holds (p : Properties) (m : TMap) : Prop where
  rep : ∃ a, PropRep p a ∧ (∀ k s, CText k → k.encode = some s → a s = (m k).bind Text.encode) ∧ (∀ s, NoNul s → a s ≠ none → ∃ k : Text, k.encode = some s)
  texts : ∀ k v, m k = some v → CText k ∧ CText v

theorem Holds.get {p : Properties} {m : TMap} (h : Holds p m) {k : Text} (hk : CText k) (dflt : Option Text) :
    propGet p k dflt = .ok ((m k).or dflt) := by
  obtain ⟨⟨a, ha, hm, -⟩, ht⟩ := h
  obtain ⟨s, hs, hc, hn⟩ := toC_ctext hk
  simp only [propGet, hc, Except.bind]
  rw [ha.2 s hn, hm k s hk hs]
  cases hv : m k with
  | none => rfl
  | some v =>
    obtain ⟨y, hy, -, -⟩ := toC_ctext (ht k v hv).2
    simp only [Option.bind_some, hy, fromC, decode_encode hy, Except.bind, Option.some_or]

theorem Holds.dict {p : Properties} {m : TMap} (h : Holds p m) :
    ((propDict p).map Prod.fst).Nodup ∧ ∀ k v, (k, v) ∈ propDict p ↔ m k = some v := by
  obtain ⟨⟨a, ha, hm, hk⟩, ht⟩ := h
  obtain ⟨h1, h2⟩ := propDict_spec ha
  refine ⟨h1, fun k v => ?_⟩
  rw [h2]
  constructor
  · rintro ⟨x, y, hn, hxy, hx, hy⟩
    rw [hm k x (ctext_of_decode hn hx) (encode_decode hx)] at hxy
    cases hv : m k with
    | none => rw [hv] at hxy; cases hxy
    | some w =>
      rw [hv] at hxy
      have hxy : w.encode = some y := hxy
      have := decode_encode hxy
      rw [hy] at this
      exact this.symm
  · intro hv
    obtain ⟨hk, hv'⟩ := ht k v hv
    obtain ⟨x, hx, -, hn⟩ := toC_ctext hk
    obtain ⟨y, hy, -, -⟩ := toC_ctext hv'
    refine ⟨x, y, hn, ?_, decode_encode hx, decode_encode hy⟩
    rw [hm k x hk hx, hv]
    exact hy

theorem Holds.create : Holds Properties.create (fun _ => none) :=
  ⟨⟨_, PropRep.create, fun _ _ _ _ => rfl, fun _ _ h => absurd rfl h⟩, fun _ _ h => by cases h⟩

theorem Holds.set {p : Properties} {m : TMap} (h : Holds p m) {k v : Text} (hk : CText k) (hv : CText v) :
    ∃ p', propSet p k v = .ok p' ∧ Holds p' (fun k' => if k' = k then some v else m k') := by
  obtain ⟨⟨a, ha, hm, hkeys⟩, ht⟩ := h
  obtain ⟨x, hx, hcx, hnx⟩ := toC_ctext hk
  obtain ⟨y, hy, hcy, hny⟩ := toC_ctext hv
  refine ⟨p.set x y, by simp only [propSet, hcx, hcy, Except.bind], ⟨a.set x y, ?_, ?_, ?_⟩, ?_⟩
  · refine ⟨Properties.wf_set ha.1 x y, fun k' hk' => ?_⟩
    rw [Properties.get_set ha.1 x y k', cstr_of_noNul hnx, cstr_of_noNul hny, cstr_of_noNul hk', Trax.Spec.AMap.set]
    by_cases e : k' = x
    · rw [if_pos e, if_pos e.symm]
    · rw [if_neg e, if_neg (fun h => e h.symm)]
      exact ha.2 k' hk'
  · intro k' s hk' hs
    simp only [Trax.Spec.AMap.set]
    by_cases e : k' = k
    · subst e
      rw [hx] at hs
      cases hs
      simp [hy]
    · have : s ≠ x := by
        intro e'
        subst e'
        have h1 := decode_encode hs
        have h2 := decode_encode hx
        rw [h1] at h2
        exact e (Option.some.inj h2)
      rw [if_neg this, if_neg e]
      exact hm k' s hk' hs
  · intro s hs h
    simp only [Trax.Spec.AMap.set] at h
    split_ifs at h with e
    · exact ⟨k, by rw [e]; exact hx⟩
    · exact hkeys s hs h
  · intro k' v' h
    split_ifs at h with e
    · cases h; exact ⟨e ▸ hk, hv⟩
    · exact ht k' v' h

theorem Holds.setAll : ∀ (d : Dict) {p : Properties} {m : TMap}, Holds p m → GoodDict d →
    ∃ p', propSetAll p d = .ok p' ∧ Holds p' (fun k => (lookup d k).or (m k))
  | [], p, m, h, _ => ⟨p, rfl, h⟩
  | (k, v) :: d, p, m, h, hd => by
    obtain ⟨hn, ht⟩ := hd
    simp only [List.map_cons, List.nodup_cons] at hn
    obtain ⟨p₁, e₁, h₁⟩ := h.set (ht (k, v) List.mem_cons_self).1 (ht (k, v) List.mem_cons_self).2
    obtain ⟨p₂, e₂, h₂⟩ := Holds.setAll d h₁ ⟨hn.2, fun e he => ht e (List.mem_cons_of_mem _ he)⟩
    refine ⟨p₂, by simp only [propSetAll, e₁, Except.bind, e₂], ?_⟩
    have : (fun k' => (lookup d k').or (if k' = k then some v else m k')) = fun k' => (lookup ((k, v) :: d) k').or (m k') := by
      funext k'
      by_cases e : k' = k
      · subst e
        have : lookup d k' = none := by
          unfold lookup
          rw [Option.map_eq_none_iff, List.find?_eq_none]
          intro e he h'
          simp only [decide_eq_true_eq] at h'
          exact hn.1 (List.mem_map.2 ⟨e, he, h'⟩)
        rw [this]
        simp [lookup]
      · simp only [lookup, List.find?_cons, if_neg e]
        rw [show decide (k = k') = false from decide_eq_false (fun h => e h.symm)]
    rw [this] at h₂
    exact h₂

theorem lookup_mem {d : Dict} (hn : (d.map Prod.fst).Nodup) (k v : Text) : lookup d k = some v ↔ (k, v) ∈ d := by
  induction d with
  | nil => simp [lookup]
  | cons e d ih =>
    obtain ⟨x, y⟩ := e
    simp only [List.map_cons, List.nodup_cons] at hn
    simp only [lookup, List.find?_cons, List.mem_cons, Prod.mk.injEq]
    by_cases h : x = k
    · subst h
      simp only [decide_true, Option.map_some, Option.some.injEq]
      constructor
      · rintro rfl; exact .inl ⟨trivial, rfl⟩
      · rintro (⟨-, rfl⟩ | hm)
        · rfl
        · exact absurd (List.mem_map.2 ⟨_, hm, rfl⟩) hn.1
    · rw [decide_eq_false h]
      have := ih hn.2
      simp only [lookup] at this
      rw [this]
      constructor
      · exact .inr
      · rintro (⟨rfl, -⟩ | h')
        · exact absurd rfl h
        · exact h'

theorem Holds.copy {p q : Properties} {m n : TMap} (hp : Holds p m) (hq : Holds q n) :
    ∃ p', propCopy p q = .ok p' ∧ Holds p' (fun k => (n k).or (m k)) := by
  obtain ⟨h1, h2⟩ := hq.dict
  obtain ⟨p', e, h⟩ := Holds.setAll (propDict q) hp ⟨h1, fun e he => hq.texts e.1 e.2 ((h2 e.1 e.2).1 he)⟩
  refine ⟨p', e, ?_⟩
  have : lookup (propDict q) = n := by
    funext k
    refine Option.ext fun v => ?_
    rw [lookup_mem h1, h2]
  rw [this] at h
  exact h

/-- The objects of a program and what they should hold. -/
def Store (s : List Properties) (t : List TMap) : Prop := List.Forall₂ Holds s t

theorem forall₂_get {s : List Properties} {t : List TMap} (h : Store s t) {i : Nat} (hi : i < s.length) :
    ∃ p m, s[i]? = some p ∧ t[i]? = some m ∧ Holds p m := by
  have hl := h.length_eq
  refine ⟨s[i], t[i]'(hl ▸ hi), List.getElem?_eq_getElem hi, List.getElem?_eq_getElem _, ?_⟩
  exact List.forall₂_iff_get.1 h |>.2 i hi (hl ▸ hi)

theorem forall₂_set {s : List Properties} {t : List TMap} (h : Store s t) {i : Nat} {p : Properties} {f : TMap → TMap}
    (hp : ∀ m, t[i]? = some m → Holds p (f m)) : Store (s.set i p) (t.modify i f) := by
  have hl := h.length_eq
  refine List.forall₂_iff_get.2 ⟨by simp [hl], fun j h1 h2 => ?_⟩
  simp only [List.get_eq_getElem, List.getElem_set, List.getElem_modify]
  simp only [List.length_set] at h1
  split_ifs with e
  · subst e
    exact hp _ (List.getElem?_eq_getElem (hl ▸ h1))
  · exact List.forall₂_iff_get.1 h |>.2 j h1 (hl ▸ h1)

theorem Store.run : ∀ (cs : List PropCall) {s : List Properties} {t : List TMap}, Store s t → GoodCalls s.length cs →
    ∃ s', runPropCalls cs s = .ok s' ∧ Store s' (cs.foldl Spec.apply t)
  | [], s, t, h, _ => ⟨s, rfl, h⟩
  | c :: cs, s, t, h, hg => by
    obtain ⟨hc, hcs⟩ := hg
    have hl := h.length_eq
    have step : ∃ s', c.run s = .ok s' ∧ Store s' (Spec.apply t c) ∧ s'.length = (match c with | .new _ => s.length + 1 | _ => s.length) := by
      cases c with
      | new d =>
        obtain ⟨p, e, hp⟩ := Holds.setAll d Holds.create hc
        refine ⟨s ++ [p], by simp only [PropCall.run, propNew, e, Except.map], ?_, by simp⟩
        refine List.rel_append h (.cons ?_ .nil)
        simpa using hp
      | set i k v =>
        obtain ⟨hi, hk, hv⟩ := hc
        obtain ⟨p, m, hs, ht, hp⟩ := forall₂_get h hi
        obtain ⟨p', e, hp'⟩ := hp.set hk hv
        refine ⟨s.set i p', by simp only [PropCall.run, hs, e, Except.map], ?_, by simp⟩
        refine forall₂_set h fun m' hm' => ?_
        rw [ht] at hm'
        cases hm'
        exact hp'
      | copy i j =>
        obtain ⟨hi, hj⟩ := hc
        obtain ⟨p, m, hs, ht, hp⟩ := forall₂_get h hi
        obtain ⟨q, n, hs', ht', hq⟩ := forall₂_get h hj
        obtain ⟨p', e, hp'⟩ := hp.copy hq
        refine ⟨s.set i p', by simp only [PropCall.run, hs, hs', e, Except.map], ?_, by simp⟩
        simp only [Spec.apply, ht']
        refine forall₂_set h fun m' hm' => ?_
        rw [ht] at hm'
        cases hm'
        exact hp'
    obtain ⟨s', e, h', hlen⟩ := step
    have hcs : GoodCalls s'.length cs := by
      rw [hlen]
      cases c <;> exact hcs
    obtain ⟨s'', e', h''⟩ := Store.run cs h' hcs
    exact ⟨s'', by simp only [runPropCalls, e, Except.bind, e'], h''⟩

end Trax.Py
