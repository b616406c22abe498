import Verif.Lemmas.StrMap
import Verif.Model.PropertyOps

/-! Refinement of property objects to abstract maps. -/

namespace Trax
open Spec

/-! ### The refinement -/

/-- `p` represents the abstract map `a`. -/
def PropRep (p : Properties) (a : AMap) : Prop := p.WF ∧ ∀ k, NoNul k → p.get k = a k

theorem PropRep.foldl_set {p : Properties} {a : AMap} (h : PropRep p a) (l : List (Str × Str))
    (hl : (l.map Prod.fst).Nodup) (hc : ∀ kv ∈ l, NoNul kv.1 ∧ NoNul kv.2) (s : AMap)
    (hs : ∀ k v, NoNul k → ((k, v) ∈ l ↔ s k = some v)) :
    PropRep (l.foldl Properties.copyOverwrite p) (AMap.override s a) := by
  induction l generalizing p a s with
  | nil =>
    refine ⟨h.1, fun k hk => ?_⟩
    have : s k = none := by
      cases hsk : s k with
      | none => rfl
      | some v => exact absurd ((hs k v hk).mpr hsk) (by simp)
    simp [AMap.override, this, h.2 k hk]
  | cons kv t ih =>
    obtain ⟨k0, v0⟩ := kv
    simp only [List.map_cons, List.nodup_cons] at hl
    obtain ⟨hk0, hv0⟩ := hc (k0, v0) (by simp)
    have hstep : PropRep (Properties.copyOverwrite p (k0, v0)) (a.set k0 v0) := by
      refine ⟨Properties.wf_set h.1 _ _, fun k hk => ?_⟩
      simp only [Properties.copyOverwrite, Properties.get_set h.1, AMap.set,
        cstr_of_noNul hk0, cstr_of_noNul hk, cstr_of_noNul hv0, h.2 k hk]
      by_cases hkk : k0 = k
      · simp [hkk]
      · rw [if_neg hkk, if_neg (fun e => hkk e.symm)]
    have hsk0 : s k0 = some v0 := (hs k0 v0 hk0).mp (by simp)
    have := ih hstep hl.2 (fun kv hkv => hc kv (by simp [hkv]))
      (fun k => if k = k0 then none else s k) (by
        intro k v hk
        constructor
        · intro hmem
          have hne : k ≠ k0 := by
            rintro rfl
            exact hl.1 (List.mem_map_of_mem (f := Prod.fst) hmem)
          simp only [if_neg hne]
          exact (hs k v hk).mp (by simp [hmem])
        · intro hsome
          by_cases hkk : k = k0
          · simp [hkk] at hsome
          · rw [if_neg hkk] at hsome
            have := (hs k v hk).mpr hsome
            rcases List.mem_cons.mp this with h1 | h1
            · exact absurd (Prod.mk.inj h1).1 hkk
            · exact h1)
    refine ⟨this.1, fun k hk => ?_⟩
    rw [List.foldl_cons, this.2 k hk]
    simp only [AMap.override, AMap.set]
    by_cases hkk : k = k0
    · subst hkk; simp [hsk0]
    · simp [hkk]

theorem PropRep.append {p d : Properties} {a b : AMap} (hp : PropRep p a) (hd : PropRep d b)
    (overwrite : Bool) : PropRep (Properties.append p d overwrite) (AMap.override a b) := by
  have hfun : Properties.append p d overwrite =
      p.enumerate.foldl Properties.copyOverwrite d := by
    cases overwrite <;> simp [Properties.append, Properties.copyProperties]
  rw [hfun]
  apply PropRep.foldl_set hd
  · exact StrMap.enum_keys_nodup hp.1
  · intro kv hkv
    obtain ⟨b, hb, hkv⟩ := List.mem_flatten.mp hkv
    exact hp.1.noNul b hb kv hkv
  · intro k v hk
    have := Properties.mem_enumerate hp.1 k v
    rw [this, hp.2 k hk]
    exact ⟨And.right, fun h => ⟨hk, h⟩⟩

theorem PropRep.copy {p : Properties} {a : AMap} (hp : PropRep p a) : p.copy = p := by
  have : p.copy = p.enumerate.foldl (fun m kv => m.set kv.1 kv.2) Properties.create := by
    simp only [Properties.copy, Properties.copyProperties]
    rfl
  rw [this]
  exact Properties.foldl_set_enumerate hp.1

theorem getElem?_modify_ne {α} (l : List α) (i j : Nat) (f : α → α) (h : i ≠ j) :
    (l.modify i f)[j]? = l[j]? := by
  rw [List.getElem?_modify]
  simp [h]

/-- Stores agree object by object. -/
def StoreRep (s : List Properties) (t : List AMap) : Prop :=
  s.length = t.length ∧ ∀ (i : Nat) p a, s[i]? = some p → t[i]? = some a → PropRep p a

theorem StoreRep.snoc {s t} (h : StoreRep s t) {p a} (hp : PropRep p a) :
    StoreRep (s ++ [p]) (t ++ [a]) := by
  refine ⟨by simp [h.1], fun i p' a' h1 h2 => ?_⟩
  rw [List.getElem?_append] at h1 h2
  rw [← h.1] at h2
  split at h1
  · next hi => rw [if_pos hi] at h2; exact h.2 i p' a' h1 h2
  · next hi =>
    rw [if_neg hi] at h2
    rw [List.getElem?_singleton] at h1 h2
    split at h1
    · next h0 =>
      rw [if_pos h0] at h2
      simp only [Option.some.injEq] at h1 h2
      subst h1; subst h2; exact hp
    · exact absurd h1 (by simp)

theorem StoreRep.modify {s t} (h : StoreRep s t) (i : Nat) (f : Properties → Properties)
    (g : AMap → AMap) (hfg : ∀ p a, PropRep p a → PropRep (f p) (g a)) :
    StoreRep (s.modify i f) (t.modify i g) := by
  refine ⟨by simp [h.1], fun j p' a' h1 h2 => ?_⟩
  rw [List.getElem?_modify] at h1 h2
  cases hs : s[j]? with
  | none => rw [hs] at h1; exact absurd h1 (by simp)
  | some p0 =>
    cases ht : t[j]? with
    | none => rw [ht] at h2; exact absurd h2 (by simp)
    | some a0 =>
      rw [hs] at h1; rw [ht] at h2
      have h0 := h.2 j p0 a0 hs ht
      simp only [Functor.map, Option.map_some, Option.some.injEq] at h1 h2
      subst h1; subst h2
      split
      · exact hfg _ _ h0
      · exact h0

theorem PropRep.create : PropRep Properties.create AMap.empty :=
  ⟨Properties.wf_create, fun k _ => Properties.get_create k⟩

theorem storeRep_run (ops : List Spec.PropOp) (hc : ∀ op ∈ ops, op.CStrings)
    {s : List Properties} {t : List AMap} (h : StoreRep s t) :
    StoreRep (ops.foldl PropOp.run s) (ops.foldl Spec.PropOp.apply t) := by
  induction ops generalizing s t with
  | nil => exact h
  | cons op ops ih =>
    rw [List.foldl_cons, List.foldl_cons]
    apply ih (fun o ho => hc o (by simp [ho]))
    have hop := hc op (by simp)
    cases op with
    | create => exact h.snoc PropRep.create
    | set i k v =>
      apply h.modify
      intro p a hp
      refine ⟨Properties.wf_set hp.1 _ _, fun k' hk' => ?_⟩
      have hk : NoNul k := hop.1
      have hv : NoNul v := hop.2
      rw [Properties.get_set hp.1, cstr_of_noNul hk, cstr_of_noNul hk', cstr_of_noNul hv, hp.2 k' hk']
      simp only [AMap.set]
      by_cases hkk : k = k'
      · simp [hkk]
      · rw [if_neg hkk, if_neg (fun e => hkk e.symm)]
    | clear i =>
      apply h.modify
      intro p a _
      exact PropRep.create
    | copy i =>
      simp only [PropOp.run, Spec.PropOp.apply]
      cases hs : s[i]? with
      | none =>
        have : t[i]? = none := by
          rw [List.getElem?_eq_none_iff] at hs ⊢; rw [← h.1]; exact hs
        rw [this]; exact h
      | some p =>
        have hi : i < t.length := by
          rw [← h.1]; exact (List.getElem?_eq_some_iff.mp hs).1
        rw [List.getElem?_eq_getElem hi]
        have hp := h.2 i p _ hs (List.getElem?_eq_getElem hi)
        simp only
        rw [hp.copy]
        exact h.snoc hp
    | append i j =>
      simp only [PropOp.run, Spec.PropOp.apply]
      cases hs : s[i]? with
      | none =>
        have : t[i]? = none := by
          rw [List.getElem?_eq_none_iff] at hs ⊢; rw [← h.1]; exact hs
        rw [this]; exact h
      | some p =>
        have hi : i < t.length := by
          rw [← h.1]; exact (List.getElem?_eq_some_iff.mp hs).1
        rw [List.getElem?_eq_getElem hi]
        have hp := h.2 i p _ hs (List.getElem?_eq_getElem hi)
        apply h.modify
        intro d b hd
        exact hp.append hd true

theorem storeRep (ops : List Spec.PropOp) (hc : ∀ op ∈ ops, op.CStrings) :
    StoreRep (runPropOps ops) (runProps ops) :=
  storeRep_run ops hc ⟨rfl, by intro i p a h; simp at h⟩

end Trax
