import Verif.Spec.ObjectLists
import Verif.Lemmas.Properties
import Verif.Lemmas.RegionApi
import Mathlib.Logic.Function.Basic

/-!
# Lemmas for object lists: ownership of heap blocks
-/

namespace Trax
open Spec

/-- Every location that has a value points to a live block of its own with that value, and every live
block belongs to a location. -/
structure Owns {Loc V W : Type} (R : V → W → Prop) (ptr : Loc → Option Nat) (heap : List (Option V)) (val : Loc → Option W) : Prop where
  none_iff : ∀ loc, ptr loc = none ↔ val loc = none
  sync : ∀ loc p w, ptr loc = some p → val loc = some w → ∃ v, heap[p]? = some (some v) ∧ R v w
  inj : ∀ loc loc' p, ptr loc = some p → ptr loc' = some p → loc = loc'
  live : ∀ p v, heap[p]? = some (some v) → ∃ loc, ptr loc = some p

namespace Owns
variable {Loc V W : Type} {R : V → W → Prop} {ptr : Loc → Option Nat} {heap : List (Option V)} {val : Loc → Option W}

theorem congr (h : Owns R ptr heap val) {ptr' val'} (hp : ptr' = ptr) (hv : val' = val) : Owns R ptr' heap val' := by
  subst hp hv; exact h

theorem at_some (h : Owns R ptr heap val) {loc : Loc} {p : Nat} (hp : ptr loc = some p) :
    ∃ v w, heap[p]? = some (some v) ∧ val loc = some w ∧ R v w := by
  cases hv : val loc with
  | none => rw [(h.none_iff loc).mpr hv] at hp; cases hp
  | some w => obtain ⟨v, h1, h2⟩ := h.sync loc p w hp hv; exact ⟨v, w, h1, rfl, h2⟩

theorem at_val (h : Owns R ptr heap val) {loc : Loc} {w : W} (hv : val loc = some w) :
    ∃ p v, ptr loc = some p ∧ heap[p]? = some (some v) ∧ R v w := by
  cases hp : ptr loc with
  | none => rw [(h.none_iff loc).mp hp] at hv; cases hv
  | some p => obtain ⟨v, h1, h2⟩ := h.sync loc p w hp hv; exact ⟨p, v, rfl, h1, h2⟩

theorem lt (h : Owns R ptr heap val) {loc : Loc} {p : Nat} (hp : ptr loc = some p) : p < heap.length := by
  obtain ⟨v, w, h1, -, -⟩ := h.at_some hp
  exact (List.getElem?_eq_some_iff.mp h1).1

variable [DecidableEq Loc]

/-- A new block for a location that had none. -/
theorem alloc (h : Owns R ptr heap val) (loc₀ : Loc) (hn : ptr loc₀ = none) {v : V} {w : W} (hr : R v w) :
    Owns R (Function.update ptr loc₀ (some heap.length)) (heap ++ [some v]) (Function.update val loc₀ (some w)) := by
  refine ⟨?_, ?_, ?_, ?_⟩
  · intro loc
    by_cases hl : loc = loc₀
    · subst hl; simp
    · simp [Function.update_of_ne hl, h.none_iff loc]
  · intro loc p w' hp hv
    by_cases hl : loc = loc₀
    · subst hl
      rw [Function.update_self] at hp hv
      cases hp; cases hv
      exact ⟨v, by simp, hr⟩
    · rw [Function.update_of_ne hl] at hp hv
      obtain ⟨v', h1, h2⟩ := h.sync loc p w' hp hv
      exact ⟨v', by rw [List.getElem?_append_left (h.lt hp)]; exact h1, h2⟩
  · intro loc loc' p hp hp'
    by_cases hl : loc = loc₀ <;> by_cases hl' : loc' = loc₀
    · rw [hl, hl']
    · rw [hl, Function.update_self] at hp
      rw [Function.update_of_ne hl'] at hp'
      cases hp; exact absurd (h.lt hp') (by omega)
    · rw [hl', Function.update_self] at hp'
      rw [Function.update_of_ne hl] at hp
      cases hp'; exact absurd (h.lt hp) (by omega)
    · rw [Function.update_of_ne hl] at hp
      rw [Function.update_of_ne hl'] at hp'
      exact h.inj loc loc' p hp hp'
  · intro p v' hv
    by_cases hlt : p < heap.length
    · rw [List.getElem?_append_left hlt] at hv
      obtain ⟨loc, hl⟩ := h.live p v' hv
      refine ⟨loc, ?_⟩
      rw [Function.update_of_ne]
      · exact hl
      · rintro rfl; rw [hn] at hl; cases hl
    · have : p = heap.length := by
        have := (List.getElem?_eq_some_iff.mp hv).1
        simp at this; omega
      subst this
      exact ⟨loc₀, by simp⟩

/-- Writing through the pointer of a location. -/
theorem write (h : Owns R ptr heap val) (loc₀ : Loc) {p : Nat} (hp : ptr loc₀ = some p) {v : V} {w : W} (hr : R v w) :
    Owns R ptr (heap.set p (some v)) (Function.update val loc₀ (some w)) := by
  have hlt := h.lt hp
  refine ⟨?_, ?_, h.inj, ?_⟩
  · intro loc
    by_cases hl : loc = loc₀
    · subst hl; simp [hp]
    · simp [Function.update_of_ne hl, h.none_iff loc]
  · intro loc q w' hq hv
    by_cases hl : loc = loc₀
    · subst hl
      rw [hp] at hq; cases hq
      rw [Function.update_self] at hv; cases hv
      exact ⟨v, by rw [List.getElem?_set_self hlt], hr⟩
    · rw [Function.update_of_ne hl] at hv
      have hne : p ≠ q := by rintro rfl; exact hl (h.inj _ _ _ hq hp)
      rw [List.getElem?_set_ne hne]
      exact h.sync loc q w' hq hv
  · intro q v' hv
    by_cases hq : p = q
    · subst hq; exact ⟨loc₀, hp⟩
    · rw [List.getElem?_set_ne hq] at hv
      exact h.live q v' hv

/-- Releasing the block of a location. -/
theorem free (h : Owns R ptr heap val) (loc₀ : Loc) {p : Nat} (hp : ptr loc₀ = some p) :
    Owns R (Function.update ptr loc₀ none) (heap.set p none) (Function.update val loc₀ none) := by
  have hlt := h.lt hp
  refine ⟨?_, ?_, ?_, ?_⟩
  · intro loc
    by_cases hl : loc = loc₀
    · subst hl; simp
    · simp [Function.update_of_ne hl, h.none_iff loc]
  · intro loc q w' hq hv
    by_cases hl : loc = loc₀
    · subst hl; simp at hq
    · rw [Function.update_of_ne hl] at hv hq
      have hne : p ≠ q := by rintro rfl; exact hl (h.inj _ _ _ hq hp)
      rw [List.getElem?_set_ne hne]
      exact h.sync loc q w' hq hv
  · intro loc loc' q hq hq'
    by_cases hl : loc = loc₀
    · subst hl; simp at hq
    · by_cases hl' : loc' = loc₀
      · subst hl'; simp at hq'
      · rw [Function.update_of_ne hl] at hq
        rw [Function.update_of_ne hl'] at hq'
        exact h.inj loc loc' q hq hq'
  · intro q v' hv
    by_cases hq : p = q
    · subst hq; rw [List.getElem?_set_self hlt] at hv; cases hv
    · rw [List.getElem?_set_ne hq] at hv
      obtain ⟨loc, hl⟩ := h.live q v' hv
      refine ⟨loc, ?_⟩
      rw [Function.update_of_ne]
      · exact hl
      · rintro rfl; rw [hp] at hl; cases hl; exact hq rfl

end Owns

/-! ## Locations of a program -/

/-- Where a region pointer is kept. -/
inductive Loc where
  | var (v : Nat)
  | slot (l i : Nat)
deriving DecidableEq

/-- The region pointers. -/
def ptrOf (vars : List (Option Nat)) (lists : List (Option ObjArr)) : Loc → Option Nat
  | .var v => vars[v]?.join
  | .slot l i => (lists[l]?.join).bind fun a => a.regions[i]?.join

/-- The regions of the specification. -/
def valOf (t : AStore) : Loc → Option Region
  | .var v => t.vars[v]?.join
  | .slot l i => (t.lists[l]?.join).bind fun a => a[i]?.map Prod.fst

/-- The pointers to properties. -/
def pptrOf (lists : List (Option ObjArr)) (x : Nat × Nat) : Option Nat :=
  (lists[x.1]?.join).bind fun a => a.props[x.2]?

/-- The properties of the specification. -/
def pvalOf (t : AStore) (x : Nat × Nat) : Option AMap :=
  (t.lists[x.1]?.join).bind fun a => a[x.2]?.map Prod.snd

/-- A list of the program has as many elements as that of the specification. -/
def SameShape : Option (Option ObjArr) → Option (Option (List (Region × AMap))) → Prop
  | none, none => True
  | some none, some none => True
  | some (some a), some (some b) => a.regions.length = b.length ∧ a.props.length = b.length
  | _, _ => False

/-- The relation between the program and its specification. -/
structure StoreRel (s : ObjStore) (t : AStore) : Prop where
  vars : s.vars.length = t.vars.length
  shape : ∀ l : Nat, SameShape s.lists[l]? t.lists[l]?
  regions : Owns (fun v w => v = w) (ptrOf s.vars s.lists) s.heap.regions (valOf t)
  props : Owns PropRep (pptrOf s.lists) s.heap.props (pvalOf t)
  wf : ∀ loc r, valOf t loc = some r → WellFormed r


theorem onSlot_none {t : AStore} {l : Nat} {i : Int} (h : t.slot l i = none) (f : Region × AMap → Region × AMap) :
    t.onSlot l i f = t := by
  unfold AStore.onSlot
  split
  · rfl
  · next hi =>
    unfold AStore.slot at h
    rw [if_neg hi] at h
    unfold AStore.onList
    have : t.lists.modify l (Option.map fun a => a.modify i.toNat f) = t.lists := by
      apply List.ext_getElem?
      intro j
      rw [List.getElem?_modify]
      cases hj : t.lists[j]? with
      | none => rfl
      | some o =>
        by_cases hlj : l = j
        · subst hlj
          rw [hj] at h
          cases o with
          | none => simp
          | some a =>
            have h' : a[i.toNat]? = none := by simpa using h
            have : a.modify i.toNat f = a := by
              apply List.ext_getElem?
              intro k
              rw [List.getElem?_modify]
              by_cases hk : i.toNat = k
              · subst hk; rw [h']; rfl
              · simp [hk]
            simp [this]
        · simp [hlj]
    rw [this]

theorem slot_some {t : AStore} {l : Nat} {i : Int} {e : Region × AMap} (h : t.slot l i = some e) :
    0 ≤ i ∧ ∃ a, t.lists[l]? = some (some a) ∧ a[i.toNat]? = some e := by
  unfold AStore.slot at h
  split at h
  · cases h
  · next hi =>
    refine ⟨by omega, ?_⟩
    cases hl : t.lists[l]? with
    | none => rw [hl] at h; cases h
    | some o =>
      cases o with
      | none => rw [hl] at h; cases h
      | some a => rw [hl] at h; exact ⟨a, rfl, h⟩

theorem lists_onSlot {t : AStore} {l : Nat} {i : Int} (hi : 0 ≤ i) (f : Region × AMap → Region × AMap) (j : Nat) :
    (t.onSlot l i f).lists[j]? = if l = j then t.lists[j]?.map (Option.map fun a => a.modify i.toNat f) else t.lists[j]? := by
  unfold AStore.onSlot AStore.onList
  rw [if_neg (by omega), List.getElem?_modify]
  by_cases hlj : l = j
  · simp [hlj]
  · simp [hlj]

theorem valOf_onSlot {t : AStore} {l : Nat} {i : Int} {e : Region × AMap} (h : t.slot l i = some e)
    (f : Region × AMap → Region × AMap) :
    valOf (t.onSlot l i f) = Function.update (valOf t) (.slot l i.toNat) (some (f e).1) := by
  obtain ⟨hi, a, hl, ha⟩ := slot_some h
  funext loc
  cases loc with
  | var v =>
    rw [Function.update_of_ne (by simp)]
    unfold valOf AStore.onSlot AStore.onList
    rw [if_neg (by omega)]
  | slot l' i' =>
    unfold valOf
    simp only [lists_onSlot hi]
    by_cases hll : l = l'
    · subst hll
      rw [if_pos rfl, hl]
      by_cases hii : i.toNat = i'
      · subst hii
        rw [Function.update_self]
        simp [ha]
      · rw [Function.update_of_ne (by simp; omega)]
        simp [hl, hii]
    · rw [if_neg hll, Function.update_of_ne (by simp; omega)]

theorem pvalOf_onSlot {t : AStore} {l : Nat} {i : Int} {e : Region × AMap} (h : t.slot l i = some e)
    (f : Region × AMap → Region × AMap) :
    pvalOf (t.onSlot l i f) = Function.update (pvalOf t) (l, i.toNat) (some (f e).2) := by
  obtain ⟨hi, a, hl, ha⟩ := slot_some h
  funext ⟨l', i'⟩
  unfold pvalOf
  simp only [lists_onSlot hi]
  by_cases hll : l = l'
  · subst hll
    rw [if_pos rfl, hl]
    by_cases hii : i.toNat = i'
    · subst hii
      rw [Function.update_self]
      simp [ha]
    · rw [Function.update_of_ne (by simp; omega)]
      simp [hl, hii]
  · rw [if_neg hll, Function.update_of_ne (by simp; omega)]

theorem SameShape.onSlot {s : ObjStore} {t : AStore} (h : ∀ j : Nat, SameShape s.lists[j]? t.lists[j]?) (l : Nat) {i : Int} (hi : 0 ≤ i)
    (f : Region × AMap → Region × AMap) (j : Nat) : SameShape s.lists[j]? (t.onSlot l i f).lists[j]? := by
  rw [lists_onSlot hi]
  have := h j
  split
  · cases hs : s.lists[j]? with
    | none => rw [hs] at this; cases ht : t.lists[j]? with
      | none => trivial
      | some o => rw [ht] at this; exact this.elim
    | some o =>
      cases ht : t.lists[j]? with
      | none => rw [hs, ht] at this; cases o <;> exact this.elim
      | some o' =>
        rw [hs, ht] at this
        cases o <;> cases o'
        · trivial
        · exact this.elim
        · exact this.elim
        · simpa [SameShape] using this
  · exact this

/-- What the program sees of an element that exists. -/
theorem StoreRel.slot_some {s : ObjStore} {t : AStore} (h : StoreRel s t) {l : Nat} {i : Int} {e : Region × AMap} (he : t.slot l i = some e) :
    0 ≤ i ∧ ∃ a p q pr, s.lists[l]? = some (some a) ∧ i < a.regions.length ∧ a.get i = some p ∧
      a.regions[i.toNat]? = some (some p) ∧ a.props[i.toNat]? = some q ∧
      ptrOf s.vars s.lists (.slot l i.toNat) = some p ∧ s.heap.regions[p]? = some (some e.1) ∧
      a.properties i = some q ∧ pptrOf s.lists (l, i.toNat) = some q ∧ s.heap.props[q]? = some (some pr) ∧ PropRep pr e.2 := by
  obtain ⟨hi, b, hb, hbe⟩ := Trax.slot_some he
  refine ⟨hi, ?_⟩
  have hs := h.shape l
  rw [hb] at hs
  cases ha : s.lists[l]? with
  | none => rw [ha] at hs; exact hs.elim
  | some o =>
    cases o with
    | none => rw [ha] at hs; exact hs.elim
    | some a =>
      rw [ha] at hs
      obtain ⟨h1, h2⟩ := hs
      have hlt : i.toNat < b.length := (List.getElem?_eq_some_iff.mp hbe).1
      have hv : valOf t (.slot l i.toNat) = some e.1 := by simp [valOf, hb, hbe]
      have hpv : pvalOf t (l, i.toNat) = some e.2 := by simp [pvalOf, hb, hbe]
      obtain ⟨p, v, hp, hh, rfl⟩ := h.regions.at_val hv
      obtain ⟨q, pr, hq, hhq, hpr⟩ := h.props.at_val hpv
      have hget : a.regions[i.toNat]?.join = some p := by simpa [ptrOf, ha] using hp
      have hq' : a.props[i.toNat]? = some q := by simpa [pptrOf, ha] using hq
      refine ⟨a, p, q, pr, rfl, by omega, ?_, ?_, hq', hp, hh, ?_, hq, hhq, hpr⟩
      · unfold ObjArr.get; rw [if_neg (by omega), hget]
      · cases hr : a.regions[i.toNat]? with
        | none => rw [hr] at hget; cases hget
        | some o => rw [hr] at hget; simpa using hget
      · unfold ObjArr.properties; rw [if_neg (by omega), hq']

/-- What the program sees where there is no element. -/
theorem StoreRel.slot_none {s : ObjStore} {t : AStore} (h : StoreRel s t) {l : Nat} {i : Int} (he : t.slot l i = none) :
    s.lists[l]?.join = none ∨ ∃ a, s.lists[l]?.join = some a ∧ (i < 0 ∨ i ≥ a.regions.length) ∧
      a.get i = none ∧ a.properties i = none := by
  cases ha : s.lists[l]? with
  | none => left; rfl
  | some o =>
    cases o with
    | none => left; rfl
    | some a =>
      right
      have hs := h.shape l
      rw [ha] at hs
      have hout : i < 0 ∨ i ≥ a.regions.length := by
        cases hb : t.lists[l]? with
        | none => rw [hb] at hs; exact hs.elim
        | some o' =>
          cases o' with
          | none => rw [hb] at hs; exact hs.elim
          | some b =>
            rw [hb] at hs
            by_contra hc
            unfold AStore.slot at he
            rw [if_neg (by omega), hb] at he
            simp at he
            have := hs.1
            omega
      refine ⟨a, rfl, hout, ?_, ?_⟩
      · unfold ObjArr.get; rw [if_pos hout]
      · unfold ObjArr.properties; rw [if_pos hout]

theorem region_of_getElem {h : Heap} {p : Nat} {r : Region} (hr : h.regions[p]? = some (some r)) : h.region p = .ok r := by
  unfold Heap.region; rw [hr]

theorem properties_of_getElem {h : Heap} {p : Nat} {r : Properties} (hr : h.props[p]? = some (some r)) : h.properties p = .ok r := by
  unfold Heap.properties; rw [hr]

end Trax
