import Verif.Lemmas.ObjectHeap

/-!
# Lemmas for object lists: every step keeps the relation to the specification
-/

namespace Trax
open Spec

theorem join_set_self {α : Type} (l : List (Option α)) (i : Nat) (hi : i < l.length) (x : Option α) : (l.set i x)[i]?.join = x := by
  rw [List.getElem?_set_self hi]; rfl

theorem ptrOf_snoc_var (vars : List (Option Nat)) (lists : List (Option ObjArr)) (p : Nat) :
    ptrOf (vars ++ [some p]) lists = Function.update (ptrOf vars lists) (.var vars.length) (some p) := by
  funext loc
  cases loc with
  | var v =>
    by_cases h : v = vars.length
    · subst h; simp [ptrOf]
    · rw [Function.update_of_ne (by simpa using h)]
      unfold ptrOf
      simp only
      by_cases hlt : v < vars.length
      · rw [List.getElem?_append_left hlt]
      · rw [List.getElem?_append_right (by omega), List.getElem?_eq_none (show [some p].length ≤ v - vars.length by simp; omega),
          List.getElem?_eq_none (show vars.length ≤ v by omega)]
  | slot l i => rw [Function.update_of_ne (by simp)]; rfl

theorem valOf_snoc_var (t : AStore) (r : Region) :
    valOf { t with vars := t.vars ++ [some r] } = Function.update (valOf t) (.var t.vars.length) (some r) := by
  funext loc
  cases loc with
  | var v =>
    by_cases h : v = t.vars.length
    · subst h; simp [valOf]
    · rw [Function.update_of_ne (by simpa using h)]
      unfold valOf
      simp only
      by_cases hlt : v < t.vars.length
      · rw [List.getElem?_append_left hlt]
      · rw [List.getElem?_append_right (by omega), List.getElem?_eq_none (show [some r].length ≤ v - t.vars.length by simp; omega),
          List.getElem?_eq_none (show t.vars.length ≤ v by omega)]
  | slot l i => rw [Function.update_of_ne (by simp)]; rfl

theorem ptrOf_set_var (vars : List (Option Nat)) (lists : List (Option ObjArr)) (v : Nat) (hv : v < vars.length) (x : Option Nat) :
    ptrOf (vars.set v x) lists = Function.update (ptrOf vars lists) (.var v) x := by
  funext loc
  cases loc with
  | var w =>
    by_cases h : w = v
    · subst h
      rw [Function.update_self]
      exact join_set_self vars w hv x
    · rw [Function.update_of_ne (by simpa using h)]
      unfold ptrOf
      simp only
      rw [List.getElem?_set_ne (by omega)]
  | slot l i => rw [Function.update_of_ne (by simp)]; rfl

theorem valOf_modify_var (t : AStore) (v : Nat) (hv : v < t.vars.length) (f : Option Region → Option Region) :
    valOf { t with vars := t.vars.modify v f } = Function.update (valOf t) (.var v) (f (t.vars[v]?.join)) := by
  funext loc
  cases loc with
  | var w =>
    by_cases h : w = v
    · subst h
      rw [Function.update_self]
      simp [valOf, hv]
    · rw [Function.update_of_ne (by simpa using h)]
      unfold valOf
      simp only
      rw [List.getElem?_modify]
      simp [show ¬ v = w by omega]
  | slot l i => rw [Function.update_of_ne (by simp)]; rfl

theorem valOf_update_wf {t : AStore} (hw : ∀ loc r, valOf t loc = some r → WellFormed r) {loc₀ : Loc} {x : Option Region}
    (hx : ∀ r, x = some r → WellFormed r) : ∀ loc r, Function.update (valOf t) loc₀ x loc = some r → WellFormed r := by
  intro loc r h
  by_cases hl : loc = loc₀
  · subst hl; rw [Function.update_self] at h; exact hx r h
  · rw [Function.update_of_ne hl] at h; exact hw loc r h

/-! ## Regions of the program -/

theorem StoreRel.newRegion {s : ObjStore} {t : AStore} (h : StoreRel s t) {r : Region} (hr : WellFormed r) :
    StoreRel { s with heap := (s.heap.newRegion r).2, vars := s.vars ++ [some (s.heap.newRegion r).1] }
      { t with vars := t.vars ++ [some r] } := by
  have hlen := h.vars
  refine ⟨by simp [hlen], h.shape, ?_, ?_, ?_⟩
  · have hn : ptrOf s.vars s.lists (.var s.vars.length) = none := by simp [ptrOf]
    have := h.regions.alloc (.var s.vars.length) hn (v := r) (w := r) rfl
    refine this.congr (ptrOf_snoc_var _ _ _) ?_
    rw [valOf_snoc_var, hlen]
  · exact h.props
  · rw [valOf_snoc_var]
    exact valOf_update_wf h.wf (by rintro _ ⟨⟩; exact hr)

theorem StoreRel.var_lt {s : ObjStore} {t : AStore} (h : StoreRel s t) {v p : Nat} (hp : s.vars[v]?.join = some p) :
    v < t.vars.length ∧ v < s.vars.length ∧ ∃ r, t.vars[v]?.join = some r ∧ s.heap.regions[p]? = some (some r) := by
  have hv : v < s.vars.length := by
    by_contra hc
    rw [List.getElem?_eq_none (by omega)] at hp; cases hp
  have hp' : ptrOf s.vars s.lists (.var v) = some p := hp
  obtain ⟨x, w, h1, h2, rfl⟩ := h.regions.at_some hp'
  exact ⟨by rw [← h.vars]; exact hv, hv, x, h2, h1⟩

theorem StoreRel.var_none {s : ObjStore} {t : AStore} (h : StoreRel s t) {v : Nat} (hp : s.vars[v]?.join = none) :
    t.vars[v]?.join = none := (h.regions.none_iff (.var v)).mp hp

theorem modify_none (vars : List (Option Region)) (v : Nat) (h : vars[v]?.join = none) (f : Option Region → Option Region) (hf : f none = none) :
    vars.modify v f = vars := by
  apply List.ext_getElem?
  intro j
  rw [List.getElem?_modify]
  by_cases hj : v = j
  · subst hj
    cases hv : vars[v]? with
    | none => rfl
    | some o => rw [hv] at h; cases o with
      | none => simp [hf]
      | some r => cases h
  · simp [hj]

theorem StoreRel.change {s : ObjStore} {t : AStore} (h : StoreRel s t) (v : Nat) {r : Region} (hr : WellFormed r) (legacy : Bool)
    (fresh : Nat → List UInt8) : ∃ s', ObjStore.step legacy fresh s (.change v r) = .ok s' ∧ StoreRel s' (t.step (.change v r)) := by
  unfold ObjStore.step AStore.step
  simp only
  cases hp : s.vars[v]?.join with
  | none =>
    refine ⟨s, rfl, ?_⟩
    rw [modify_none _ _ (h.var_none hp) _ rfl]
    exact h
  | some p =>
    obtain ⟨h1, h2, r0, h3, h4⟩ := h.var_lt hp
    refine ⟨{ s with heap := { s.heap with regions := s.heap.regions.set p (some r) } }, ?_, ?_⟩
    · simp only [Heap.setRegion, region_of_getElem h4]; rfl
    · have hv := valOf_modify_var t v h1 (Option.map fun _ => r)
      rw [h3] at hv
      refine ⟨by simpa using h.vars, h.shape, ?_, h.props, ?_⟩
      · have := h.regions.write (.var v) hp (v := r) (w := r) rfl
        exact this.congr rfl hv
      · rw [hv]; exact valOf_update_wf h.wf (by rintro _ ⟨⟩; exact hr)

theorem StoreRel.freeRegion {s : ObjStore} {t : AStore} (h : StoreRel s t) (v : Nat) (legacy : Bool)
    (fresh : Nat → List UInt8) : ∃ s', ObjStore.step legacy fresh s (.freeRegion v) = .ok s' ∧ StoreRel s' (t.step (.freeRegion v)) := by
  unfold ObjStore.step AStore.step
  simp only
  cases hp : s.vars[v]?.join with
  | none =>
    refine ⟨s, rfl, ?_⟩
    rw [modify_none _ _ (h.var_none hp) _ rfl]
    exact h
  | some p =>
    obtain ⟨h1, h2, r0, h3, h4⟩ := h.var_lt hp
    refine ⟨{ s with heap := { s.heap with regions := s.heap.regions.set p none }, vars := s.vars.set v none }, ?_, ?_⟩
    · simp only [Heap.releaseRegion, region_of_getElem h4]; rfl
    · have hv := valOf_modify_var t v h1 (fun _ => none)
      refine ⟨by simpa using h.vars, h.shape, ?_, h.props, ?_⟩
      · have := h.regions.free (.var v) hp
        exact this.congr (ptrOf_set_var _ _ _ h2 _) hv
      · rw [hv]; exact valOf_update_wf h.wf (by rintro _ ⟨⟩)

/-! ## Elements of lists -/

theorem StoreRel.changeAt {s : ObjStore} {t : AStore} (h : StoreRel s t) (l : Nat) (i : Int) {r : Region} (hr : WellFormed r) (legacy : Bool)
    (fresh : Nat → List UInt8) : ∃ s', ObjStore.step legacy fresh s (.changeAt l i r) = .ok s' ∧ StoreRel s' (t.step (.changeAt l i r)) := by
  unfold ObjStore.step AStore.step
  simp only
  cases he : t.slot l i with
  | none =>
    refine ⟨s, ?_, ?_⟩
    · rcases h.slot_none he with hn | ⟨a, ha, -, hg, -⟩
      · rw [hn]
      · rw [ha]; simp only [hg]
    · rw [onSlot_none he]; exact h
  | some e =>
    obtain ⟨hi, a, p, q, pr, ha, hlt, hg, hgr, hgp, hptr, hval, -, -, -, -⟩ := h.slot_some he
    refine ⟨{ s with heap := { s.heap with regions := s.heap.regions.set p (some r) } }, ?_, ?_⟩
    · rw [ha]; simp only [Option.join_some, hg, Heap.setRegion, region_of_getElem hval]; rfl
    · have hv := valOf_onSlot he (fun e => (r, e.2))
      have hpv := pvalOf_onSlot he (fun e => (r, e.2))
      refine ⟨?_, SameShape.onSlot h.shape l hi _, ?_, ?_, ?_⟩
      · have := h.vars; unfold AStore.onSlot AStore.onList; split <;> simpa using this
      · exact (h.regions.write (.slot l i.toNat) hptr (v := r) (w := r) rfl).congr rfl hv
      · refine h.props.congr rfl ?_
        rw [hpv]
        apply Function.update_eq_self_iff.mpr
        obtain ⟨hi, b, hb, hbe⟩ := Trax.slot_some he
        simp [pvalOf, hb, hbe]
      · rw [hv]; exact valOf_update_wf h.wf (by rintro _ ⟨⟩; exact hr)

theorem StoreRel.setProperty {s : ObjStore} {t : AStore} (h : StoreRel s t) (l : Nat) (i : Int) {k v : Str} (hk : NoNul k) (hv : NoNul v) (legacy : Bool)
    (fresh : Nat → List UInt8) : ∃ s', ObjStore.step legacy fresh s (.setProperty l i k v) = .ok s' ∧ StoreRel s' (t.step (.setProperty l i k v)) := by
  unfold ObjStore.step AStore.step
  simp only
  cases he : t.slot l i with
  | none =>
    refine ⟨s, ?_, ?_⟩
    · rcases h.slot_none he with hn | ⟨a, ha, -, -, hg⟩
      · rw [hn]
      · rw [ha]; simp only [hg]
    · rw [onSlot_none he]; exact h
  | some e =>
    obtain ⟨hi, a, p, q, pr, ha, hlt, hg, hgr, hgp, hptr, hval, hap, hpp, hpv, hrep⟩ := h.slot_some he
    refine ⟨{ s with heap := { s.heap with props := s.heap.props.set q (some (pr.set k v)) } }, ?_, ?_⟩
    · rw [ha]; simp only [Option.join_some, hap, Heap.setProps, properties_of_getElem hpv]; rfl
    · have hv1 := valOf_onSlot he (fun e => (e.1, e.2.set k v))
      have hv2 := pvalOf_onSlot he (fun e => (e.1, e.2.set k v))
      have hself : valOf (t.onSlot l i fun e => (e.1, e.2.set k v)) = valOf t := by
        rw [hv1]
        apply Function.update_eq_self_iff.mpr
        obtain ⟨hi, b, hb, hbe⟩ := Trax.slot_some he
        simp [valOf, hb, hbe]
      refine ⟨?_, SameShape.onSlot h.shape l hi _, ?_, ?_, ?_⟩
      · have := h.vars; unfold AStore.onSlot AStore.onList; split <;> simpa using this
      · exact h.regions.congr rfl hself
      · have hr : PropRep (pr.set k v) (e.2.set k v) := by
          refine ⟨Properties.wf_set hrep.1 _ _, fun k' hk' => ?_⟩
          simp only [Properties.get_set hrep.1, AMap.set, cstr_of_noNul hk, cstr_of_noNul hk', cstr_of_noNul hv, hrep.2 k' hk']
          by_cases hkk : k = k'
          · simp [hkk]
          · rw [if_neg hkk, if_neg (fun e => hkk e.symm)]
        exact (h.props.write (l, i.toNat) hpp (v := pr.set k v) (w := e.2.set k v) hr).congr rfl hv2
      · rw [hself]; exact h.wf

/-! ## Growing lists -/

theorem ptrOf_snoc {vars : List (Option Nat)} {lists : List (Option ObjArr)} {l : Nat} {a : ObjArr} (ha : lists[l]? = some (some a)) (p : Nat) (ps : List Nat) :
    ptrOf vars (lists.set l (some ⟨a.regions ++ [some p], ps⟩)) = Function.update (ptrOf vars lists) (.slot l a.regions.length) (some p) := by
  have hlt : l < lists.length := (List.getElem?_eq_some_iff.mp ha).1
  funext loc
  cases loc with
  | var w => rw [Function.update_of_ne (by simp)]; rfl
  | slot l' i =>
    by_cases hl : l' = l
    · subst hl
      by_cases hi : i = a.regions.length
      · subst hi; simp [ptrOf, hlt]
      · rw [Function.update_of_ne (by simpa using hi)]
        simp only [ptrOf, List.getElem?_set_self hlt, ha, Option.join_some, Option.bind_some]
        by_cases hi' : i < a.regions.length
        · rw [List.getElem?_append_left hi']
        · rw [List.getElem?_eq_none (by simp; omega), List.getElem?_eq_none (by omega)]
    · rw [Function.update_of_ne (by simp; intro h; exact absurd h hl)]
      simp only [ptrOf]
      rw [List.getElem?_set_ne (by omega)]

theorem pptrOf_snoc {lists : List (Option ObjArr)} {l : Nat} {a : ObjArr} (ha : lists[l]? = some (some a)) (q : Nat) (rs : List (Option Nat)) :
    pptrOf (lists.set l (some ⟨rs, a.props ++ [q]⟩)) = Function.update (pptrOf lists) (l, a.props.length) (some q) := by
  have hlt : l < lists.length := (List.getElem?_eq_some_iff.mp ha).1
  funext ⟨l', i⟩
  by_cases hl : l' = l
  · subst hl
    by_cases hi : i = a.props.length
    · subst hi; simp [pptrOf, hlt]
    · rw [Function.update_of_ne (by simpa using hi)]
      simp only [pptrOf, List.getElem?_set_self hlt, ha, Option.join_some, Option.bind_some]
      by_cases hi' : i < a.props.length
      · rw [List.getElem?_append_left hi']
      · rw [List.getElem?_eq_none (by simp; omega), List.getElem?_eq_none (by omega)]
  · rw [Function.update_of_ne (by simp; intro h; exact absurd h hl)]
    simp only [pptrOf]
    rw [List.getElem?_set_ne (by omega)]

theorem valOf_snoc {t : AStore} {l : Nat} {b : List (Region × AMap)} (hb : t.lists[l]? = some (some b)) (e : Region × AMap) :
    valOf { t with lists := t.lists.set l (some (b ++ [e])) } = Function.update (valOf t) (.slot l b.length) (some e.1) := by
  have hlt : l < t.lists.length := (List.getElem?_eq_some_iff.mp hb).1
  funext loc
  cases loc with
  | var w => rw [Function.update_of_ne (by simp)]; rfl
  | slot l' i =>
    by_cases hl : l' = l
    · subst hl
      by_cases hi : i = b.length
      · subst hi; simp [valOf, hlt]
      · rw [Function.update_of_ne (by simpa using hi)]
        simp only [valOf, List.getElem?_set_self hlt, hb, Option.join_some, Option.bind_some]
        by_cases hi' : i < b.length
        · rw [List.getElem?_append_left hi']
        · rw [List.getElem?_eq_none (by simp; omega), List.getElem?_eq_none (by omega)]
    · rw [Function.update_of_ne (by simp; intro h; exact absurd h hl)]
      simp only [valOf]
      rw [List.getElem?_set_ne (by omega)]

theorem pvalOf_snoc {t : AStore} {l : Nat} {b : List (Region × AMap)} (hb : t.lists[l]? = some (some b)) (e : Region × AMap) :
    pvalOf { t with lists := t.lists.set l (some (b ++ [e])) } = Function.update (pvalOf t) (l, b.length) (some e.2) := by
  have hlt : l < t.lists.length := (List.getElem?_eq_some_iff.mp hb).1
  funext ⟨l', i⟩
  by_cases hl : l' = l
  · subst hl
    by_cases hi : i = b.length
    · subst hi; simp [pvalOf, hlt]
    · rw [Function.update_of_ne (by simpa using hi)]
      simp only [pvalOf, List.getElem?_set_self hlt, hb, Option.join_some, Option.bind_some]
      by_cases hi' : i < b.length
      · rw [List.getElem?_append_left hi']
      · rw [List.getElem?_eq_none (by simp; omega), List.getElem?_eq_none (by omega)]
  · rw [Function.update_of_ne (by simp; intro h; exact absurd h hl)]
    simp only [pvalOf]
    rw [List.getElem?_set_ne (by omega)]

theorem SameShape.set {ls : List (Option ObjArr)} {lt : List (Option (List (Region × AMap)))} (h : ∀ j : Nat, SameShape ls[j]? lt[j]?) (l : Nat)
    {x : Option ObjArr} {y : Option (List (Region × AMap))} (hxy : SameShape (some x) (some y)) (j : Nat) :
    SameShape (ls.set l x)[j]? (lt.set l y)[j]? := by
  have hj := h j
  by_cases hlj : l = j
  · subst hlj
    rw [List.getElem?_set, List.getElem?_set, if_pos rfl, if_pos rfl]
    by_cases h1 : l < ls.length <;> by_cases h2 : l < lt.length
    · rw [if_pos h1, if_pos h2]; exact hxy
    · rw [List.getElem?_eq_getElem h1, List.getElem?_eq_none (by omega)] at hj
      cases hc : ls[l] <;> rw [hc] at hj <;> exact hj.elim
    · rw [List.getElem?_eq_getElem h2, List.getElem?_eq_none (by omega)] at hj
      exact hj.elim
    · rw [if_neg h1, if_neg h2]; trivial
  · rw [List.getElem?_set_ne hlj, List.getElem?_set_ne hlj]; exact hj

/-- One more element for a list. -/
theorem StoreRel.snoc {s : ObjStore} {t : AStore} (h : StoreRel s t) {l : Nat} {a : ObjArr} {b : List (Region × AMap)}
    (ha : s.lists[l]? = some (some a)) (hb : t.lists[l]? = some (some b)) {r : Region} {pr : Properties} {m : AMap}
    (hr : WellFormed r) (hp : PropRep pr m) :
    StoreRel { heap := ⟨s.heap.regions ++ [some r], s.heap.props ++ [some pr]⟩, vars := s.vars,
               lists := s.lists.set l (some ⟨a.regions ++ [some s.heap.regions.length], a.props ++ [s.heap.props.length]⟩) }
      { t with lists := t.lists.set l (some (b ++ [(r, m)])) } := by
  have hsh := h.shape l
  rw [ha, hb] at hsh
  obtain ⟨h1, h2⟩ := hsh
  refine ⟨h.vars, SameShape.set h.shape l (by simp [SameShape, h1, h2]), ?_, ?_, ?_⟩
  · have hn : ptrOf s.vars s.lists (.slot l a.regions.length) = none := by simp [ptrOf, ha]
    refine (h.regions.alloc _ hn (v := r) (w := r) rfl).congr (ptrOf_snoc ha _ _) ?_
    rw [valOf_snoc hb, h1]
  · have hn : pptrOf s.lists (l, a.props.length) = none := by simp [pptrOf, ha]
    refine (h.props.alloc _ hn (v := pr) (w := m) hp).congr (pptrOf_snoc ha _ _) ?_
    rw [pvalOf_snoc hb, h2]
  · rw [valOf_snoc hb]
    exact valOf_update_wf h.wf (by rintro _ ⟨⟩; exact hr)

theorem set_snoc_last {α : Type} (l : List α) (x y : α) : (l ++ [x]).set l.length y = l ++ [y] := by
  simp

theorem StoreRel.push {s : ObjStore} {t : AStore} (h : StoreRel s t) :
    StoreRel { s with lists := s.lists ++ [some ⟨[], []⟩] } { t with lists := t.lists ++ [some []] } := by
  have hlen : s.lists.length = t.lists.length := by
    have h1 := h.shape s.lists.length
    have h2 := h.shape t.lists.length
    rw [List.getElem?_eq_none (le_refl _)] at h1 h2
    by_contra hne
    rcases Nat.lt_or_gt_of_ne hne with hlt | hlt
    · rw [List.getElem?_eq_getElem hlt] at h1; exact h1.elim
    · rw [List.getElem?_eq_getElem hlt] at h2
      cases hc : s.lists[t.lists.length] <;> rw [hc] at h2 <;> exact h2.elim
  have key : ∀ {α β : Type} (ls : List (Option α)) (e : α) (l : Nat) (f : α → Option β), f e = none →
      ((ls ++ [some e])[l]?.join).bind f = (ls[l]?.join).bind f := by
    intro α β ls e l f hf
    by_cases hl : l < ls.length
    · rw [List.getElem?_append_left hl]
    · by_cases he : l = ls.length
      · subst he; simp [hf]
      · rw [List.getElem?_eq_none (by simp; omega), List.getElem?_eq_none (by omega)]
  have hv : valOf { t with lists := t.lists ++ [some []] } = valOf t := by
    funext loc; cases loc with
    | var v => rfl
    | slot l i => exact key t.lists [] l _ (by simp)
  refine ⟨h.vars, ?_, ?_, ?_, ?_⟩
  · intro j
    by_cases hj : j < s.lists.length
    · simp only [List.getElem?_append_left hj, List.getElem?_append_left (hlen ▸ hj)]; exact h.shape j
    · by_cases he : j = s.lists.length
      · subst he; simp [hlen, SameShape]
      · simp only
        rw [List.getElem?_eq_none (by simp; omega), List.getElem?_eq_none (by simp; omega)]; trivial
  · refine h.regions.congr ?_ hv
    funext loc; cases loc with
    | var v => rfl
    | slot l i => exact key s.lists _ l _ (by simp)
  · refine h.props.congr ?_ ?_
    · funext ⟨l, i⟩; exact key s.lists _ l _ (by simp)
    · funext ⟨l, i⟩; exact key t.lists _ l _ (by simp)
  · rw [hv]; exact h.wf

theorem StoreRel.create {s : ObjStore} {t : AStore} (h : StoreRel s t) (n : Nat) :
    StoreRel { s with heap := (ObjArr.create s.heap n).2, lists := s.lists ++ [some (ObjArr.create s.heap n).1] }
      { t with lists := t.lists ++ [some (List.replicate n (.special 0, AMap.empty))] } := by
  have hlen : s.lists.length = t.lists.length := by
    have h1 := h.shape s.lists.length
    have h2 := h.shape t.lists.length
    rw [List.getElem?_eq_none (le_refl _)] at h1 h2
    by_contra hne
    rcases Nat.lt_or_gt_of_ne hne with hlt | hlt
    · rw [List.getElem?_eq_getElem hlt] at h1; exact h1.elim
    · rw [List.getElem?_eq_getElem hlt] at h2
      cases hc : s.lists[t.lists.length] <;> rw [hc] at h2 <;> exact h2.elim
  induction n with
  | zero => exact h.push
  | succ n ih =>
    have := ih.snoc (l := s.lists.length) (a := (ObjArr.create s.heap n).1) (b := List.replicate n (.special 0, AMap.empty))
      (by simp) (by simp [hlen]) (r := .special 0) (pr := Properties.create) (m := AMap.empty) trivial PropRep.create
    simp only [set_snoc_last] at this
    rw [hlen, set_snoc_last, ← List.replicate_succ'] at this
    exact this

theorem clone_wellFormed (legacy : Bool) (fresh : Nat → List UInt8) {r : Region} (hr : WellFormed r) :
    Region.clone legacy fresh (some r) = .ok (some r) := by
  show Region.convert legacy fresh r (Region.typeBack r.apiType) = _
  rw [Region.typeBack_apiType]
  cases r with
  | special c => rfl
  | rectangle x y w h => rfl
  | polygon ps => rfl
  | mask x y w h data =>
    obtain ⟨h1, h2, h3, h4⟩ := hr
    simp only [Region.type, Region.convert, Region.createMask]
    rw [if_pos ⟨h1, h2⟩, Outcome.bind_ok]
    have := Int.mul_pos h1 h2
    rw [mul32, if_pos (by unfold InInt32; omega), Outcome.bind_ok, if_pos (by omega)]
    rw [List.take_of_length_le (by omega)]

theorem cloneRegion_of_getElem (legacy : Bool) (fresh : Nat → List UInt8) {h : Heap} {p : Nat} {r : Region}
    (hp : h.regions[p]? = some (some r)) (hr : WellFormed r) :
    h.cloneRegion legacy fresh (some p) = .ok (some h.regions.length, { h with regions := h.regions ++ [some r] }) := by
  simp only [Heap.cloneRegion, region_of_getElem hp, Outcome.bind_ok, clone_wellFormed legacy fresh hr]
  rfl

theorem StoreRel.appendLoop (legacy : Bool) (fresh : Nat → List UInt8) {d e : Nat} (hde : d ≠ e) {src : ObjArr} {bsrc : List (Region × AMap)} (k : Nat) :
    ∀ {s : ObjStore} {t : AStore} (_ : StoreRel s t) {a : ObjArr} {b : List (Region × AMap)} {i : Nat}
      (_ : s.lists[d]? = some (some a)) (_ : t.lists[d]? = some (some b))
      (_ : s.lists[e]? = some (some src)) (_ : t.lists[e]? = some (some bsrc)) (_ : i + k = bsrc.length),
    ∃ a' h', ObjArr.appendLoop legacy fresh src s.heap a i k = .ok (a', h') ∧
      StoreRel { s with heap := h', lists := s.lists.set d (some a') } { t with lists := t.lists.set d (some (b ++ bsrc.drop i)) } := by
  induction k with
  | zero =>
    intro s t h a b i ha hb _ _ hi
    refine ⟨a, s.heap, rfl, ?_⟩
    have h1 : s.lists.set d (some a) = s.lists := by
      obtain ⟨hlt, hx⟩ := List.getElem?_eq_some_iff.mp ha
      rw [← hx]; exact List.set_getElem_self hlt
    have h2 : t.lists.set d (some (b ++ bsrc.drop i)) = t.lists := by
      obtain ⟨hlt, hx⟩ := List.getElem?_eq_some_iff.mp hb
      rw [List.drop_of_length_le (by omega), List.append_nil, ← hx]; exact List.set_getElem_self hlt
    rw [h1, h2]; exact h
  | succ k ih =>
    intro s t h a b i ha hb hs ht hi
    have hlt : i < bsrc.length := by omega
    have hslot : t.slot e (i : Int) = some bsrc[i] := by
      simp [AStore.slot, ht, hlt]
    obtain ⟨-, a₀, p, q, pr, ha₀, -, -, hgr, hgp, hptr, hval, -, -, hpv, hrep⟩ := h.slot_some hslot
    rw [hs] at ha₀; cases ha₀
    rw [Int.toNat_natCast] at hgr hgp hptr
    have hwf : WellFormed bsrc[i].1 := h.wf (.slot e i) _ (by simp [valOf, ht, hlt])
    have hcopy : Properties.copyProperties pr Properties.create (Properties.COPY_ALL ||| Properties.COPY_OVERWRITE) = pr := by
      have : Properties.copyProperties pr Properties.create (Properties.COPY_ALL ||| Properties.COPY_OVERWRITE) =
          pr.enumerate.foldl (fun m kv => m.set kv.1 kv.2) Properties.create := by
        simp only [Properties.copyProperties]; rfl
      rw [this]
      exact Properties.foldl_set_enumerate hrep.1
    have hrel := h.snoc ha hb hwf hrep
    have hd : d < s.lists.length := (List.getElem?_eq_some_iff.mp ha).1
    have hd' : d < t.lists.length := (List.getElem?_eq_some_iff.mp hb).1
    obtain ⟨a', h', hrun, hrel'⟩ := ih hrel (a := ⟨a.regions ++ [some s.heap.regions.length], a.props ++ [s.heap.props.length]⟩)
      (b := b ++ [(bsrc[i].1, bsrc[i].2)]) (i := i + 1)
      (List.getElem?_set_self hd) (List.getElem?_set_self hd')
      (by simp only; rw [List.getElem?_set_ne hde]; exact hs) (by simp only; rw [List.getElem?_set_ne hde]; exact ht) (by omega)
    refine ⟨a', h', ?_, ?_⟩
    · unfold ObjArr.appendLoop
      have hq : q < s.heap.props.length := (List.getElem?_eq_some_iff.mp hpv).1
      simp only [hgr, Option.join_some, cloneRegion_of_getElem legacy fresh hval hwf, Outcome.bind_ok, Heap.newProps, hgp]
      rw [properties_of_getElem (h := { regions := s.heap.regions ++ [some bsrc[i].1], props := s.heap.props ++ [some Properties.create] })
        (by simp only; rw [List.getElem?_append_left hq]; exact hpv)]
      simp only [Outcome.bind_ok, hcopy, Heap.setProps]
      rw [properties_of_getElem (h := { regions := s.heap.regions ++ [some bsrc[i].1], props := s.heap.props ++ [some Properties.create] })
        (p := s.heap.props.length) (r := Properties.create) (by simp)]
      simp only [Outcome.map, Outcome.bind_ok, set_snoc_last]
      exact hrun
    · simp only [List.set_set, List.append_assoc] at hrel'
      have : (bsrc[i].1, bsrc[i].2) :: bsrc.drop (i + 1) = bsrc.drop i := by
        rw [List.drop_eq_getElem_cons hlt]
      simp only [List.cons_append, List.nil_append, this] at hrel'
      exact hrel'

theorem SameShape.none_iff {x : Option (Option ObjArr)} {y : Option (Option (List (Region × AMap)))} (h : SameShape x y) :
    x.join = none ↔ y.join = none := by
  cases x with
  | none => cases y with
    | none => simp
    | some o => exact h.elim
  | some o => cases o with
    | none => cases y with
      | none => exact h.elim
      | some o' => cases o' with
        | none => simp
        | some b => exact h.elim
    | some a => cases y with
      | none => exact h.elim
      | some o' => cases o' with
        | none => exact h.elim
        | some b => simp

theorem join_eq_some' {α : Type} {x : Option (Option α)} {a : α} (h : x.join = some a) : x = some (some a) := by
  cases x with
  | none => cases h
  | some o => exact congrArg some h

theorem modify_eq_set {α : Type} {l : List (Option α)} {i : Nat} {a : α} (h : l[i]? = some (some a)) (f : Option α → Option α) :
    l.modify i f = l.set i (f (some a)) := by
  apply List.ext_getElem?
  intro j
  rw [List.getElem?_modify, List.getElem?_set]
  by_cases hj : i = j
  · subst hj
    rw [if_pos rfl, if_pos (List.getElem?_eq_some_iff.mp h).1, h]; simp
  · simp [hj]

theorem modify_none' {α : Type} {l : List (Option α)} {i : Nat} (h : l[i]?.join = none) {f : Option α → Option α} (hf : f none = none) :
    l.modify i f = l := by
  apply List.ext_getElem?
  intro j
  rw [List.getElem?_modify]
  by_cases hj : i = j
  · subst hj
    cases hv : l[i]? with
    | none => rfl
    | some o => rw [hv] at h; cases o with
      | none => simp [hf]
      | some r => cases h
  · simp [hj]

theorem StoreRel.append {s : ObjStore} {t : AStore} (h : StoreRel s t) (legacy : Bool) (fresh : Nat → List UInt8) (l src : Nat)
    (hp : t.Proper (.append l src)) : ∃ s', ObjStore.step legacy fresh s (.append l src) = .ok s' ∧ StoreRel s' (t.step (.append l src)) := by
  have hsl := (h.shape l).none_iff
  have hss := (h.shape src).none_iff
  unfold ObjStore.step AStore.step
  simp only
  cases hb : t.lists[src]?.join with
  | none =>
    rw [hss.mpr hb]
    refine ⟨s, ?_, h⟩
    cases s.lists[l]?.join <;> rfl
  | some bsrc =>
    have hb' := join_eq_some' hb
    cases hsb : s.lists[src]?.join with
    | none => rw [hss.mp hsb] at hb; cases hb
    | some asrc =>
      have hsb' := join_eq_some' hsb
      cases ha : s.lists[l]?.join with
      | none =>
        refine ⟨s, rfl, ?_⟩
        simp only [AStore.onList]
        rw [modify_none' (hsl.mp ha) rfl]; exact h
      | some a =>
        have ha' := join_eq_some' ha
        cases hta : t.lists[l]?.join with
        | none => rw [hsl.mpr hta] at ha; cases ha
        | some b =>
          have hta' := join_eq_some' hta
          simp only [AStore.onList, modify_eq_set hta', Option.map_some]
          by_cases hls : l = src
          · subst hls
            rcases hp rfl with hp | hp
            · rw [hta] at hp; cases hp
              rw [hta] at hb; cases hb
              have hshape := h.shape l
              rw [ha', hta'] at hshape
              have h0 : a.regions.length = 0 := hshape.1
              refine ⟨{ s with lists := s.lists.set l (some a) }, by simp [ObjArr.appendSelf, h0]; rfl, ?_⟩
              have h1 : s.lists.set l (some a) = s.lists := by
                obtain ⟨hlt, hx⟩ := List.getElem?_eq_some_iff.mp ha'
                rw [← hx]; exact List.set_getElem_self hlt
              have h2 : t.lists.set l (some ([] ++ [])) = t.lists := by
                obtain ⟨hlt, hx⟩ := List.getElem?_eq_some_iff.mp hta'
                rw [List.append_nil, ← hx]; exact List.set_getElem_self hlt
              rw [h1, h2]; exact h
            · rw [hta] at hp; cases hp
          · have hshape := h.shape src
            rw [hsb', hb'] at hshape
            obtain ⟨a', h', hrun, hrel⟩ := h.appendLoop legacy fresh hls bsrc.length (i := 0) ha' hta' hsb' hb' (by omega)
            refine ⟨{ s with heap := h', lists := s.lists.set l (some a') }, ?_, ?_⟩
            · simp only [if_neg hls, ObjArr.append, hshape.1, hrun]; rfl
            · simpa using hrel

/-! ## Setting an element -/

theorem ptrOf_set_slot {vars : List (Option Nat)} {lists : List (Option ObjArr)} {l i : Nat} {a : ObjArr} (ha : lists[l]? = some (some a)) (hi : i < a.regions.length) (p : Option Nat) :
    ptrOf vars (lists.set l (some { a with regions := a.regions.set i p })) = Function.update (ptrOf vars lists) (.slot l i) p := by
  have hlt : l < lists.length := (List.getElem?_eq_some_iff.mp ha).1
  funext loc
  cases loc with
  | var w => rw [Function.update_of_ne (by simp)]; rfl
  | slot l' j =>
    by_cases hl : l' = l
    · subst hl
      by_cases hj : j = i
      · subst hj
        rw [Function.update_self]
        simp only [ptrOf, List.getElem?_set_self hlt, Option.join_some, Option.bind_some, List.getElem?_set_self hi]
      · rw [Function.update_of_ne (by simpa using hj)]
        simp only [ptrOf, List.getElem?_set_self hlt, ha, Option.join_some, Option.bind_some]
        rw [List.getElem?_set_ne (by omega)]
    · rw [Function.update_of_ne (by simp; intro h; exact absurd h hl)]
      simp only [ptrOf]
      rw [List.getElem?_set_ne (by omega)]

theorem pptrOf_set_slot {lists : List (Option ObjArr)} {l : Nat} {a : ObjArr} (ha : lists[l]? = some (some a)) (rs : List (Option Nat)) :
    pptrOf (lists.set l (some { a with regions := rs })) = pptrOf lists := by
  have hlt : l < lists.length := (List.getElem?_eq_some_iff.mp ha).1
  funext ⟨l', j⟩
  simp only [pptrOf]
  by_cases hl : l' = l
  · subst hl; simp only [List.getElem?_set_self hlt, ha, Option.join_some, Option.bind_some]
  · rw [List.getElem?_set_ne (by omega)]

/-- The pointer of an argument that exists. -/
theorem StoreRel.arg_some {s : ObjStore} {t : AStore} (h : StoreRel s t) {a : RegionArg} {r : Region} (ha : t.arg a = some r) :
    ∃ p loc, s.pointer a = some (some p) ∧ ptrOf s.vars s.lists loc = some p ∧ s.heap.regions[p]? = some (some r) ∧ WellFormed r ∧
      (∀ l i, 0 ≤ i → a ≠ .slot l i → loc ≠ .slot l i.toNat) := by
  cases a with
  | null => cases ha
  | var v =>
    have hv : valOf t (.var v) = some r := ha
    obtain ⟨p, x, hp, hx, rfl⟩ := h.regions.at_val hv
    exact ⟨p, .var v, by simp only [ObjStore.pointer]; rw [show s.vars[v]?.join = some p from hp]; rfl, hp, hx, h.wf _ _ hv, by simp⟩
  | slot l i =>
    have he : ∃ e, t.slot l i = some e ∧ e.1 = r := by
      simpa [AStore.arg] using ha
    obtain ⟨e, he, rfl⟩ := he
    obtain ⟨hi, a, p, q, pr, ha, -, hg, -, -, hptr, hval, -⟩ := h.slot_some he
    refine ⟨p, .slot l i.toNat, ?_, hptr, hval, ?_, ?_⟩
    · simp [ObjStore.pointer, ha, hg]
    · obtain ⟨-, b, hb, hbe⟩ := Trax.slot_some he
      exact h.wf (.slot l i.toNat) _ (by simp [valOf, hb, hbe])
    · intro l' i' hi' hne hc
      apply hne
      simp only [Loc.slot.injEq] at hc
      obtain ⟨h1, h2⟩ := hc
      subst h1
      rw [show i = i' by omega]

theorem StoreRel.set {s : ObjStore} {t : AStore} (h : StoreRel s t) (legacy : Bool) (fresh : Nat → List UInt8) (l : Nat) (i : Int) (ra : RegionArg)
    (hp : t.Proper (.set l i ra)) : ∃ s', ObjStore.step legacy fresh s (.set l i ra) = .ok s' ∧ StoreRel s' (t.step (.set l i ra)) := by
  obtain ⟨hne, hsome⟩ := hp
  unfold ObjStore.step AStore.step
  simp only
  cases he : t.slot l i with
  | none =>
    have hout : (match s.lists[l]?.join, s.pointer ra with
      | some a, some p => (ObjArr.set legacy fresh s.heap a i p).map fun (a, h) => { s with heap := h, lists := s.lists.set l (some a) }
      | _, _ => .ok s) = .ok s := by
      rcases h.slot_none he with hn | ⟨a, ha, ho, -, -⟩
      · rw [hn]
      · rw [ha]
        cases s.pointer ra with
        | none => rfl
        | some p =>
          simp only [ObjArr.set]
          rw [if_pos ho]
          have h1 : s.lists.set l (some a) = s.lists := by
            obtain ⟨hlt, hx⟩ := List.getElem?_eq_some_iff.mp (join_eq_some' ha)
            rw [← hx]; exact List.set_getElem_self hlt
          simp [Outcome.map, h1]
    refine ⟨s, hout, ?_⟩
    cases t.arg ra with
    | none => exact h
    | some r => simp only; rw [onSlot_none he]; exact h
  | some e =>
    obtain ⟨hi, a, p, q, pr, ha, hlt, hg, hgr, hgp, hptr, hval, -⟩ := h.slot_some he
    cases harg : t.arg ra with
    | none =>
      rcases hsome (by simp [he]) with hs | ⟨v, rfl⟩
      · rw [harg] at hs; cases hs
      · refine ⟨s, ?_, h⟩
        have : s.vars[v]?.join = none := (h.regions.none_iff (.var v)).mpr harg
        simp only [ObjStore.pointer, this, Option.map_none]
        cases s.lists[l]?.join <;> rfl
    | some r =>
      obtain ⟨p', loc, hpt, hploc, hpv, hwf, hloc⟩ := h.arg_some harg
      have hlocne := hloc l i hi hne
      have hpp : p ≠ p' := by rintro rfl; exact hlocne (h.regions.inj _ _ _ hploc hptr)
      have hfree := h.regions.free (.slot l i.toNat) hptr
      have halloc := hfree.alloc (.slot l i.toNat) (by simp) (v := r) (w := r) rfl
      rw [Function.update_idem, Function.update_idem] at halloc
      refine ⟨{ s with heap := { s.heap with regions := s.heap.regions.set p none ++ [some r] },
                       lists := s.lists.set l (some { a with regions := a.regions.set i.toNat (some (s.heap.regions.set p none).length) }) }, ?_, ?_⟩
      · rw [ha, hpt]
        simp only [Option.join_some, ObjArr.set]
        rw [if_neg (by omega)]
        simp only [hgr, Option.join_some, Heap.releaseRegion, region_of_getElem hval, Outcome.map, Outcome.bind_ok]
        rw [cloneRegion_of_getElem legacy fresh (r := r) (by simp only; rw [List.getElem?_set_ne hpp]; exact hpv) hwf]
        simp
      · simp only
        have hv := valOf_onSlot he (fun e => (r, e.2))
        have hpv := pvalOf_onSlot he (fun e => (r, e.2))
        refine ⟨?_, ?_, ?_, ?_, ?_⟩
        · have := h.vars; unfold AStore.onSlot AStore.onList; split <;> simpa using this
        · refine SameShape.onSlot (s := { s with lists := _ }) ?_ l hi _
          intro j
          have hj := h.shape j
          by_cases hlj : l = j
          · subst hlj
            simp only
            rw [List.getElem?_set_self (List.getElem?_eq_some_iff.mp ha).1]
            rw [ha] at hj
            cases hb : t.lists[l]? with
            | none => rw [hb] at hj; exact hj.elim
            | some o => cases o with
              | none => rw [hb] at hj; exact hj.elim
              | some b => rw [hb] at hj; simpa [SameShape] using hj
          · simp only
            rw [List.getElem?_set_ne hlj]; exact hj
        · exact halloc.congr (ptrOf_set_slot ha (by omega) _) hv
        · refine h.props.congr (pptrOf_set_slot ha _) ?_
          rw [hpv]
          apply Function.update_eq_self_iff.mpr
          obtain ⟨hi, b, hb, hbe⟩ := Trax.slot_some he
          simp [pvalOf, hb, hbe]
        · rw [hv]; exact valOf_update_wf h.wf (by rintro _ ⟨⟩; exact hwf)

/-! ## Releasing a list -/

open Classical in
/-- The function without its values for the elements `i`, …, `i + n - 1` of list `l`. -/
noncomputable def hide {L V : Type} (at' : Nat → L) (i n : Nat) (f : L → Option V) (loc : L) : Option V :=
  if ∃ j, i ≤ j ∧ j < i + n ∧ loc = at' j then none else f loc

theorem hide_zero {L V : Type} (at' : Nat → L) (i : Nat) (f : L → Option V) : hide at' i 0 f = f := by
  funext loc
  unfold hide
  rw [if_neg]
  rintro ⟨j, h1, h2, -⟩; omega

theorem hide_succ {L V : Type} [DecidableEq L] (at' : Nat → L) (i n : Nat) (f : L → Option V) :
    hide at' i (n + 1) f = hide at' (i + 1) n (Function.update f (at' i) none) := by
  funext loc
  unfold hide
  by_cases h : ∃ j, i + 1 ≤ j ∧ j < i + 1 + n ∧ loc = at' j
  · obtain ⟨j, h1, h2, h3⟩ := h
    rw [if_pos ⟨j, by omega, by omega, h3⟩, if_pos ⟨j, h1, h2, h3⟩]
  · rw [if_neg h]
    by_cases h0 : loc = at' i
    · rw [if_pos ⟨i, by omega, by omega, h0⟩, h0, Function.update_self]
    · rw [Function.update_of_ne h0, if_neg]
      rintro ⟨j, h1, h2, h3⟩
      by_cases hj : j = i
      · subst hj; exact h0 h3
      · exact h ⟨j, by omega, by omega, h3⟩

theorem releaseLoop_spec {V W : Type} (l : Nat) {R : Region → V → Prop} {P : Properties → W → Prop} (rs : List (Option Nat)) :
    ∀ (ps : List Nat) (i : Nat) (h : Heap) (ptr : Loc → Option Nat) (val : Loc → Option V) (pptr : Nat × Nat → Option Nat) (pval : Nat × Nat → Option W),
      Owns R ptr h.regions val → Owns P pptr h.props pval → rs.length = ps.length →
      (∀ (j : Nat) x, rs[j]? = some x → ptr (.slot l (i + j)) = x ∧ x ≠ none) →
      (∀ (j : Nat) q, ps[j]? = some q → pptr (l, i + j) = some q) →
      ∃ h', ObjArr.releaseLoop h rs ps = .ok h' ∧
        Owns R (hide (.slot l) i rs.length ptr) h'.regions (hide (.slot l) i rs.length val) ∧
        Owns P (hide (fun j => (l, j)) i rs.length pptr) h'.props (hide (fun j => (l, j)) i rs.length pval) := by
  induction rs with
  | nil =>
    intro ps i h ptr val pptr pval h1 h2 _ _ _
    refine ⟨h, rfl, ?_, ?_⟩
    · simp only [List.length_nil, hide_zero]; exact h1
    · simp only [List.length_nil, hide_zero]; exact h2
  | cons x rs ih =>
    intro ps i h ptr val pptr pval h1 h2 hlen hr hp
    cases ps with
    | nil => cases hlen
    | cons q ps =>
      obtain ⟨hx, hxn⟩ := hr 0 x rfl
      have hq : pptr (l, i) = some q := hp 0 q rfl
      cases x with
      | none => exact absurd rfl hxn
      | some p =>
        have hx' : ptr (.slot l i) = some p := hx
        obtain ⟨v, w, hv, -, -⟩ := h1.at_some hx'
        obtain ⟨v', w', hv', -, -⟩ := h2.at_some hq
        obtain ⟨h', hrun, hr1, hr2⟩ := ih ps (i + 1) ⟨h.regions.set p none, h.props.set q none⟩ _ _ _ _
          (h1.free _ hx') (h2.free _ hq) (by simpa using hlen)
          (by
            intro j y hy
            obtain ⟨h3, h4⟩ := hr (j + 1) y (by simpa using hy)
            refine ⟨?_, h4⟩
            rw [Function.update_of_ne (by simp; omega), show i + 1 + j = i + (j + 1) by omega]; exact h3)
          (by
            intro j y hy
            have h3 := hp (j + 1) y (by simpa using hy)
            rw [Function.update_of_ne (by simp; omega), show i + 1 + j = i + (j + 1) by omega]; exact h3)
        refine ⟨h', ?_, ?_, ?_⟩
        · rw [← hrun]
          simp only [ObjArr.releaseLoop, Heap.releaseRegion, region_of_getElem hv, Outcome.map, Outcome.bind_ok, Heap.releaseProps]
          rw [properties_of_getElem (h := { regions := h.regions.set p none, props := h.props }) hv']
          rfl
        · simp only [List.length_cons, hide_succ]; exact hr1
        · simp only [List.length_cons]
          rw [hide_succ (fun j => (l, j)), hide_succ (fun j => (l, j))]; exact hr2

theorem StoreRel.release {s : ObjStore} {t : AStore} (h : StoreRel s t) (legacy : Bool) (fresh : Nat → List UInt8) (l : Nat) :
    ∃ s', ObjStore.step legacy fresh s (.release l) = .ok s' ∧ StoreRel s' (t.step (.release l)) := by
  unfold ObjStore.step AStore.step
  simp only
  cases ha : s.lists[l]?.join with
  | none =>
    refine ⟨s, rfl, ?_⟩
    rw [modify_none' ((h.shape l).none_iff.mp ha) rfl]; exact h
  | some a =>
    have ha' := join_eq_some' ha
    cases hb : t.lists[l]?.join with
    | none => rw [(h.shape l).none_iff.mpr hb] at ha; cases ha
    | some b =>
      have hb' := join_eq_some' hb
      have hsh := h.shape l
      rw [ha', hb'] at hsh
      obtain ⟨hs1, hs2⟩ := hsh
      have hlt : l < s.lists.length := (List.getElem?_eq_some_iff.mp ha').1
      have hlt' : l < t.lists.length := (List.getElem?_eq_some_iff.mp hb').1
      obtain ⟨h', hrun, hr1, hr2⟩ := releaseLoop_spec l a.regions a.props 0 s.heap _ _ _ _ h.regions h.props (by omega)
        (by
          intro j x hx
          have hp : ptrOf s.vars s.lists (.slot l (0 + j)) = x := by simp [ptrOf, ha', hx]
          refine ⟨hp, ?_⟩
          rintro rfl
          have hn := (h.regions.none_iff _).mp hp
          have hj : j < b.length := by rw [← hs1]; exact (List.getElem?_eq_some_iff.mp hx).1
          simp [valOf, hb', hj] at hn)
        (by intro j q hq; simp [pptrOf, ha', hq])
      refine ⟨_, by simp only [ObjArr.release, hrun]; rfl, ?_⟩
      rw [modify_eq_set hb']
      have e1 : ptrOf s.vars (s.lists.set l none) = hide (.slot l) 0 a.regions.length (ptrOf s.vars s.lists) := by
        funext loc
        unfold hide
        cases loc with
        | var v => rw [if_neg (by simp)]; rfl
        | slot l' j =>
          by_cases hl : l' = l
          · subst hl
            simp only [ptrOf, List.getElem?_set_self hlt, ha', Option.join_some, Option.join_none, Option.bind_some, Option.bind_none]
            by_cases hj : j < a.regions.length
            · rw [if_pos ⟨j, by omega, by omega, rfl⟩]
            · rw [List.getElem?_eq_none (by omega)]; split <;> rfl
          · rw [if_neg (by simp [hl])]
            simp only [ptrOf]; rw [List.getElem?_set_ne (by omega)]
      have e2 : pptrOf (s.lists.set l none) = hide (fun j => (l, j)) 0 a.regions.length (pptrOf s.lists) := by
        funext ⟨l', j⟩
        unfold hide
        by_cases hl : l' = l
        · subst hl
          simp only [pptrOf, List.getElem?_set_self hlt, ha', Option.join_some, Option.join_none, Option.bind_some, Option.bind_none]
          by_cases hj : j < a.regions.length
          · rw [if_pos ⟨j, by omega, by omega, rfl⟩]
          · rw [List.getElem?_eq_none (by omega)]; split <;> rfl
        · rw [if_neg (by simp [hl])]
          simp only [pptrOf]; rw [List.getElem?_set_ne (by omega)]
      have e3 : valOf { t with lists := t.lists.set l none } = hide (.slot l) 0 a.regions.length (valOf t) := by
        funext loc
        unfold hide
        cases loc with
        | var v => rw [if_neg (by simp)]; rfl
        | slot l' j =>
          by_cases hl : l' = l
          · subst hl
            simp only [valOf, List.getElem?_set_self hlt', hb', Option.join_some, Option.join_none, Option.bind_some, Option.bind_none]
            by_cases hj : j < a.regions.length
            · rw [if_pos ⟨j, by omega, by omega, rfl⟩]
            · rw [List.getElem?_eq_none (by omega)]; split <;> rfl
          · rw [if_neg (by simp [hl])]
            simp only [valOf]; rw [List.getElem?_set_ne (by omega)]
      have e4 : pvalOf { t with lists := t.lists.set l none } = hide (fun j => (l, j)) 0 a.regions.length (pvalOf t) := by
        funext ⟨l', j⟩
        unfold hide
        by_cases hl : l' = l
        · subst hl
          simp only [pvalOf, List.getElem?_set_self hlt', hb', Option.join_some, Option.join_none, Option.bind_some, Option.bind_none]
          by_cases hj : j < a.regions.length
          · rw [if_pos ⟨j, by omega, by omega, rfl⟩]
          · rw [List.getElem?_eq_none (by omega)]; split <;> rfl
        · rw [if_neg (by simp [hl])]
          simp only [pvalOf]; rw [List.getElem?_set_ne (by omega)]
      refine ⟨h.vars, SameShape.set h.shape l trivial, hr1.congr e1 e3, hr2.congr e2 e4, ?_⟩
      rw [e3]
      intro loc r hr
      unfold hide at hr
      split at hr
      · cases hr
      · exact h.wf loc r hr

/-! ## All steps -/

theorem StoreRel.step {s : ObjStore} {t : AStore} (h : StoreRel s t) (legacy : Bool) (fresh : Nat → List UInt8) (op : ObjOp) (hp : t.Proper op) :
    ∃ s', ObjStore.step legacy fresh s op = .ok s' ∧ StoreRel s' (t.step op) := by
  cases op with
  | newRegion r => exact ⟨_, rfl, h.newRegion hp⟩
  | change v r => exact h.change v hp legacy fresh
  | freeRegion v => exact h.freeRegion v legacy fresh
  | create n => exact ⟨_, rfl, h.create n⟩
  | set l i r => exact h.set legacy fresh l i r hp
  | changeAt l i r => exact h.changeAt l i hp legacy fresh
  | setProperty l i k v => exact h.setProperty l i hp.1 hp.2 legacy fresh
  | append l src => exact h.append legacy fresh l src hp
  | release l => exact h.release legacy fresh l

theorem StoreRel.run (legacy : Bool) (fresh : Nat → List UInt8) (ops : List ObjOp) :
    ∀ {s : ObjStore} {t : AStore}, StoreRel s t → t.ProperRun ops →
      ∃ s', ObjStore.run legacy fresh ops s = .ok s' ∧ StoreRel s' (t.run ops) := by
  induction ops with
  | nil => intro s t h _; exact ⟨s, rfl, h⟩
  | cons op ops ih =>
    intro s t h hp
    obtain ⟨s', h1, h2⟩ := h.step legacy fresh op hp.1
    obtain ⟨s'', h3, h4⟩ := ih h2 hp.2
    exact ⟨s'', by simp only [ObjStore.run, h1, Outcome.bind_ok, h3], h4⟩

theorem StoreRel.start : StoreRel ⟨⟨[], []⟩, [], []⟩ AStore.start := by
  refine ⟨rfl, fun l => by simp [AStore.start, SameShape], ⟨?_, ?_, ?_, ?_⟩, ⟨?_, ?_, ?_, ?_⟩, ?_⟩
  · intro loc; cases loc <;> simp [ptrOf, valOf, AStore.start]
  · intro loc p w h; cases loc <;> simp [ptrOf] at h
  · intro loc loc' p h; cases loc <;> simp [ptrOf] at h
  · intro p v h; simp at h
  · intro loc; simp [pptrOf, pvalOf, AStore.start]
  · intro loc p w h; simp [pptrOf] at h
  · intro loc loc' p h; simp [pptrOf] at h
  · intro p v h; simp at h
  · intro loc r h; cases loc <;> simp [valOf, AStore.start] at h

end Trax
