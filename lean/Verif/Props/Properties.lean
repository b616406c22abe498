import Verif.Lemmas.Properties

/-!
# Property theorems C16–C19: property objects
-/

namespace Trax
open Spec

/-! ### The properties -/

/-- **C16.** After any history of API calls (create, set, clear, copy, append) on any number
of property objects, `trax_properties_get` and `trax_properties_has` answer for every key as
the abstract maps of the specification do. -/
theorem C16_properties_map (ops : List Spec.PropOp) (hc : ∀ op ∈ ops, op.CStrings) :
    (runPropOps ops).length = (runProps ops).length ∧
    ∀ i (h : i < (runPropOps ops).length) (h' : i < (runProps ops).length) (k : Str), NoNul k →
      ((runPropOps ops)[i]).get k = (runProps ops)[i] k ∧
      ((runPropOps ops)[i]).has k = ((runProps ops)[i] k).isSome := by
  have hr := storeRep ops hc
  refine ⟨hr.1, fun i h h' k hk => ?_⟩
  have hp := hr.2 i _ _ (List.getElem?_eq_getElem h) (List.getElem?_eq_getElem h')
  exact ⟨hp.2 k hk, by rw [Properties.has_eq, hp.2 k hk]⟩

/-- **C17.** After any history, enumerating an object calls back exactly once for every key
of the abstract map (no key twice, every pair current), and the count is the number of
callbacks. -/
theorem C17_enumeration (ops : List Spec.PropOp) (hc : ∀ op ∈ ops, op.CStrings)
    (i : Nat) (h : i < (runPropOps ops).length) (h' : i < (runProps ops).length) :
    (∀ k v, NoNul k → ((k, v) ∈ ((runPropOps ops)[i]).enumerate ↔ (runProps ops)[i] k = some v)) ∧
    (∀ kv ∈ ((runPropOps ops)[i]).enumerate, NoNul kv.1) ∧
    (((runPropOps ops)[i]).enumerate.map Prod.fst).Nodup ∧
    ((runPropOps ops)[i]).count = ((runPropOps ops)[i]).enumerate.length := by
  have hr := storeRep ops hc
  have hp := hr.2 i _ _ (List.getElem?_eq_getElem h) (List.getElem?_eq_getElem h')
  refine ⟨fun k v hk => ?_, fun kv hkv => ?_, StrMap.enum_keys_nodup hp.1, StrMap.count_eq _⟩
  · rw [Properties.mem_enumerate hp.1, hp.2 k hk]
    exact ⟨And.right, fun h => ⟨hk, h⟩⟩
  · exact ((Properties.mem_enumerate hp.1 kv.1 kv.2).mp hkv).1

/-- **C18.** A copy made at any time has the contents of the original at that time, and no
later history that does not address the copy changes it, nor does a history that only
addresses the copy change any other object. Here `ops₁` is the history before the copy,
`ops₂` the one after; the copy gets the next free number `n`. -/
theorem C18_copy (ops₁ ops₂ : List Spec.PropOp)
    (hc₁ : ∀ op ∈ ops₁, op.CStrings) (hc₂ : ∀ op ∈ ops₂, op.CStrings)
    (i : Nat) (hi : i < (runPropOps ops₁).length) :
    let before := runPropOps ops₁
    let n := before.length
    let after := runPropOps (ops₁ ++ .copy i :: ops₂)
    -- nobody addresses the copy: it keeps the contents the original had
    ((∀ op ∈ ops₂, ∀ k v, op ≠ .set n k v ∧ op ≠ .clear n ∧ ∀ j, op ≠ .append j n) →
      ∃ c, after[n]? = some c ∧ ∀ k, NoNul k → c.get k = before[i].get k) ∧
    -- only the copy is addressed: all earlier objects keep their contents
    ((∀ op ∈ ops₂, ∃ k v, op = .set n k v ∨ op = .clear n) →
      ∀ j (hj : j < n), ∃ c, after[j]? = some c ∧ ∀ k, NoNul k → c.get k = before[j].get k) := by
  intro before n after
  have hb := storeRep ops₁ hc₁
  have happ : after = ops₂.foldl PropOp.run (before ++ [before[i].copy]) := by
    show runPropOps (ops₁ ++ .copy i :: ops₂) = _
    unfold runPropOps
    rw [List.foldl_append, List.foldl_cons]
    congr 1
    show PropOp.run before (.copy i) = _
    simp only [PropOp.run]
    rw [List.getElem?_eq_getElem hi]
  have hcopy : before[i].copy = before[i] := by
    have hi' : i < (runProps ops₁).length := by rw [← hb.1]; exact hi
    exact (hb.2 i _ _ (List.getElem?_eq_getElem hi) (List.getElem?_eq_getElem hi')).copy
  rw [hcopy] at happ
  constructor
  · intro haddr
    refine ⟨before[i], ?_, fun k _ => rfl⟩
    rw [happ]
    have : ∀ (l : List Properties), l[n]? = some before[i] →
        (ops₂.foldl PropOp.run l)[n]? = some before[i] := by
      clear happ hc₂
      induction ops₂ with
      | nil => intro l hl; exact hl
      | cons op t ih =>
        intro l hl
        rw [List.foldl_cons]
        apply ih (fun o ho => haddr o (by simp [ho]))
        have hop := haddr op (by simp)
        have hn : n < l.length := (List.getElem?_eq_some_iff.mp hl).1
        cases op with
        | create => rw [PropOp.run, List.getElem?_append_left hn]; exact hl
        | set j k v =>
          have : j ≠ n := fun e => (hop k v).1 (by rw [e])
          rw [PropOp.run, getElem?_modify_ne _ _ _ _ this]; exact hl
        | clear j =>
          have : j ≠ n := fun e => (hop [] []).2.1 (by rw [e])
          rw [PropOp.run, getElem?_modify_ne _ _ _ _ this]; exact hl
        | copy j =>
          simp only [PropOp.run]
          split
          · rw [List.getElem?_append_left hn]; exact hl
          · exact hl
        | append a j =>
          have : j ≠ n := fun e => (hop [] []).2.2 a (by rw [e])
          simp only [PropOp.run]
          split
          · rw [getElem?_modify_ne _ _ _ _ this]; exact hl
          · exact hl
    exact this _ (by rw [List.getElem?_append_right (Nat.le_refl _)]; simp)
  · intro haddr j hj
    refine ⟨before[j], ?_, fun k _ => rfl⟩
    rw [happ]
    have : ∀ (l : List Properties), l[j]? = some before[j] →
        (ops₂.foldl PropOp.run l)[j]? = some before[j] := by
      clear happ hc₂
      induction ops₂ with
      | nil => intro l hl; exact hl
      | cons op t ih =>
        intro l hl
        rw [List.foldl_cons]
        apply ih (fun o ho => haddr o (by simp [ho]))
        obtain ⟨k, v, h1 | h1⟩ := haddr op (by simp)
        · subst h1
          rw [PropOp.run, getElem?_modify_ne _ _ _ _ (by omega)]; exact hl
        · subst h1
          rw [PropOp.run, getElem?_modify_ne _ _ _ _ (by omega)]; exact hl
    exact this _ (by rw [List.getElem?_append_left hj]; exact List.getElem?_eq_getElem hj)

/-- **C19, violated part.** With `overwrite = 0` a key that the drain already has is
overwritten all the same (the flag is tested with a logical instead of a bitwise and). -/
theorem C19_append_keeps_existing_false :
    ¬ ∀ (src drain : Properties), src.WF → drain.WF → ∀ k v, NoNul k → drain.get k = some v →
        (Properties.append src drain false).get k = some v := by
  intro h
  have := h (Properties.create.set b!"a" b!"1") (Properties.create.set b!"a" b!"2")
    (Properties.wf_set Properties.wf_create _ _) (Properties.wf_set Properties.wf_create _ _)
    b!"a" b!"2" (by decide) (by decide +kernel)
  revert this
  decide +kernel

/-- **C19, what holds.** For objects with arbitrary histories and both values of the flag,
`append` gives the drain all pairs of the source and keeps the drain's pairs for keys that
the source does not have. Missing from the full claim: with `overwrite = 0` the drain's
value should win for common keys (see `C19_append_keeps_existing_false`). -/
theorem C19_append_partial (ops : List Spec.PropOp) (hc : ∀ op ∈ ops, op.CStrings)
    (i j : Nat) (hi : i < (runPropOps ops).length) (hj : j < (runPropOps ops).length)
    (overwrite : Bool) (k : Str) (hk : NoNul k) :
    (Properties.append (runPropOps ops)[i] (runPropOps ops)[j] overwrite).get k =
      ((runPropOps ops)[i].get k).or ((runPropOps ops)[j].get k) := by
  have hr := storeRep ops hc
  have hp := hr.2 i _ _ (List.getElem?_eq_getElem hi) (List.getElem?_eq_getElem (hr.1 ▸ hi))
  have hd := hr.2 j _ _ (List.getElem?_eq_getElem hj) (List.getElem?_eq_getElem (hr.1 ▸ hj))
  rw [(hp.append hd overwrite).2 k hk, hp.2 k hk, hd.2 k hk]
  rfl

/-! ### Non-vacuity -/

/-- A history with colliding keys ("a", "A" are both in bucket 6 of 32), overwriting,
copying and clearing. -/
def propDemo : List Spec.PropOp :=
  [.create, .set 0 b!"a" b!"1", .set 0 b!"A" b!"2", .set 0 b!"a" b!"", .copy 0, .clear 0,
   .set 1 b!"A" b!"3", .set 0 b!"x" b!"y", .append 0 1]

example : ∀ op ∈ propDemo, op.CStrings := by
  intro op h
  simp only [propDemo, List.mem_cons, List.not_mem_nil, or_false] at h
  rcases h with h | h | h | h | h | h | h | h | h <;> subst h <;> simp [PropOp.CStrings] <;> decide

example : StrMap.index Properties.create b!"a" = StrMap.index Properties.create b!"A" := by
  decide +kernel

example : (runPropOps propDemo).length = 2 ∧
    ((runPropOps propDemo)[1]?.map fun p => (p.get b!"a", p.get b!"A", p.get b!"x", p.count)) =
      some (some [], some b!"3", some b!"y", 3) := by decide +kernel

end Trax
