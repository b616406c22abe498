import Verif.Model.PropertyMaps
import Verif.Lemmas.Values
import Verif.Lemmas.Environment

/-!
# Properties and standard containers: lemmas
-/

namespace Trax.Cpp

open Environ (EnvMap)
open Cpp.Spec (Values Ref)
open Trax.Spec (LastGiven)

/-- What an object shows, once per key. -/
theorem VInv.shown {m : Mem Properties} {s : Values Trax.Spec.AMap} {v : Nat → Option Ref} (h : VInv PropsVal m s v) {x t b}
    (hx : s.vars x = some (.val t b)) :
    ∃ l : List (Str × Str), m.shown x = .ok l ∧ (l.map Prod.fst).Nodup ∧ ∀ k v, (k, v) ∈ l ↔ NoNul k ∧ b k = some v := by
  obtain ⟨w, hw, hc⟩ := h.cases hx
  unfold Mem.shown
  rw [show m.var x = .ok w by simp only [Mem.var, hw]]
  simp only [Outcome.bind_ok]
  rcases hc with ⟨-, hp, hR⟩ | ⟨n, p, -, hp, hobj, hR⟩
  · rw [hp, show b = Trax.Spec.AMap.empty from hR]
    exact ⟨[], rfl, List.nodup_nil, fun k v => by simp [Trax.Spec.AMap.empty]⟩
  · rw [hp]
    refine ⟨p.enumerate, ?_, StrMap.enum_keys_nodup hR.1, fun k u => ?_⟩
    · simp only [Mem.object, hobj, Outcome.map, Outcome.bind_ok]
    · rw [Properties.mem_enumerate hR.1]
      constructor
      · rintro ⟨h1, h2⟩; exact ⟨h1, by rw [← hR.2 k h1]; exact h2⟩
      · rintro ⟨h1, h2⟩; exact ⟨h1, by rw [hR.2 k h1]; exact h2⟩

/-- `from_map`, as a history of `set` calls. -/
theorem VInv.fromMap : ∀ (given : EnvMap) {m : Mem Properties} {s : Values Trax.Spec.AMap} {v : Nat → Option Ref} {x t b},
    VInv PropsVal m s v → s.vars x = some (.val t b) → (∀ e ∈ given, NoNul e.1 ∧ NoNul e.2) →
    ∃ m' s' v' t', m.fromMap x given = .ok m' ∧ VInv PropsVal m' s' v' ∧
      s'.vars x = some (.val t' (given.foldl (fun a e => Trax.Spec.AMap.set a e.1 e.2) b)) ∧ ∀ y, y ≠ x → s'.vars y = s.vars y
  | [], m, s, v, x, t, b, h, hx, _ => ⟨m, s, v, t, rfl, h, hx, fun _ _ => rfl⟩
  | (k, w) :: rest, m, s, v, x, t, b, h, hx, hn => by
    obtain ⟨hk, hw⟩ := hn (k, w) (by simp)
    obtain ⟨m₁, v₁, e₁, h₁⟩ := h.setProperty hx hk hw
    have hx₁ : (s.own x (Trax.Spec.AMap.set b k w)).vars x = some (.val s.next (Trax.Spec.AMap.set b k w)) := by
      simp only [Values.own, Values.put, if_true]
    obtain ⟨m', s', v', t', e', h', hx', hy'⟩ := VInv.fromMap rest h₁ hx₁ (fun e he => hn e (by simp [he]))
    refine ⟨m', s', v', t', ?_, h', hx', fun y hy => ?_⟩
    · simp only [Mem.fromMap]
      rw [cstr_of_noNul hk, cstr_of_noNul hw, e₁]
      exact e'
    · rw [hy' y hy]
      simp only [Values.own, Values.put, if_neg hy]

theorem foldl_amap_other : ∀ (given : List (Str × Str)) (b : Trax.Spec.AMap) (k : Str), k ∉ given.map Prod.fst →
    given.foldl (fun a e => Trax.Spec.AMap.set a e.1 e.2) b k = b k
  | [], _, _, _ => rfl
  | (k', w) :: rest, b, k, h => by
    simp only [List.map_cons, List.mem_cons, not_or] at h
    simp only [List.foldl_cons]
    rw [foldl_amap_other rest _ k h.2]
    simp only [Trax.Spec.AMap.set, if_neg h.1]

theorem foldl_amap_mem : ∀ (given : List (Str × Str)) (b : Trax.Spec.AMap) (k v : Str), (given.map Prod.fst).Nodup → (k, v) ∈ given →
    given.foldl (fun a e => Trax.Spec.AMap.set a e.1 e.2) b k = some v
  | (k', w) :: rest, b, k, v, hd, h => by
    simp only [List.map_cons, List.nodup_cons] at hd
    simp only [List.foldl_cons]
    rcases List.mem_cons.1 h with e | h
    · cases e
      rw [foldl_amap_other rest _ _ hd.1]
      simp only [Trax.Spec.AMap.set, if_true]
    · exact foldl_amap_mem rest _ k v hd.2 h

theorem sorted_nodup {m : EnvMap} (h : Environ.Sorted m) : (m.map Prod.fst).Nodup := by
  rw [List.nodup_iff_pairwise_ne, List.pairwise_map]
  refine List.Pairwise.imp (fun {a b} hab he => ?_) h
  rw [he, Environ.strLt_irrefl] at hab
  cases hab

/-- Maps with the same entries are equal. -/
theorem sorted_ext : ∀ {a b : EnvMap}, Environ.Sorted a → Environ.Sorted b → (∀ k v, (k, v) ∈ a ↔ (k, v) ∈ b) → a = b
  | [], [], _, _, _ => rfl
  | [], (k, v) :: b, _, _, h => absurd ((h k v).2 (by simp)) (by simp)
  | (k, v) :: a, [], _, _, h => absurd ((h k v).1 (by simp)) (by simp)
  | (k, v) :: a, (k', v') :: b, ha, hb, h => by
    have a1 := List.pairwise_cons.1 ha
    have b1 := List.pairwise_cons.1 hb
    have e : (k, v) = (k', v') := by
      rcases List.mem_cons.1 ((h k v).1 (by simp)) with e | h1
      · exact e
      · rcases List.mem_cons.1 ((h k' v').2 (by simp)) with e | h2
        · exact e.symm
        · have := Environ.strLt_trans (a1.1 _ h2) (b1.1 _ h1)
          rw [Environ.strLt_irrefl] at this
          cases this
    cases e
    congr 1
    refine sorted_ext a1.2 b1.2 fun k' v' => ?_
    have h' := h k' v'
    simp only [List.mem_cons] at h'
    constructor
    · intro hm
      rcases h'.1 (.inr hm) with e | e
      · cases e
        have := a1.1 _ hm
        rw [Environ.strLt_irrefl] at this
        cases this
      · exact e
    · intro hm
      rcases h'.2 (.inr hm) with e | e
      · cases e
        have := b1.1 _ hm
        rw [Environ.strLt_irrefl] at this
        cases this
      · exact e

theorem foldl_push (l : List (Str × Str)) (f : Str × Str → List α) : ∀ out : List α,
    l.foldl (fun e kv => e ++ f kv) out = out ++ l.flatMap f := by
  induction l with
  | nil => intro out; simp
  | cons kv l ih => intro out; simp only [List.foldl_cons, ih, List.flatMap_cons, List.append_assoc]

/-- For a list with different keys, the last entry given for a key is the entry. -/
theorem lastGiven_nodup {l : List (Str × Str)} (hd : (l.map Prod.fst).Nodup) {k v : Str} : LastGiven l k v ↔ (k, v) ∈ l := by
  refine ⟨Environ.LastGiven.mem, fun h => ?_⟩
  rcases Environ.lastGiven_or l k with hn | ⟨w, hw⟩
  · exact absurd rfl (hn _ h)
  · have hm := Environ.LastGiven.mem hw
    obtain ⟨i, hi, e1⟩ := List.getElem_of_mem h
    obtain ⟨j, hj, e2⟩ := List.getElem_of_mem hm
    have := (List.Nodup.getElem_inj_iff hd (i := i) (j := j) (hi := by simpa using hi) (hj := by simpa using hj)).1
      (by simp [List.getElem_map, e1, e2])
    subst this
    rw [e1] at e2
    cases e2
    exact hw

end Trax.Cpp
