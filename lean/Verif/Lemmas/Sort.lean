import Verif.Model.Geometry
import Mathlib.Data.List.Perm.Basic
import Mathlib.Data.List.Sort
import Mathlib.Tactic.Ring
import Mathlib.Tactic.Linarith

/-!
# Lemmas about the node sort (C47)
-/

namespace Trax
open Region

/-- The number of pairs in the wrong order. -/
def inversions : List Int → Nat
  | [] => 0
  | a :: l => l.countP (· < a) + inversions l

theorem inversions_swap (xs ys : List Int) (a b : Int) (h : a > b) :
    inversions (xs ++ a :: b :: ys) = inversions (xs ++ b :: a :: ys) + 1 := by
  induction xs with
  | nil =>
    simp only [List.nil_append, inversions, List.countP_cons]
    have h1 : decide (b < a) = true := decide_eq_true h
    have h2 : decide (a < b) = false := decide_eq_false (by omega)
    rw [h1, h2]
    simp
    omega
  | cons x xs ih =>
    simp only [List.cons_append, inversions, ih]
    have : (xs ++ a :: b :: ys).countP (· < x) = (xs ++ b :: a :: ys).countP (· < x) :=
      ((List.Perm.swap b a ys).append_left xs).countP_eq _
    omega

theorem inversions_le (l : List Int) : 2 * inversions l + l.length ≤ l.length * l.length := by
  induction l with
  | nil => simp [inversions]
  | cons a l ih =>
    have : l.countP (· < a) ≤ l.length := List.countP_le_length
    simp only [inversions, List.length_cons]
    rw [show (l.length + 1) * (l.length + 1) = l.length * l.length + 2 * l.length + 1 by ring]
    omega

/-- The elements up to the index are in order. -/
def SortInv (before rest : List Int) : Prop :=
  match rest with
  | [] => before = []
  | a :: _ => ((a :: before).reverse).Pairwise (· ≤ ·)

theorem sortLoop_step (fuel : Nat) (before rest : List Int) (a b : Int) :
    sortLoop (fuel + 1) before (a :: b :: rest) =
      if a > b then
        match before with
        | [] => sortLoop fuel [] (b :: a :: rest)
        | p :: ps => sortLoop fuel ps (p :: b :: a :: rest)
      else sortLoop fuel (a :: before) (b :: rest) := by
  cases before <;> rfl

theorem sortLoop_spec (fuel : Nat) (before rest : List Int) (hinv : SortInv before rest)
    (hfuel : 2 * inversions (before.reverse ++ rest) + rest.length < fuel) :
    ∃ l, sortLoop fuel before rest = some l ∧ l.Pairwise (· ≤ ·) ∧ l.Perm (before.reverse ++ rest) := by
  induction fuel generalizing before rest with
  | zero => omega
  | succ fuel ih =>
    match rest with
    | [] =>
      refine ⟨_, rfl, ?_, ?_⟩
      · simp only [SortInv] at hinv; subst hinv; simp
      · simp
    | [a] =>
      refine ⟨_, rfl, ?_, List.Perm.refl _⟩
      simpa [SortInv] using hinv
    | a :: b :: rest =>
      rw [sortLoop_step]
      by_cases hab : a > b
      · rw [if_pos hab]
        have hs := inversions_swap before.reverse rest a b hab
        have hperm : (before.reverse ++ b :: a :: rest).Perm (before.reverse ++ a :: b :: rest) :=
          (List.Perm.swap a b rest).append_left _
        match before with
        | [] =>
          simp only
          obtain ⟨l, h1, h2, h3⟩ := ih [] (b :: a :: rest) (by simp [SortInv]) (by
            simp only [List.reverse_nil, List.nil_append, List.length_cons] at *; omega)
          exact ⟨l, h1, h2, h3.trans hperm⟩
        | p :: ps =>
          simp only
          have e : (p :: ps).reverse ++ b :: a :: rest = ps.reverse ++ p :: b :: a :: rest := by simp
          obtain ⟨l, h1, h2, h3⟩ := ih ps (p :: b :: a :: rest) (by
              simp only [SortInv, List.reverse_cons] at *
              rw [List.append_assoc] at hinv
              exact hinv.sublist ((List.Sublist.refl _).append (by simp))) (by
            rw [← e]
            simp only [List.length_cons] at *; omega)
          rw [← e] at h3
          exact ⟨l, h1, h2, h3.trans hperm⟩
      · rw [if_neg hab]
        obtain ⟨l, h1, h2, h3⟩ := ih (a :: before) (b :: rest) (by
            simp only [SortInv, List.reverse_cons] at *
            rw [List.pairwise_append]
            refine ⟨hinv, by simp, ?_⟩
            intro x hx y hy
            simp only [List.mem_singleton] at hy
            have hba : a ≤ y := by omega
            rcases List.mem_append.mp hx with hx | hx
            · have := (List.pairwise_append.mp hinv).2.2 x hx a (by simp)
              omega
            · simp at hx; omega) (by
          have e : (a :: before).reverse ++ b :: rest = before.reverse ++ a :: b :: rest := by simp
          rw [e]
          simp only [List.length_cons] at *; omega)
        refine ⟨l, h1, h2, ?_⟩
        simpa using h3

theorem sortNodes_spec (nodes : List Int) :
    ∃ l, sortNodes nodes = .ok l ∧ l.Pairwise (· ≤ ·) ∧ l.Perm nodes := by
  obtain ⟨l, h1, h2, h3⟩ := sortLoop_spec (nodes.length * nodes.length + nodes.length + 1) [] nodes (by
      cases nodes <;> simp [SortInv]) (by
    have := inversions_le nodes
    simp only [List.reverse_nil, List.nil_append]; omega)
  refine ⟨l, ?_, h2, by simpa using h3⟩
  unfold sortNodes
  rw [h1]

end Trax
