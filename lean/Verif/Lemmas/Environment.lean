import Verif.Model.Environment
import Verif.Spec.Environment
import Verif.Lemmas.Decimal

/-!
# Lemmas on environments
-/

namespace Trax.Environ
open Trax.Spec (EnvName Sets Unset HasValue LastValue LastGiven NotGiven)

theorem strLt_irrefl (a : Str) : strLt a a = false := by
  induction a with
  | nil => rfl
  | cons x xs ih => simp [strLt, ih]

theorem strLt_trans {a b c : Str} (h1 : strLt a b = true) (h2 : strLt b c = true) : strLt a c = true := by
  induction a generalizing b c with
  | nil =>
    cases c with
    | nil => cases b <;> simp [strLt] at h2
    | cons z zs => rfl
  | cons x xs ih =>
    cases b with
    | nil => simp [strLt] at h1
    | cons y ys =>
      cases c with
      | nil => simp [strLt] at h2
      | cons z zs =>
        simp only [strLt] at h1 h2 ⊢
        by_cases e1 : x = y
        · subst e1
          by_cases e2 : x = z
          · subst e2; simp only [if_true] at *; exact ih h1 h2
          · simp only [if_true, e2, if_false] at *; exact h2
        · by_cases e2 : y = z
          · subst e2; simp only [e1, if_false, if_true] at *; exact h1
          · simp only [e1, e2, if_false, decide_eq_true_eq] at h1 h2
            have : x ≠ z := by intro e; subst e; omega
            simp only [this, if_false, decide_eq_true_eq]; omega

theorem strLt_total {a b : Str} (h : a ≠ b) (h1 : strLt a b = false) : strLt b a = true := by
  induction a generalizing b with
  | nil => cases b with
    | nil => exact absurd rfl h
    | cons y ys => simp [strLt] at h1
  | cons x xs ih =>
    cases b with
    | nil => rfl
    | cons y ys =>
      simp only [strLt] at h1 ⊢
      by_cases e : x = y
      · subst e
        simp only [if_true] at *
        exact ih (fun e => h (by rw [e])) h1
      · simp only [e, if_false, decide_eq_false_iff_not] at h1
        rw [if_neg (Ne.symm e), decide_eq_true_eq]
        have : x.toNat ≠ y.toNat := fun e' => e (UInt8.toNat.inj e')
        omega

/-- The entries of a map are in order. -/
def Sorted (m : EnvMap) : Prop := m.Pairwise fun a b => strLt a.1 b.1 = true

theorem mem_set {m : EnvMap} (hm : Sorted m) (key value : Str) : ∀ k v : Str,
    (k, v) ∈ m.set key value ↔ (k = key ∧ v = value) ∨ (k ≠ key ∧ (k, v) ∈ m) := by
  induction m with
  | nil => intro k v; simp [EnvMap.set]
  | cons e rest ih =>
    obtain ⟨k0, v0⟩ := e
    intro k v
    have hr := List.pairwise_cons.1 hm
    simp only [EnvMap.set]
    by_cases h1 : k0 = key
    · subst h1
      rw [if_pos rfl]
      constructor
      · intro h
        rcases List.mem_cons.1 h with h | h
        · simp only [Prod.mk.injEq] at h; exact .inl h
        · have hlt := hr.1 _ h
          refine .inr ⟨?_, List.mem_cons_of_mem _ h⟩
          rintro rfl
          rw [strLt_irrefl] at hlt; cases hlt
      · rintro (⟨rfl, rfl⟩ | ⟨hne, h⟩)
        · simp
        · rcases List.mem_cons.1 h with h | h
          · simp only [Prod.mk.injEq] at h; exact absurd h.1 hne
          · exact List.mem_cons_of_mem _ h
    · rw [if_neg h1]
      by_cases h2 : strLt key k0 = true
      · rw [if_pos h2]
        constructor
        · intro h
          rcases List.mem_cons.1 h with h | h
          · simp only [Prod.mk.injEq] at h; exact .inl h
          · refine .inr ⟨?_, h⟩
            intro e
            rcases List.mem_cons.1 h with h' | h'
            · exact h1 (by rw [← e]; exact (congrArg Prod.fst h').symm)
            · have := strLt_trans h2 (hr.1 _ h')
              rw [e, strLt_irrefl] at this; cases this
        · rintro (⟨rfl, rfl⟩ | ⟨_, h⟩)
          · simp
          · exact List.mem_cons_of_mem _ h
      · rw [if_neg h2, List.mem_cons, ih hr.2, List.mem_cons]
        constructor
        · rintro (h | h | ⟨h, h'⟩)
          · simp only [Prod.mk.injEq] at h
            exact .inr ⟨by rw [h.1]; exact h1, .inl (by rw [h.1, h.2])⟩
          · exact .inl h
          · exact .inr ⟨h, .inr h'⟩
        · rintro (h | ⟨h, h' | h'⟩)
          · exact .inr (.inl h)
          · exact .inl h'
          · exact .inr (.inr ⟨h, h'⟩)

theorem sorted_set {m : EnvMap} (hm : Sorted m) (key value : Str) : Sorted (m.set key value) := by
  induction m with
  | nil => simp [EnvMap.set, Sorted]
  | cons e rest ih =>
    obtain ⟨k0, v0⟩ := e
    have hr := List.pairwise_cons.1 hm
    simp only [EnvMap.set]
    by_cases h1 : k0 = key
    · rw [if_pos h1]
      exact List.pairwise_cons.2 ⟨hr.1, hr.2⟩
    · rw [if_neg h1]
      by_cases h2 : strLt key k0 = true
      · rw [if_pos h2]
        refine List.pairwise_cons.2 ⟨?_, hm⟩
        intro a ha
        rcases List.mem_cons.1 ha with h | h
        · subst h; exact h2
        · exact strLt_trans h2 (hr.1 _ h)
      · rw [if_neg h2]
        refine List.pairwise_cons.2 ⟨?_, ih hr.2⟩
        rintro ⟨k, v⟩ ha
        rcases (mem_set hr.2 key value k v).1 ha with ⟨rfl, _⟩ | ⟨_, h⟩
        · exact strLt_total (Ne.symm h1) (by simpa using h2)
        · exact hr.1 _ h

/-- A map after a list of assignments. -/
def assign (m : EnvMap) (l : List (Str × Str)) : EnvMap := l.foldl (fun m e => m.set e.1 e.2) m

theorem assign_sorted {m : EnvMap} (hm : Sorted m) (l : List (Str × Str)) : Sorted (assign m l) := by
  induction l generalizing m with
  | nil => exact hm
  | cons e l ih => exact ih (sorted_set hm _ _)

theorem mem_assign (l : List (Str × Str)) : ∀ {m : EnvMap}, Sorted m → ∀ n v : Str,
    (n, v) ∈ assign m l ↔ LastGiven l n v ∨ (NotGiven l n ∧ (n, v) ∈ m) := by
  induction l with
  | nil =>
    intro m hm n v
    simp [assign, LastGiven, NotGiven]
  | cons e l ih =>
    obtain ⟨k, w⟩ := e
    intro m hm n v
    show (n, v) ∈ assign (m.set k w) l ↔ _
    rw [ih (sorted_set hm k w), mem_set hm]
    constructor
    · rintro (⟨a, b, rfl, h⟩ | ⟨h, ⟨rfl, rfl⟩ | ⟨h1, h2⟩⟩)
      · exact .inl ⟨(k, w) :: a, b, rfl, h⟩
      · exact .inl ⟨[], l, rfl, h⟩
      · refine .inr ⟨?_, h2⟩
        intro p hp
        rcases List.mem_cons.1 hp with rfl | hp
        · exact Ne.symm h1
        · exact h p hp
    · rintro (⟨a, b, he, h⟩ | ⟨h, h2⟩)
      · cases a with
        | nil =>
          simp only [List.nil_append, List.cons.injEq, Prod.mk.injEq] at he
          obtain ⟨⟨rfl, rfl⟩, rfl⟩ := he
          exact .inr ⟨h, .inl ⟨rfl, rfl⟩⟩
        | cons x a =>
          simp only [List.cons_append, List.cons.injEq] at he
          exact .inl ⟨a, b, he.2, h⟩
      · exact .inr ⟨fun p hp => h p (List.mem_cons_of_mem _ hp), .inr ⟨Ne.symm (h (k, w) (by simp)), h2⟩⟩

/-! ## Entries -/

theorem splitVar_some {s k v : Str} : splitVar s = some (k, v) ↔ ch%'=' ∉ k ∧ s = k ++ ch%'=' :: v := by
  induction s generalizing k with
  | nil => simp [splitVar]
  | cons c cs ih =>
    simp only [splitVar]
    by_cases h : c = ch%'='
    · subst h
      simp only [if_true, Option.some.injEq, Prod.mk.injEq]
      constructor
      · rintro ⟨rfl, rfl⟩; simp
      · rintro ⟨h1, h2⟩
        cases k with
        | nil => simp at h2; exact ⟨rfl, h2⟩
        | cons x xs =>
          simp only [List.cons_append, List.cons.injEq] at h2
          exact absurd (by simp [h2.1]) h1
    · rw [if_neg h, Option.map_eq_some_iff]
      constructor
      · rintro ⟨⟨k', v'⟩, h1, h2⟩
        simp only [Prod.mk.injEq] at h2
        obtain ⟨rfl, rfl⟩ := h2
        obtain ⟨g1, g2⟩ := ih.1 h1
        refine ⟨?_, by rw [g2]; rfl⟩
        rw [List.mem_cons]
        rintro (e | e)
        · exact h e.symm
        · exact g1 e
      · rintro ⟨h1, h2⟩
        cases k with
        | nil =>
          simp only [List.nil_append, List.cons.injEq] at h2
          exact absurd h2.1 h
        | cons x xs =>
          simp only [List.cons_append, List.cons.injEq] at h2
          obtain ⟨rfl, h2⟩ := h2
          exact ⟨(xs, v), ih.2 ⟨fun hx => h1 (List.mem_cons_of_mem _ hx), h2⟩, rfl⟩

theorem splitVar_sets {e n v : Str} (hn : ch%'=' ∉ n) : Sets e n v ↔ splitVar e = some (n, v) := by
  rw [splitVar_some]
  exact ⟨fun h => ⟨hn, h⟩, fun h => h.2⟩

theorem copy_eq (m : EnvMap) (environ : List Str) : copyEnvironment m environ = assign m (environ.filterMap splitVar) := by
  unfold copyEnvironment assign
  induction environ generalizing m with
  | nil => rfl
  | cons e es ih =>
    simp only [List.foldl_cons, List.filterMap_cons]
    cases h : splitVar e with
    | none => simpa [h] using ih m
    | some p => simpa [h] using ih _

theorem options_eq (switches : List Str) : environmentOptions switches = assign [] (switches.filterMap splitVar) :=
  copy_eq [] switches

theorem notGiven_filterMap {environ : List Str} {n : Str} (hn : ch%'=' ∉ n) :
    NotGiven (environ.filterMap splitVar) n ↔ Unset environ n := by
  unfold NotGiven Unset
  constructor
  · intro h e he v hs
    exact h (n, v) (List.mem_filterMap.2 ⟨e, he, (splitVar_sets hn).1 hs⟩) rfl
  · rintro h ⟨k, v⟩ hp rfl
    obtain ⟨e, he, hs⟩ := List.mem_filterMap.1 hp
    exact h e he v ((splitVar_sets hn).2 hs)

theorem lastGiven_filterMap {environ : List Str} {n v : Str} (hn : ch%'=' ∉ n) :
    LastGiven (environ.filterMap splitVar) n v ↔ LastValue environ n v := by
  constructor
  · rintro ⟨a, b, h, hb⟩
    obtain ⟨l1, l2, rfl, h1, h2⟩ := List.filterMap_eq_append_iff.1 h
    obtain ⟨m1, e, m2, rfl, h3, h4, h5⟩ := List.filterMap_eq_cons_iff.1 h2
    refine ⟨l1 ++ m1, e, m2, by simp, (splitVar_sets hn).2 h4, ?_⟩
    rw [← notGiven_filterMap hn, h5]
    exact hb
  · rintro ⟨a, e, b, rfl, hs, hu⟩
    refine ⟨a.filterMap splitVar, b.filterMap splitVar, ?_, ?_⟩
    · rw [List.filterMap_append, List.filterMap_cons, (splitVar_sets hn).1 hs]
    · exact (notGiven_filterMap hn).2 hu

theorem sorted_nil : Sorted [] := List.Pairwise.nil

theorem lastGiven_or (l : List (Str × Str)) (n : Str) : NotGiven l n ∨ ∃ v, LastGiven l n v := by
  induction l with
  | nil => left; simp [NotGiven]
  | cons e l ih =>
    rcases ih with h | ⟨v, a, b, rfl, h⟩
    · by_cases he : e.1 = n
      · right
        exact ⟨e.2, [], l, by rw [← he]; rfl, h⟩
      · left
        intro p hp
        rcases List.mem_cons.1 hp with rfl | hp
        · exact he
        · exact h p hp
    · right
      exact ⟨v, e :: a, b, rfl, h⟩

theorem LastGiven.mem {l : List (Str × Str)} {n v : Str} (h : LastGiven l n v) : (n, v) ∈ l := by
  obtain ⟨a, b, rfl, _⟩ := h; simp

theorem LastGiven.unique {l : List (Str × Str)} {n v w : Str} (h : LastGiven l n v) (h' : LastGiven l n w) : v = w := by
  have hs := assign_sorted sorted_nil l
  have h1 := (mem_assign l sorted_nil n v).2 (.inl h)
  have h2 := (mem_assign l sorted_nil n w).2 (.inl h')
  apply Classical.byContradiction
  intro hne
  have key : ∀ m : EnvMap, Sorted m → (n, v) ∈ m → (n, w) ∈ m → False := by
    intro m hm
    induction m with
    | nil => intro h; simp at h
    | cons e m ih =>
      have hr := List.pairwise_cons.1 hm
      intro a b
      rcases List.mem_cons.1 a with a | a <;> rcases List.mem_cons.1 b with b | b
      · rw [← a] at b; simp only [Prod.mk.injEq, true_and] at b; exact hne b.symm
      · have := hr.1 _ b; rw [← a] at this; simp [strLt_irrefl] at this
      · have := hr.1 _ a; rw [← b] at this; simp [strLt_irrefl] at this
      · exact ih hr.2 a b
  exact key _ hs h1 h2

theorem NotGiven.not {l : List (Str × Str)} {n v : Str} (h : NotGiven l n) (h' : LastGiven l n v) : False :=
  h _ (LastGiven.mem h') rfl

theorem cstr_eq {s : Str} (h : (0 : UInt8) ∉ s) : cstr s = s := by
  unfold cstr
  induction s with
  | nil => rfl
  | cons x xs ih =>
    rw [List.mem_cons, not_or] at h
    rw [List.takeWhile_cons, if_pos (by simpa using Ne.symm h.1), ih h.2]

/-- A map all of whose names and values can be handed over to a child. -/
def Clean (m : EnvMap) : Prop := ∀ k v : Str, (k, v) ∈ m → ch%'=' ∉ k ∧ (0 : UInt8) ∉ k ∧ (0 : UInt8) ∉ v

theorem child_mem {m : EnvMap} (hc : Clean m) {n v : Str} (hn : ch%'=' ∉ n) :
    (∃ e ∈ childEnviron false m 0 0, Sets e n v) ↔ (n, v) ∈ m := by
  simp only [childEnviron, Bool.false_eq_true, if_false, List.mem_map]
  constructor
  · rintro ⟨e, ⟨s, ⟨⟨k, w⟩, hk, rfl⟩, rfl⟩, hs⟩
    obtain ⟨h1, h2, h3⟩ := hc k w hk
    have h0 : (0 : UInt8) ∉ k ++ b!"=" ++ w := by
      simp only [List.mem_append, not_or]
      exact ⟨⟨h2, by decide⟩, h3⟩
    have hsp : splitVar (k ++ b!"=" ++ w) = some (k, w) := splitVar_some.2 ⟨h1, by simp⟩
    rw [cstr_eq h0, splitVar_sets hn, hsp] at hs
    cases hs
    exact hk
  · intro hm
    obtain ⟨h1, h2, h3⟩ := hc n v hm
    have h0 : (0 : UInt8) ∉ n ++ b!"=" ++ v := by
      simp only [List.mem_append, not_or]
      exact ⟨⟨h2, by decide⟩, h3⟩
    exact ⟨_, ⟨_, ⟨(n, v), hm, rfl⟩, rfl⟩, by rw [cstr_eq h0]; simp [Sets]⟩

theorem getenv_none {environ : List Str} {n : Str} (hu : Unset environ n) : getenv n environ = none := by
  induction environ with
  | nil => rfl
  | cons e es ih =>
    rw [getenv, if_neg, ih fun e' he' => hu e' (List.mem_cons_of_mem _ he')]
    intro h
    obtain ⟨v, hv⟩ := List.isPrefixOf_iff_prefix.1 h
    exact hu e (by simp) v (by rw [← hv]; simp [Sets])

theorem getenv_some {environ : List Str} {n v : Str} (h : HasValue environ n v) : getenv n environ = some v := by
  induction environ with
  | nil => obtain ⟨⟨e, he, _⟩, _⟩ := h; simp at he
  | cons e es ih =>
    rw [getenv]
    by_cases hp : (n ++ b!"=").isPrefixOf e = true
    · rw [if_pos hp]
      obtain ⟨w, hw⟩ := List.isPrefixOf_iff_prefix.1 hp
      have hs : Sets e n w := by rw [← hw]; simp [Sets]
      have := h.2 e (by simp) w hs
      subst this
      rw [← hw]
      simp [List.drop_append]
    · rw [if_neg hp]
      refine ih ⟨?_, fun e' he' => h.2 e' (List.mem_cons_of_mem _ he')⟩
      obtain ⟨e', he', hs⟩ := h.1
      rcases List.mem_cons.1 he' with rfl | he'
      · refine absurd (List.isPrefixOf_iff_prefix.2 ⟨v, ?_⟩) hp
        rw [hs]; simp
      · exact ⟨e', he', hs⟩

end Trax.Environ
