import Verif.Lemmas.Wrapper
import Verif.Spec.ListWrapper

/-!
# Lemmas on lists of shared objects
-/

namespace Trax.Cpp
open Trax.Cpp.Spec (Ref ListState)

variable {α : Type}

/-! ## Contents of objects -/

theorem map_ok {β γ : Type} {x : Outcome β} {f : β → γ} {c : γ} (h : x.map f = .ok c) : ∃ b, x = .ok b ∧ c = f b := by
  cases x with
  | ok b => exact ⟨b, rfl, by simpa [Outcome.map] using h.symm⟩
  | abort => cases h
  | ub => cases h

theorem bind_ok' {β γ : Type} {x : Outcome β} {f : β → Outcome γ} {c : γ} (h : x.bind f = .ok c) : ∃ b, x = .ok b ∧ f b = .ok c := by
  cases x with
  | ok b => exact ⟨b, rfl, h⟩
  | abort => cases h
  | ub => cases h

/-- No object appears, and no content changes. -/
def Keeps (m m' : Mem α) : Prop := ∀ (n : Nat) (b : α), m'.objects[n]? = some (some b) → m.objects[n]? = some (some b)

theorem Keeps.refl (m : Mem α) : Keeps m m := fun _ _ h => h
theorem Keeps.trans {m m' m'' : Mem α} (h : Keeps m m') (h' : Keeps m' m'') : Keeps m m'' := fun n b hb => h n b (h' n b hb)
theorem keeps_of_eq {m m' : Mem α} (h : m'.objects = m.objects) : Keeps m m' := fun n b hb => by rw [← h]; exact hb

theorem keeps_setPtr {m m' : Mem α} {x p} (h : m.setPtr x p = .ok m') : Keeps m m' := by
  obtain ⟨w, -, rfl⟩ := map_ok h
  exact keeps_of_eq rfl

theorem keeps_dropCounter {m m' : Mem α} {x} (h : m.dropCounter x = .ok m') : Keeps m m' := by
  obtain ⟨w, -, rfl⟩ := map_ok h
  exact keeps_of_eq rfl

theorem keeps_acquire {m m' : Mem α} {x} (h : m.acquire x = .ok m') : Keeps m m' := by
  unfold Mem.acquire at h
  obtain ⟨w, -, h⟩ := bind_ok' h
  split at h
  · cases h; exact keeps_of_eq rfl
  · obtain ⟨n, -, rfl⟩ := map_ok h
    exact keeps_of_eq rfl

theorem keeps_cleanup {m m' : Mem α} {x} (h : m.cleanup x = .ok m') : Keeps m m' := by
  unfold Mem.cleanup at h
  obtain ⟨w, -, h⟩ := bind_ok' h
  split at h
  · cases h; exact Keeps.refl _
  · obtain ⟨n, -, rfl⟩ := map_ok h
    intro k b hb
    simp only [List.getElem?_set] at hb
    split at hb
    · split at hb <;> cases hb
    · exact hb
  · cases h

theorem keeps_release {m m' : Mem α} {x} (h : m.release x = .ok m') : Keeps m m' := by
  unfold Mem.release at h
  obtain ⟨w, -, h⟩ := bind_ok' h
  split at h
  · cases h; exact Keeps.refl _
  · obtain ⟨n, -, h⟩ := bind_ok' h
    dsimp only at h
    split at h
    · obtain ⟨m₁, h1, h⟩ := bind_ok' h
      intro k b hb
      exact keeps_cleanup h1 _ _ (keeps_dropCounter h k b hb)
    · intro k b hb
      exact keeps_dropCounter h k b hb

theorem wrapNew_objects {m m' : Mem α} {x : Nat} {a : α} (h : m.wrapNew x a = .ok m') (n : Nat) (b : α)
    (hb : m'.objects[n]? = some (some b)) : m.objects[n]? = some (some b) ∨ (n = m.objects.length ∧ a = b) := by
  unfold Mem.wrapNew at h
  simp only [Mem.newObject] at h
  obtain ⟨m₁, h1, h⟩ := bind_ok' h
  obtain ⟨m₂, h2, h⟩ := bind_ok' h
  have := keeps_release h1 _ _ (keeps_acquire h2 _ _ (keeps_setPtr h _ _ hb))
  simp only [List.getElem?_append] at this
  split at this
  · exact .inl this
  · next hlt =>
    have : n - m.objects.length = 0 := by
      by_contra hne
      rw [List.getElem?_eq_none (by simp; omega)] at this
      cases this
    have e : n = m.objects.length := by omega
    subst e
    rename_i hb'
    simp only [Nat.sub_self, List.getElem?_cons_zero, Option.some.injEq] at hb'
    exact .inr ⟨rfl, hb'⟩

theorem step_objects {k : Kind} {m m' : Mem α} {op : Op α} (h : step k m op = .ok m') (n : Nat) (b : α)
    (hb : m'.objects[n]? = some (some b)) :
    m.objects[n]? = some (some b) ∨ (n = m.objects.length ∧ ListState.content op = some b) := by
  cases op with
  | construct x => cases h; exact .inl hb
  | create x a =>
    rcases wrapNew_objects h n b hb with h | ⟨h, rfl⟩
    · exact .inl h
    · exact .inr ⟨h, rfl⟩
  | createList x a =>
    cases h
    simp only [Mem.constructList, Mem.newObject, Mem.setVar, List.getElem?_append] at hb
    split at hb
    · exact .inl hb
    · next hlt =>
      have : n - m.objects.length = 0 := by
        by_contra hne
        rw [List.getElem?_eq_none (by simp; omega)] at hb
        cases hb
      have e : n = m.objects.length := by omega
      subst e
      simp only [Nat.sub_self, List.getElem?_cons_zero, Option.some.injEq] at hb
      exact .inr ⟨rfl, by rw [← hb]; rfl⟩
  | copy x y =>
    unfold step Mem.copyConstruct at h
    obtain ⟨o, -, h⟩ := bind_ok' h
    obtain ⟨m₁, h1, h⟩ := bind_ok' h
    exact .inl (keeps_acquire h1 _ _ (keeps_setPtr h _ _ hb))
  | move x y =>
    obtain ⟨o, -, rfl⟩ := map_ok h
    exact .inl hb
  | assign x y =>
    unfold step Mem.assign at h
    obtain ⟨m₁, h1, h⟩ := bind_ok' h
    obtain ⟨o, -, h⟩ := bind_ok' h
    obtain ⟨w, -, h⟩ := bind_ok' h
    obtain ⟨m₂, h2, h⟩ := bind_ok' h
    obtain ⟨o', -, h⟩ := bind_ok' h
    exact .inl (keeps_release h1 _ _ (keeps_acquire h2 _ _ (keeps_setPtr h _ _ hb)))
  | moveAssign x y =>
    unfold step Mem.moveAssign at h
    obtain ⟨w, -, h⟩ := bind_ok' h
    obtain ⟨o, -, rfl⟩ := map_ok h
    exact .inl hb
  | wrap x a =>
    rcases wrapNew_objects h n b hb with h | ⟨h, rfl⟩
    · exact .inl h
    · exact .inr ⟨h, rfl⟩
  | destroy x =>
    obtain ⟨m₁, h1, rfl⟩ := map_ok h
    exact .inl (keeps_release h1 _ _ hb)

/-- The invariant of the elements, with the contents of the objects. -/
structure Good (m : Mem α) (v : Nat → Option Ref) (cr : List α) : Prop where
  inv : Inv m v fun _ => False
  len : m.objects.length = cr.length
  val : ∀ (n : Nat) (b : α), m.objects[n]? = some (some b) → cr[n]? = some b

theorem Good.step {m : Mem α} {v v' : Nat → Option Ref} {cr : List α} {n : Nat} (h : Good m v cr) (k : Kind) (op : Op α)
    (hc : Spec.State.Careful ⟨v, cr.length⟩ op) (hs : Spec.State.step ⟨v, cr.length⟩ op = some ⟨v', n⟩)
    (hn : n = cr.length + (ListState.content op).toList.length) :
    ∃ m', Cpp.step k m op = .ok m' ∧ Good m' v' (cr ++ (ListState.content op).toList) := by
  obtain ⟨m', h1, h2, h3⟩ := h.inv.step (s := ⟨v, cr.length⟩) k op h.len hc hs
  refine ⟨m', h1, h2, by rw [h3, List.length_append, ← hn], ?_⟩
  intro i b hb
  rcases step_objects h1 i b hb with h' | ⟨rfl, h'⟩
  · have := h.val i b h'
    rw [List.getElem?_append_left (by rw [← h.len]; exact (List.getElem?_eq_some_iff.mp h').1)]
    exact this
  · rw [h.len, h', List.getElem?_append_right (Nat.le_refl _)]
    simp

theorem Good.construct {m : Mem α} {v cr} (h : Good m v cr) (k : Kind) {x : Nat} (hx : v x = none) :
    ∃ m', Cpp.step k m (.construct x) = .ok m' ∧ Good m' (upd v x (some .nothing)) cr := by
  obtain ⟨m', h1, h2⟩ := h.step k (.construct x) (v' := upd v x (some .nothing)) (n := cr.length) trivial
    (by simp only [Spec.State.step, hx]; rfl) rfl
  exact ⟨m', h1, by simpa [ListState.content] using h2⟩

theorem Good.destroy {m : Mem α} {v cr} (h : Good m v cr) (k : Kind) {x : Nat} {r : Ref} (hx : v x = some r) :
    ∃ m', Cpp.step k m (.destroy x) = .ok m' ∧ Good m' (upd v x none) cr := by
  obtain ⟨m', h1, h2⟩ := h.step k (.destroy x) (v' := upd v x none) (n := cr.length) trivial
    (by simp only [Spec.State.step, hx]; rfl) rfl
  exact ⟨m', h1, by simpa [ListState.content] using h2⟩

theorem Good.copy {m : Mem α} {v cr} (h : Good m v cr) {x y : Nat} {r : Ref} (hx : v x = none) (hy : v y = some r) (hr : r ≠ .moved) :
    ∃ m', m.copyConstruct x y = .ok m' ∧ Good m' (upd v x (some r)) cr := by
  obtain ⟨m', h1, h2⟩ := h.step .image (.copy x y) (v' := upd v x (some r)) (n := cr.length)
    (by show v y ≠ _; rw [hy]; simpa using hr) (by simp only [Spec.State.step, hx, hy]; rfl) rfl
  exact ⟨m', h1, by simpa [ListState.content] using h2⟩

theorem Good.assign {m : Mem α} {v cr} (h : Good m v cr) {x y : Nat} {q r : Ref} (hxy : x ≠ y) (hx : v x = some q) (hy : v y = some r) (hr : r ≠ .moved) :
    ∃ m', m.assign x y = .ok m' ∧ Good m' (upd v x (some r)) cr := by
  obtain ⟨m', h1, h2⟩ := h.step .image (.assign x y) (v' := upd v x (some r)) (n := cr.length)
    ⟨hxy, by show v y ≠ _; rw [hy]; simpa using hr⟩ (by simp only [Spec.State.step, hx, hy]; rfl) rfl
  exact ⟨m', h1, by simpa [ListState.content] using h2⟩

theorem Good.wrap {m : Mem α} {v cr} (h : Good m v cr) {x : Nat} {q : Ref} (hx : v x = some q) (a : α) :
    ∃ m', m.wrapNew x a = .ok m' ∧ Good m' (upd v x (some (.to cr.length))) (cr ++ [a]) := by
  obtain ⟨m', h1, h2⟩ := h.step .image (.wrap x a) (v' := upd v x (some (.to cr.length))) (n := cr.length + 1)
    trivial (by simp only [Spec.State.step, hx]; rfl) rfl
  exact ⟨m', h1, h2⟩

/-! ## The variables of a program with lists -/

/-- What the variables stand for. -/
def view (s : ListState α) : Nat → Option Ref := fun z =>
  if z % 2 = 1 then (s.lists (Nat.unpair (z / 2)).1).bind fun es => es[(Nat.unpair (z / 2)).2]?.map fun e => e.getD .nothing
  else if z = 0 then none else s.vars (z / 2 - 1)

theorem elem_odd (l i : Nat) : elem l i % 2 = 1 := by unfold elem; omega
theorem elem_div (l i : Nat) : elem l i / 2 = Nat.pair l i := by unfold elem; omega
theorem elem_inj {l i l' i' : Nat} (h : elem l i = elem l' i') : l = l' ∧ i = i' := by
  unfold elem at h
  exact Nat.pair_eq_pair.mp (by omega)
theorem user_inj {x y : Nat} (h : user x = user y) : x = y := by unfold user at h; omega
theorem user_ne_elem (x l i : Nat) : user x ≠ elem l i := by unfold user elem; omega
theorem param_ne_elem (l i : Nat) : param ≠ elem l i := by unfold param elem; omega
theorem param_ne_user (x : Nat) : param ≠ user x := by unfold param user; omega

theorem view_user (s : ListState α) (x : Nat) : view s (user x) = s.vars x := by
  unfold view user
  rw [if_neg (by omega), if_neg (by omega)]
  congr 1
  omega

theorem view_elem (s : ListState α) (l i : Nat) : view s (elem l i) = (s.lists l).bind fun es => es[i]?.map fun e => e.getD .nothing := by
  unfold view
  rw [if_pos (elem_odd l i), elem_div, Nat.unpair_pair]

theorem view_param (s : ListState α) : view s param = none := by
  unfold view param
  rw [if_neg (by omega), if_pos rfl]

/-- A number is one of a variable, of an element, or of the parameter. -/
theorem var_cases (z : Nat) : z = param ∨ (∃ x, z = user x) ∨ ∃ l i, z = elem l i := by
  by_cases h : z % 2 = 1
  · right; right
    refine ⟨(Nat.unpair (z / 2)).1, (Nat.unpair (z / 2)).2, ?_⟩
    unfold elem
    rw [Nat.pair_unpair]
    omega
  · by_cases h0 : z = 0
    · exact .inl h0
    · exact .inr (.inl ⟨z / 2 - 1, by unfold user; omega⟩)

theorem view_ext {f g : Nat → Option Ref} (h0 : f param = g param) (h1 : ∀ x, f (user x) = g (user x)) (h2 : ∀ l i, f (elem l i) = g (elem l i)) :
    f = g := by
  funext z
  rcases var_cases z with rfl | ⟨x, rfl⟩ | ⟨l, i, rfl⟩
  · exact h0
  · exact h1 x
  · exact h2 l i

/-- The elements `i`, ..., `i + n - 1` of list `l` get the value `c`. -/
def fill (v : Nat → Option Ref) (l i n : Nat) (c : Option Ref) : Nat → Option Ref := fun z =>
  if z % 2 = 1 ∧ (Nat.unpair (z / 2)).1 = l ∧ i ≤ (Nat.unpair (z / 2)).2 ∧ (Nat.unpair (z / 2)).2 < i + n then c else v z

theorem fill_param (v : Nat → Option Ref) (l i n c) : fill v l i n c param = v param := by
  unfold fill param; rw [if_neg (by omega)]
theorem fill_user (v : Nat → Option Ref) (l i n c) (x : Nat) : fill v l i n c (user x) = v (user x) := by
  unfold fill user; rw [if_neg (by omega)]
theorem fill_elem (v : Nat → Option Ref) (l i n c) (l' i' : Nat) :
    fill v l i n c (elem l' i') = if l' = l ∧ i ≤ i' ∧ i' < i + n then c else v (elem l' i') := by
  unfold fill
  rw [elem_div, Nat.unpair_pair]
  simp only [elem_odd, true_and]

theorem fill_zero (v : Nat → Option Ref) (l i c) : fill v l i 0 c = v := by
  apply view_ext
  · rw [fill_param]
  · intro x; rw [fill_user]
  · intro l' i'; rw [fill_elem, if_neg (by omega)]

theorem fill_succ (v : Nat → Option Ref) (l i n c) : fill (upd v (elem l i) c) l (i + 1) n c = fill v l i (n + 1) c := by
  apply view_ext
  · rw [fill_param, fill_param, upd_ne _ _ (param_ne_elem _ _)]
  · intro x; rw [fill_user, fill_user, upd_ne _ _ (user_ne_elem _ _ _)]
  · intro l' i'
    rw [fill_elem, fill_elem]
    by_cases h : l' = l ∧ i' = i
    · obtain ⟨rfl, rfl⟩ := h
      rw [upd_same, if_pos (show l' = l' ∧ i' ≤ i' ∧ i' < i' + (n + 1) by omega)]
      split <;> rfl
    · rw [upd_ne _ _ (fun e => h (elem_inj e))]
      by_cases h2 : l' = l
      · have h3 : i' ≠ i := fun e => h ⟨h2, e⟩
        by_cases h4 : i + 1 ≤ i' ∧ i' < i + 1 + n
        · rw [if_pos ⟨h2, h4⟩, if_pos ⟨h2, by omega, by omega⟩]
        · rw [if_neg (fun h => h4 h.2), if_neg (fun h => h4 ⟨by omega, by omega⟩)]
      · rw [if_neg (fun h => h2 h.1), if_neg (fun h => h2 h.1)]

theorem Good.each_destroy (k : ListKind α) (l : Nat) : ∀ (n i : Nat) {m : Mem α} {v : Nat → Option Ref} {cr : List α}, Good m v cr →
    (∀ j, i ≤ j → j < i + n → v (elem l j) ≠ none) →
    ∃ m', ListMem.each k .destroy l i n m = .ok m' ∧ Good m' (fill v l i n none) cr
  | 0, i, m, v, cr, h, _ => ⟨m, rfl, by rw [fill_zero]; exact h⟩
  | n + 1, i, m, v, cr, h, hv => by
    obtain ⟨r, hr⟩ := Option.ne_none_iff_exists'.mp (hv i (Nat.le_refl _) (by omega))
    obtain ⟨m₁, h1, h2⟩ := h.destroy k.item hr
    obtain ⟨m₂, h3, h4⟩ := Good.each_destroy k l n (i + 1) h2 (by
      intro j h5 h6
      rw [upd_ne _ _ (fun e => by have := (elem_inj e).2; omega)]
      exact hv j (by omega) (by omega))
    exact ⟨m₂, by rw [ListMem.each, h1]; exact h3, by rw [← fill_succ]; exact h4⟩

theorem Good.each_construct (k : ListKind α) (l : Nat) : ∀ (n i : Nat) {m : Mem α} {v : Nat → Option Ref} {cr : List α}, Good m v cr →
    (∀ j, i ≤ j → j < i + n → v (elem l j) = none) →
    ∃ m', ListMem.each k .construct l i n m = .ok m' ∧ Good m' (fill v l i n (some .nothing)) cr
  | 0, i, m, v, cr, h, _ => ⟨m, rfl, by rw [fill_zero]; exact h⟩
  | n + 1, i, m, v, cr, h, hv => by
    obtain ⟨m₁, h1, h2⟩ := h.construct k.item (hv i (Nat.le_refl _) (by omega))
    obtain ⟨m₂, h3, h4⟩ := Good.each_construct k l n (i + 1) h2 (by
      intro j h5 h6
      rw [upd_ne _ _ (fun e => by have := (elem_inj e).2; omega)]
      exact hv j (by omega) (by omega))
    exact ⟨m₂, by rw [ListMem.each, h1]; exact h3, by rw [← fill_succ]; exact h4⟩

theorem view_setList_elem (s : ListState α) (l : Nat) (es : Option (List (Option Ref))) (l' i' : Nat) :
    view (s.setList l es) (elem l' i') = if l' = l then es.bind (fun es => es[i']?.map fun e => e.getD .nothing) else view s (elem l' i') := by
  rw [view_elem, view_elem]
  unfold ListState.setList
  dsimp only
  split <;> rfl

/-- The vector gets another size. -/
theorem Good.resize (k : ListKind α) {m : ListMem α} {s : ListState α} {cr : List α} (h : Good m.items (view s) cr) {l : Nat} {es : List (Option Ref)}
    (hl : s.lists l = some es) (hsz : m.size l = es.length) (n : Nat) :
    ∃ items, m.resize k l n = .ok { m with items := items, size := fun j => if j = l then n else m.size j } ∧
      Good items (view (s.setList l (some (es.take n ++ List.replicate (n - es.length) none)))) cr := by
  obtain ⟨m₁, h1, h2⟩ := Good.each_destroy k l (m.size l - n) n h (by
    intro j h3 h4
    rw [view_elem, hl]
    have : j < es.length := by omega
    simp [List.getElem?_eq_getElem this])
  obtain ⟨m₂, h3, h4⟩ := Good.each_construct k l (n - m.size l) (m.size l) h2 (by
    intro j h5 h6
    rw [fill_elem]
    split
    · rfl
    · rw [view_elem, hl]
      simp [List.getElem?_eq_none (show es.length ≤ j by omega)])
  refine ⟨m₂, ?_, ?_⟩
  · unfold ListMem.resize
    rw [h1, Outcome.bind_ok, h3]
    rfl
  · have e : fill (fill (view s) l n (m.size l - n) none) l (m.size l) (n - m.size l) (some .nothing) =
        view (s.setList l (some (es.take n ++ List.replicate (n - es.length) none))) := by
      apply view_ext
      · rw [fill_param, fill_param, view_param, view_param]
      · intro x; rw [fill_user, fill_user, view_user, view_user]; rfl
      · intro l' i'
        rw [fill_elem, fill_elem, view_setList_elem]
        by_cases hl' : l' = l
        · subst hl'
          rw [if_pos rfl, Option.bind_some, view_elem, hl, Option.bind_some]
          simp only [true_and]
          rw [List.getElem?_append, List.length_take, hsz]
          by_cases c1 : i' < n
          · by_cases c2 : i' < es.length
            · rw [if_neg (by omega), if_neg (by omega), if_pos (by omega), List.getElem?_take_of_lt c1]
            · rw [if_pos (by omega), if_neg (by omega), List.getElem?_replicate_of_lt (by omega)]; rfl
          · rw [if_neg (show ¬ (es.length ≤ i' ∧ i' < es.length + (n - es.length)) by omega), if_neg (show ¬ i' < min n es.length by omega),
              List.getElem?_eq_none (l := List.replicate _ _) (by simp; omega)]
            by_cases c2 : i' < es.length
            · rw [if_pos (by omega)]; rfl
            · rw [if_neg (by omega), List.getElem?_eq_none (by omega)]
        · simp only [hl', false_and, if_false]
    rw [e] at h4
    exact h4


/-! ## Received lists -/

/-- The raw pointer of an entry. -/
def toRaw : Option Ref → Raw
  | none => none
  | some .nothing => some .null
  | some (.to n) => some (.obj n)
  | some .moved => some .wild

theorem received_length : ∀ (n : Nat) (xs : List (Option α)), (ListState.received n xs).length = xs.length
  | _, [] => rfl
  | n, none :: xs => by rw [ListState.received, List.length_cons, received_length n xs, List.length_cons]
  | n, some _ :: xs => by rw [ListState.received, List.length_cons, received_length (n + 1) xs, List.length_cons]

/-- The variables after the objects were wrapped. -/
def wrapped (v : Nat → Option Ref) (l : Nat) : Nat → Nat → List (Option α) → Nat → Option Ref
  | _, _, [] => v
  | i, n, none :: xs => wrapped v l (i + 1) n xs
  | i, n, some _ :: xs => wrapped (upd v (elem l i) (some (.to n))) l (i + 1) (n + 1) xs

theorem wrapped_other (l : Nat) {z : Nat} : ∀ (i n : Nat) (xs : List (Option α)) (v : Nat → Option Ref), (∀ j, i ≤ j → z ≠ elem l j) →
    wrapped v l i n xs z = v z
  | _, _, [], _, _ => rfl
  | i, n, none :: xs, v, h => wrapped_other l (i + 1) n xs v fun j hj => h j (by omega)
  | i, n, some _ :: xs, v, h => by
    rw [wrapped, wrapped_other l (i + 1) (n + 1) xs _ fun j hj => h j (by omega), upd_ne _ _ (h i (Nat.le_refl _))]

theorem wrapped_elem (l : Nat) : ∀ (i n : Nat) (xs : List (Option α)) (v : Nat → Option Ref) (j : Nat),
    (∀ e, xs[j]? = some e → e = none → v (elem l (i + j)) = some .nothing) → j < xs.length →
    wrapped v l i n xs (elem l (i + j)) = (ListState.received n xs)[j]?.map fun e => e.getD .nothing
  | _, _, [], _, j, _, hj => by simp at hj
  | i, n, none :: xs, v, 0, hv, _ => by
    rw [wrapped, wrapped_other l _ _ _ _ (fun j hj e => by have := (elem_inj e).2; omega), hv none rfl rfl]
    rfl
  | i, n, some _ :: xs, v, 0, hv, _ => by
    rw [wrapped, wrapped_other l _ _ _ _ (fun j hj e => by have := (elem_inj e).2; omega), Nat.add_zero, upd_same]
    rfl
  | i, n, none :: xs, v, j + 1, hv, hj => by
    have := wrapped_elem l (i + 1) n xs v j (by
      intro e he hn
      rw [show i + 1 + j = i + (j + 1) by omega]
      exact hv e he hn) (by simpa using hj)
    rw [wrapped, show i + (j + 1) = i + 1 + j by omega, this]
    rfl
  | i, n, some _ :: xs, v, j + 1, hv, hj => by
    have := wrapped_elem l (i + 1) (n + 1) xs (upd v (elem l i) (some (.to n))) j (by
      intro e he hn
      rw [upd_ne _ _ (fun e => by have := (elem_inj e).2; omega), show i + 1 + j = i + (j + 1) by omega]
      exact hv e he hn) (by simpa using hj)
    rw [wrapped, show i + (j + 1) = i + 1 + j by omega, this]
    rfl

theorem Good.wrapEach (l : Nat) : ∀ (xs : List (Option α)) (i : Nat) {m : Mem α} {v : Nat → Option Ref} {cr : List α}, Good m v cr →
    (∀ j, i ≤ j → j < i + xs.length → v (elem l j) ≠ none) →
    ∃ m', ListMem.wrapEach l i xs m = .ok (m', (ListState.received cr.length xs).map toRaw) ∧ Good m' (wrapped v l i cr.length xs) (cr ++ xs.filterMap id)
  | [], i, m, v, cr, h, _ => ⟨m, rfl, by simpa [wrapped] using h⟩
  | none :: xs, i, m, v, cr, h, hv => by
    obtain ⟨m', h1, h2⟩ := Good.wrapEach l xs (i + 1) h fun j h3 h4 => hv j (by omega) (by rw [List.length_cons]; omega)
    exact ⟨m', by rw [ListMem.wrapEach, h1]; rfl, h2⟩
  | some a :: xs, i, m, v, cr, h, hv => by
    obtain ⟨r, hr⟩ := Option.ne_none_iff_exists'.mp (hv i (Nat.le_refl _) (by rw [List.length_cons]; omega))
    obtain ⟨m₁, h1, h2⟩ := h.wrap hr a
    obtain ⟨m', h3, h4⟩ := Good.wrapEach l xs (i + 1) h2 (by
      intro j h3 h4
      rw [upd_ne _ _ (fun e => by have := (elem_inj e).2; omega)]
      exact hv j (by omega) (by rw [List.length_cons]; omega))
    rw [List.length_append, List.length_singleton] at h3 h4
    refine ⟨m', ?_, ?_⟩
    · rw [ListMem.wrapEach, h1, Outcome.bind_ok, h3, h.len]
      rfl
    · rw [List.filterMap_cons_some (by rfl : id (some a) = some a), show cr ++ a :: List.filterMap id xs = cr ++ [a] ++ List.filterMap id xs by simp]
      exact h4

/-! ## The lists -/

/-- The invariant of the list objects: each has its own C list. -/
structure Lists (m : Mem (List Raw)) (size : Nat → Nat) (lists : Nat → Option (List (Option Ref)))
    (gone : Nat → Bool) : Prop where
  dom : ∀ l, m.vars l = none ↔ lists l = none
  entry : ∀ l es, lists l = some es → ∃ w, m.vars l = some w ∧ size l = es.length ∧
    ((w.pn = none ∧ (w.ptr = .null ∨ w.ptr = .wild ∧ gone l = true) ∧ es = []) ∨ ∃ k, w.ptr = .obj k ∧ m.objects[k]? = some (some (es.map toRaw)))
  counter : ∀ l w c, m.vars l = some w → w.pn = some c → m.counters[c]? = some (some 1)
  own : ∀ l j w w' k, m.vars l = some w → m.vars j = some w' → w.ptr = .obj k → w'.ptr = .obj k → l = j
  ownPn : ∀ l j w w' c, m.vars l = some w → m.vars j = some w' → w.pn = some c → w'.pn = some c → l = j
  still : ∀ l es, lists l = some es → some Ref.moved ∉ es

/-- Nothing is gone from list `l`. -/
def updG (gone : Nat → Bool) (l : Nat) : Nat → Bool := fun j => if j = l then false else gone j

/-- `lists` with another list. -/
def updL (lists : Nat → Option (List (Option Ref))) (l : Nat) (es : Option (List (Option Ref))) : Nat → Option (List (Option Ref)) :=
  fun j => if j = l then es else lists j

theorem Lists.fresh {m : Mem (List Raw)} {size lists gone} (h : Lists m size lists gone) {j : Nat} {w : Wrapper} {k : Nat} (hj : m.vars j = some w)
    (hk : w.ptr = .obj k) : k < m.objects.length := by
  have : lists j ≠ none := fun e => by rw [(h.dom j).mpr e] at hj; cases hj
  obtain ⟨es, hes⟩ := Option.ne_none_iff_exists'.mp this
  obtain ⟨w', h1, -, h2⟩ := h.entry j es hes
  rw [hj] at h1
  cases h1
  rcases h2 with ⟨-, h2 | ⟨h2, -⟩, -⟩ | ⟨k', h2, h3⟩
  · rw [h2] at hk; cases hk
  · rw [h2] at hk; cases hk
  · rw [hk] at h2
    cases h2
    exact (List.getElem?_eq_some_iff.mp h3).1

theorem Lists.freshPn {m : Mem (List Raw)} {size lists gone} (h : Lists m size lists gone) {j : Nat} {w : Wrapper} {c : Nat} (hj : m.vars j = some w)
    (hk : w.pn = some c) : c < m.counters.length := (List.getElem?_eq_some_iff.mp (h.counter j w c hj hk)).1

/-- A list object with a C list of its own takes the place of variable `l`. -/
theorem Lists.put' {m m' : Mem (List Raw)} {size size' lists gone} (h : Lists m size lists gone) (gone' : Nat → Bool) (l : Nat) (w : Wrapper)
    (es : List (Option Ref)) (hgone : ∀ j, j ≠ l → gone' j = gone j)
    (hvars : m'.vars = upd m.vars l (some w)) (hsize : ∀ j, size' j = if j = l then es.length else size j)
    (hentry : (w.pn = none ∧ (w.ptr = .null ∨ w.ptr = .wild ∧ gone' l = true) ∧ es = []) ∨ ∃ k, w.ptr = .obj k ∧ m'.objects[k]? = some (some (es.map toRaw)))
    (hobj : ∀ j w' k, j ≠ l → m.vars j = some w' → w'.ptr = .obj k → m'.objects[k]? = m.objects[k]? ∧ w.ptr ≠ .obj k)
    (hcnt : ∀ j w' c, j ≠ l → m.vars j = some w' → w'.pn = some c → m'.counters[c]? = m.counters[c]? ∧ w.pn ≠ some c)
    (hpn : ∀ c, w.pn = some c → m'.counters[c]? = some (some 1)) (hstill : some Ref.moved ∉ es) :
    Lists m' size' (updL lists l (some es)) gone' := by
  constructor
  · intro j
    rw [hvars]
    unfold upd updL
    split
    · simp
    · exact h.dom j
  · intro j es' he
    unfold updL at he
    rw [hvars, hsize]
    unfold upd
    by_cases hj : j = l
    · rw [if_pos hj] at he ⊢
      cases he
      exact ⟨w, rfl, if_pos hj, by rw [hj]; exact hentry⟩
    · rw [if_neg hj] at he ⊢
      obtain ⟨w', h1, h2, h3⟩ := h.entry j es' he
      refine ⟨w', h1, by rw [if_neg hj]; exact h2, h3.imp (by rw [hgone j hj]; exact id) ?_⟩
      rintro ⟨k, h4, h5⟩
      exact ⟨k, h4, by rw [(hobj j w' k hj h1 h4).1]; exact h5⟩
  · intro j w' c hw hc
    rw [hvars] at hw
    unfold upd at hw
    by_cases hj : j = l
    · rw [if_pos hj] at hw
      cases hw
      exact hpn c hc
    · rw [if_neg hj] at hw
      rw [(hcnt j w' c hj hw hc).1]
      exact h.counter j w' c hw hc
  · intro i j w1 w2 k h1 h2 h3 h4
    rw [hvars] at h1 h2
    unfold upd at h1 h2
    by_cases hi : i = l <;> by_cases hj : j = l
    · omega
    · rw [if_pos hi] at h1; rw [if_neg hj] at h2
      cases h1
      exact absurd h3 (hobj j w2 k hj h2 h4).2
    · rw [if_neg hi] at h1; rw [if_pos hj] at h2
      cases h2
      exact absurd h4 (hobj i w1 k hi h1 h3).2
    · rw [if_neg hi] at h1; rw [if_neg hj] at h2
      exact h.own i j w1 w2 k h1 h2 h3 h4
  · intro i j w1 w2 c h1 h2 h3 h4
    rw [hvars] at h1 h2
    unfold upd at h1 h2
    by_cases hi : i = l <;> by_cases hj : j = l
    · omega
    · rw [if_pos hi] at h1; rw [if_neg hj] at h2
      cases h1
      exact absurd h3 (hcnt j w2 c hj h2 h4).2
    · rw [if_neg hi] at h1; rw [if_pos hj] at h2
      cases h2
      exact absurd h4 (hcnt i w1 c hi h1 h3).2
    · rw [if_neg hi] at h1; rw [if_neg hj] at h2
      exact h.ownPn i j w1 w2 c h1 h2 h3 h4
  · intro j es' he
    unfold updL at he
    split at he
    · cases he; exact hstill
    · exact h.still j es' he

theorem Lists.put {m m' : Mem (List Raw)} {size size' lists gone} (h : Lists m size lists gone) (l : Nat) (w : Wrapper) (es : List (Option Ref))
    (hvars : m'.vars = upd m.vars l (some w)) (hsize : ∀ j, size' j = if j = l then es.length else size j)
    (hentry : (w = ⟨none, .null⟩ ∧ es = []) ∨ ∃ k, w.ptr = .obj k ∧ m'.objects[k]? = some (some (es.map toRaw)))
    (hobj : ∀ j w' k, j ≠ l → m.vars j = some w' → w'.ptr = .obj k → m'.objects[k]? = m.objects[k]? ∧ w.ptr ≠ .obj k)
    (hcnt : ∀ j w' c, j ≠ l → m.vars j = some w' → w'.pn = some c → m'.counters[c]? = m.counters[c]? ∧ w.pn ≠ some c)
    (hpn : ∀ c, w.pn = some c → m'.counters[c]? = some (some 1)) (hstill : some Ref.moved ∉ es) :
    Lists m' size' (updL lists l (some es)) (updG gone l) :=
  h.put' _ l w es (fun _ hj => if_neg hj) hvars hsize (hentry.imp (fun h => by rw [h.1]; exact ⟨rfl, .inl rfl, h.2⟩) id) hobj hcnt hpn hstill

/-- A list object whose pointer was never set. -/
theorem Lists.raw {m : Mem (List Raw)} {size lists gone} (h : Lists m size lists gone) (l : Nat) :
    Lists (m.setVar l (some ⟨none, .wild⟩)) (fun j => if j = l then 0 else size j) (updL lists l (some [])) (fun j => if j = l then true else gone j) :=
  h.put' _ l ⟨none, .wild⟩ [] (fun _ hj => if_neg hj) rfl (fun _ => rfl) (.inl ⟨rfl, .inr ⟨rfl, if_pos rfl⟩, rfl⟩) (fun _ _ _ _ _ _ => ⟨rfl, by simp⟩)
    (fun _ _ _ _ _ _ => ⟨rfl, by simp⟩) (fun c hc => by cases hc) (by simp)

theorem Lists.empty {m : Mem (List Raw)} {size lists gone} (h : Lists m size lists gone) (l : Nat) :
    Lists (m.construct l) (fun j => if j = l then 0 else size j) (updL lists l (some [])) (updG gone l) :=
  h.put l ⟨none, .null⟩ [] rfl (fun _ => rfl) (.inl ⟨rfl, rfl⟩) (fun _ _ _ _ _ _ => ⟨rfl, by simp⟩) (fun _ _ _ _ _ _ => ⟨rfl, by simp⟩)
    (fun c hc => by cases hc) (by simp)

theorem Lists.new {m : Mem (List Raw)} {size lists gone} (h : Lists m size lists gone) (l n : Nat) :
    Lists (m.constructList l (List.replicate n none)) (fun j => if j = l then n else size j) (updL lists l (some (List.replicate n none))) (updG gone l) := by
  refine h.put l ⟨none, .obj m.objects.length⟩ _ rfl (fun _ => by rw [List.length_replicate]) (.inr ⟨_, rfl, ?_⟩) ?_
    (fun _ _ _ _ _ _ => ⟨rfl, by simp⟩) (fun c hc => by cases hc) (by simp [List.mem_replicate])
  · simp only [Mem.constructList, Mem.newObject, Mem.setVar, List.map_replicate, toRaw]
    rw [List.getElem?_append_right (Nat.le_refl _), Nat.sub_self]
    rfl
  · intro j w' k _ h1 h2
    have := h.fresh h1 h2
    refine ⟨?_, fun e => by cases e; omega⟩
    simp only [Mem.constructList, Mem.newObject, Mem.setVar]
    rw [List.getElem?_append_left this]

theorem Lists.setEntry {m : Mem (List Raw)} {size lists gone} (h : Lists m size lists gone) {l : Nat} {es : List (Option Ref)} (hl : lists l = some es) {i : Nat}
    (hi : i < es.length) {r : Ref} (hr : r ≠ .moved) {p : Ptr} (hp : toRaw (some r) = some p) :
    ∃ w raws m', m.var l = .ok w ∧ m.object w.ptr = .ok raws ∧ raws.length = es.length ∧ m.setObject w.ptr (raws.set i (some p)) = .ok m' ∧
      Lists m' size (updL lists l (some (es.set i (some r)))) (updG gone l) := by
  obtain ⟨w, h1, h2, h3⟩ := h.entry l es hl
  rcases h3 with ⟨-, -, rfl⟩ | ⟨k, h3, h4⟩
  · simp at hi
  · have hob : m.object w.ptr = .ok (es.map toRaw) := by rw [h3]; simp only [Mem.object, h4]
    refine ⟨w, es.map toRaw, { m with objects := m.objects.set k (some ((es.map toRaw).set i (some p))) }, ?_, hob, List.length_map .., ?_, ?_⟩
    · simp only [Mem.var, h1]
    · rw [h3] at hob ⊢
      simp only [Mem.setObject, hob, Outcome.map, Outcome.bind_ok]
    · refine h.put l w _ ?_ ?_ (.inr ⟨k, h3, ?_⟩) ?_ ?_ ?_ ?_
      · rw [upd_self _ _ _ h1]
      · intro j
        split
        · next e => rw [e, h2, List.length_set]
        · rfl
      · rw [List.getElem?_set_self (List.getElem?_eq_some_iff.mp h4).1, ← hp, ← List.map_set]
      · intro j w' k' hj hw hk
        have hne : k' ≠ k := by
          rintro rfl
          exact hj (h.own j l w' w _ hw h1 hk h3)
        exact ⟨List.getElem?_set_ne (Ne.symm hne), by rw [h3]; simpa using Ne.symm hne⟩
      · intro j w' c hj hw hc
        exact ⟨rfl, fun e => hj (h.ownPn j l w' w _ hw h1 hc e)⟩
      · exact fun c hc => h.counter l w c h1 hc
      · intro hmem
        rcases List.mem_or_eq_of_mem_set hmem with h5 | h5
        · exact h.still l es hl h5
        · exact hr (by cases h5; rfl)

theorem Lists.claims {m : Mem (List Raw)} {size lists gone} (h : Lists m size lists gone) {l : Nat} {es : List (Option Ref)} (hl : lists l = some es) :
    ∃ n, m.claims l = .ok n := by
  obtain ⟨w, h1, -, -⟩ := h.entry l es hl
  cases hc : w.pn with
  | none => exact ⟨0, by simp only [Mem.claims, Mem.var, h1, Outcome.bind_ok, hc]⟩
  | some c => exact ⟨1, by simp only [Mem.claims, Mem.var, h1, Outcome.bind_ok, hc, Mem.counter, h.counter l w c h1 hc]⟩

/-- The claim of a list object is given up, with its C list. -/
theorem Lists.release {m : Mem (List Raw)} {size lists gone} (h : Lists m size lists gone) {l : Nat} {es : List (Option Ref)} (hl : lists l = some es) :
    ∃ m' p, m.release l = .ok m' ∧ m'.vars = upd m.vars l (some ⟨none, p⟩) ∧ m'.objects.length = m.objects.length ∧
      m'.counters.length = m.counters.length ∧
      (∀ j w' k, j ≠ l → m.vars j = some w' → w'.ptr = .obj k → m'.objects[k]? = m.objects[k]?) ∧
      (∀ j w' c, j ≠ l → m.vars j = some w' → w'.pn = some c → m'.counters[c]? = m.counters[c]?) := by
  obtain ⟨w, h1, -, h3⟩ := h.entry l es hl
  unfold Mem.release Mem.var
  rw [h1, Outcome.bind_ok]
  cases hc : w.pn with
  | none =>
    refine ⟨m, w.ptr, rfl, ?_, rfl, rfl, fun _ _ _ _ _ _ => rfl, fun _ _ _ _ _ _ => rfl⟩
    rw [← hc, upd_self _ _ _ h1]
  | some c =>
    rcases h3 with ⟨h3, -⟩ | ⟨k, h3, h4⟩
    · rw [h3] at hc; cases hc
    · have hcnt := h.counter l w c h1 hc
      refine ⟨⟨upd m.vars l (some ⟨none, .null⟩), (m.counters.set c (some 0)).set c none, m.objects.set k none, k :: m.released⟩,
        .null, ?_, rfl, ?_, ?_, ?_, ?_⟩
      · simp only [Mem.counter, hcnt, Outcome.bind_ok, Int.sub_self, if_true, Mem.cleanup, Mem.var, h1, h3, Mem.object, h4, Outcome.map, Mem.dropCounter,
          Mem.setVar]
        congr 2
        funext y
        unfold upd
        split <;> simp_all
      · simp
      · simp
      · intro j w' k' hj hw hk
        exact List.getElem?_set_ne (fun e : k = k' => hj (h.own j l w' w k' hw h1 hk (e ▸ h3)))
      · intro j w' c' hj hw hk
        have : c ≠ c' := fun e => hj (h.ownPn j l w' w c' hw h1 hk (e ▸ hc))
        rw [List.getElem?_set_ne this, List.getElem?_set_ne this]

theorem Lists.drop {m : Mem (List Raw)} {size lists gone} (h : Lists m size lists gone) {l : Nat} {es : List (Option Ref)} (hl : lists l = some es) :
    ∃ m', m.destroy l = .ok m' ∧ ∀ n, Lists m' (fun j => if j = l then n else size j) (updL lists l none) (updG gone l) := by
  obtain ⟨m', p, h1, h2, -, -, h3, h4⟩ := h.release hl
  refine ⟨m'.setVar l none, by simp only [Mem.destroy, h1, Outcome.map, Outcome.bind_ok], fun n => ?_⟩
  have hv : ∀ j, (m'.setVar l none).vars j = if j = l then none else m.vars j := by
    intro j
    simp only [Mem.setVar, h2, upd]
    split <;> rfl
  have hsome : ∀ {j w}, (m'.setVar l none).vars j = some w → j ≠ l ∧ m.vars j = some w := by
    intro j w hw
    rw [hv] at hw
    split at hw
    · cases hw
    · next hj => exact ⟨hj, hw⟩
  constructor
  · intro j
    rw [hv]
    unfold updL
    split
    · simp
    · exact h.dom j
  · intro j es' he
    unfold updL at he
    split at he
    · cases he
    · next hj =>
      obtain ⟨w, h5, h6, h7⟩ := h.entry j es' he
      refine ⟨w, by rw [hv, if_neg hj]; exact h5, by rw [if_neg hj]; exact h6, h7.imp (by unfold updG; rw [if_neg hj]; exact id) ?_⟩
      rintro ⟨k, h8, h9⟩
      exact ⟨k, h8, by rw [← h9]; exact h3 j w k hj h5 h8⟩
  · intro j w c hw hc
    obtain ⟨hj, hw⟩ := hsome hw
    rw [← h.counter j w c hw hc]
    exact h4 j w c hj hw hc
  · intro i j w w' k hi hj
    exact h.own i j w w' k (hsome hi).2 (hsome hj).2
  · intro i j w w' k hi hj
    exact h.ownPn i j w w' k (hsome hi).2 (hsome hj).2
  · intro j es' he
    unfold updL at he
    split at he
    · cases he
    · exact h.still j es' he

theorem Lists.receive {m : Mem (List Raw)} {size size' lists gone} (h : Lists m size lists gone) {l : Nat} {es : List (Option Ref)} (hl : lists l = some es)
    (fs : List (Option Ref)) (hfs : some Ref.moved ∉ fs) (hsz : ∀ j, size' j = if j = l then fs.length else size j) :
    ∃ m', m.wrapNew l (fs.map toRaw) = .ok m' ∧ Lists m' size' (updL lists l (some fs)) (updG gone l) := by
  have h' : Lists (m.newObject (fs.map toRaw)).2 size lists gone := by
    refine ⟨h.dom, ?_, h.counter, h.own, h.ownPn, h.still⟩
    intro j es' he
    obtain ⟨w, h5, h6, h7⟩ := h.entry j es' he
    refine ⟨w, h5, h6, h7.imp id ?_⟩
    rintro ⟨k, h8, h9⟩
    exact ⟨k, h8, by simp only [Mem.newObject]; rw [List.getElem?_append_left (h.fresh h5 h8)]; exact h9⟩
  -- the new object stays
  have hobj : ∀ {m' : Mem (List Raw)}, (m.newObject (fs.map toRaw)).2.release l = .ok m' → m'.objects[m.objects.length]? = some (some (fs.map toRaw)) := by
    intro m' hm
    obtain ⟨w, h1, -, h3⟩ := h'.entry l es hl
    unfold Mem.release Mem.var at hm
    rw [h1, Outcome.bind_ok] at hm
    have hnew : (m.newObject (fs.map toRaw)).2.objects[m.objects.length]? = some (some (fs.map toRaw)) := by
      simp only [Mem.newObject]
      rw [List.getElem?_append_right (Nat.le_refl _), Nat.sub_self]
      rfl
    cases hc : w.pn with
    | none => rw [hc] at hm; cases hm; exact hnew
    | some c =>
      rcases h3 with ⟨h3, -⟩ | ⟨k, h3, h4⟩
      · rw [h3] at hc; cases hc
      · have hk := h.fresh (show m.vars l = some w from h1) h3
        rw [hc] at hm
        simp only [Mem.counter, h'.counter l w c h1 hc, Outcome.bind_ok, Int.sub_self, if_true, Mem.cleanup, Mem.var, h1, h3, Mem.object, h4, Outcome.map,
          Mem.dropCounter, Mem.setVar, Outcome.ok.injEq] at hm
        rw [← hm]
        show (List.set _ k none)[_]? = _
        rw [List.getElem?_set_ne (by omega)]
        exact hnew
  obtain ⟨m₁, p, h1, h2, h3, h4, h5, h6⟩ := h'.release hl
  have hlen : m₁.counters.length = m.counters.length := h4
  refine ⟨{ m₁ with vars := upd m.vars l (some ⟨some m₁.counters.length, .obj m.objects.length⟩), counters := m₁.counters ++ [some 1] }, ?_, ?_⟩
  · simp only [Mem.wrapNew]
    rw [show (m.newObject (fs.map toRaw)) = (m.objects.length, (m.newObject (fs.map toRaw)).2) from rfl]
    dsimp only
    rw [h1, Outcome.bind_ok]
    have hv : m₁.vars l = some ⟨none, p⟩ := by rw [h2, upd_same]
    simp only [Mem.acquire, Mem.var, hv, Outcome.bind_ok, Mem.setPtr, Mem.setVar, Outcome.map, if_true]
    congr 2
    funext y
    rw [h2]
    unfold upd
    split <;> rfl
  · refine h.put l _ fs rfl hsz (.inr ⟨_, rfl, (hobj h1 : m₁.objects[m.objects.length]? = _)⟩) ?_ ?_ ?_ hfs
    · intro j w' k hj hw hk
      have hlt := h.fresh hw hk
      refine ⟨?_, fun e => by cases e; omega⟩
      rw [show ({ m₁ with vars := upd m.vars l (some ⟨some m₁.counters.length, .obj m.objects.length⟩), counters := m₁.counters ++ [some 1] } : Mem (List Raw)).objects[k]?
        = m₁.objects[k]? from rfl, h5 j w' k hj hw hk]
      simp only [Mem.newObject]
      rw [List.getElem?_append_left hlt]
    · intro j w' c hj hw hk
      have hlt := h.freshPn hw hk
      refine ⟨?_, fun e => by cases e; omega⟩
      show (m₁.counters ++ [some 1])[c]? = _
      rw [List.getElem?_append_left (by omega)]
      exact h6 j w' c hj hw hk
    · intro c hc
      cases hc
      show (m₁.counters ++ [some 1])[_]? = _
      rw [List.getElem?_append_right (Nat.le_refl _), Nat.sub_self]
      rfl

theorem other_other (l k j : Nat) : ListMem.other l k (ListMem.other l k j) = j := by
  unfold ListMem.other
  by_cases h1 : j = l <;> by_cases h2 : j = k
  · simp [h1]
  all_goals simp [h1, h2]

theorem Lists.swap {m : Mem (List Raw)} {size lists gone} (h : Lists m size lists gone) {l k : Nat} {es fs : List (Option Ref)} (hl : lists l = some es)
    (hk : lists k = some fs) : ∃ m', m.moveAssign l k = .ok m' ∧
      Lists m' (fun j => size (ListMem.other l k j)) (fun j => lists (ListMem.other l k j)) (fun j => gone (ListMem.other l k j)) := by
  obtain ⟨w, h1, -, -⟩ := h.entry l es hl
  obtain ⟨o, h2, -, -⟩ := h.entry k fs hk
  refine ⟨(m.setVar l (some o)).setVar k (some w), by simp only [Mem.moveAssign, Mem.var, h1, h2, Outcome.map, Outcome.bind_ok], ?_⟩
  have hv : ∀ j, ((m.setVar l (some o)).setVar k (some w)).vars j = m.vars (ListMem.other l k j) := by
    intro j
    simp only [Mem.setVar, ListMem.other]
    by_cases c1 : j = l <;> by_cases c2 : j = k
    · subst c1; subst c2; rw [if_pos rfl, if_pos rfl, h1]
    · rw [if_neg c2, if_pos c1, if_pos c1, h2]
    · rw [if_pos c2, if_neg c1, if_pos c2, h1]
    · rw [if_neg c2, if_neg c1, if_neg c1, if_neg c2]
  constructor
  · intro j; rw [hv]; exact h.dom _
  · intro j es' he
    obtain ⟨w', h5, h6, h7⟩ := h.entry _ es' he
    exact ⟨w', by rw [hv]; exact h5, h6, h7⟩
  · intro j w' c hw hc
    rw [hv] at hw
    exact h.counter _ w' c hw hc
  · intro i j w1 w2 c hi hj h3 h4
    rw [hv] at hi hj
    rw [← other_other l k i, h.own _ _ w1 w2 c hi hj h3 h4, other_other]
  · intro i j w1 w2 c hi hj h3 h4
    rw [hv] at hi hj
    rw [← other_other l k i, h.ownPn _ _ w1 w2 c hi hj h3 h4, other_other]
  · intro j es' he
    exact h.still _ es' he


/-! ## Programs -/

/-- The invariant of a program with lists. -/
structure LInv (m : ListMem α) (s : ListState α) : Prop where
  items : Good m.items (view s) s.created
  lists : Lists m.lists m.size s.lists s.gone

theorem view_vars_upd (s : ListState α) (cr : List α) (f : Nat → Option Ref) (x : Nat) (r : Option Ref) :
    view (⟨upd f x r, s.lists, cr, s.gone⟩ : ListState α) = upd (view (⟨f, s.lists, cr, s.gone⟩ : ListState α)) (user x) r := by
  apply view_ext
  · rw [view_param, upd_ne _ _ (param_ne_user x), view_param]
  · intro y
    rw [view_user]
    unfold upd
    dsimp only
    by_cases h : y = x
    · rw [if_pos h, if_pos (by rw [h])]
    · rw [if_neg h, if_neg (fun e => h (user_inj e)), view_user]
  · intro l i
    rw [upd_ne _ _ (Ne.symm (user_ne_elem x l i)), view_elem, view_elem]

theorem view_created (s : ListState α) (cr : List α) : view { s with created := cr } = view s := rfl

theorem content_onVars (op : Op α) (f : Nat → Nat) : ListState.content (op.onVars f) = ListState.content op := by
  cases op <;> rfl

theorem careful_onVars (s : ListState α) (op : Op α) (h : Spec.State.Careful ⟨s.vars, s.created.length⟩ op) :
    Spec.State.Careful ⟨view s, s.created.length⟩ (op.onVars user) := by
  cases op with
  | copy x y => show view s (user y) ≠ _; rw [view_user]; exact h
  | assign x y => exact ⟨fun e => h.1 (user_inj e), by show view s (user y) ≠ _; rw [view_user]; exact h.2⟩
  | createList x a => exact h
  | _ => trivial

theorem step_onVars (s : ListState α) (op : Op α) {v : Spec.State} (h : Spec.State.step ⟨s.vars, s.created.length⟩ op = some v) :
    Spec.State.step ⟨view s, s.created.length⟩ (op.onVars user) = some ⟨view (⟨v.vars, s.lists, s.created, s.gone⟩ : ListState α), v.created⟩ ∧
      v.created = s.created.length + (ListState.content op).toList.length := by
  cases op with
  | construct x =>
    simp only [Spec.State.step] at h
    split at h
    · next hx =>
      cases h
      refine ⟨?_, rfl⟩
      have := view_vars_upd s s.created s.vars x (some .nothing)
      simp only [Op.onVars, Spec.State.step, view_user, hx]
      exact congrArg (fun f => some (⟨f, s.created.length⟩ : Spec.State)) this.symm
    · cases h
  | create x a =>
    simp only [Spec.State.step] at h
    split at h
    · next hx =>
      cases h
      refine ⟨?_, rfl⟩
      have := view_vars_upd s s.created s.vars x (some (.to s.created.length))
      simp only [Op.onVars, Spec.State.step, view_user, hx]
      exact congrArg (fun f => some (⟨f, s.created.length + 1⟩ : Spec.State)) this.symm
    · cases h
  | createList x a =>
    simp only [Spec.State.step] at h
    split at h
    · next hx =>
      cases h
      refine ⟨?_, rfl⟩
      have := view_vars_upd s s.created s.vars x (some (.to s.created.length))
      simp only [Op.onVars, Spec.State.step, view_user, hx]
      exact congrArg (fun f => some (⟨f, s.created.length + 1⟩ : Spec.State)) this.symm
    · cases h
  | copy x y =>
    simp only [Spec.State.step] at h
    split at h
    · next r hx hy =>
      cases h
      refine ⟨?_, rfl⟩
      have := view_vars_upd s s.created s.vars x (some r)
      simp only [Op.onVars, Spec.State.step, view_user, hx, hy]
      exact congrArg (fun f => some (⟨f, s.created.length⟩ : Spec.State)) this.symm
    · cases h
  | move x y =>
    simp only [Spec.State.step] at h
    split at h
    · next r hx hy =>
      cases h
      refine ⟨?_, rfl⟩
      have h1 := view_vars_upd s s.created s.vars y (some .moved)
      have := view_vars_upd s s.created (upd s.vars y (some .moved)) x (some r)
      rw [h1] at this
      simp only [Op.onVars, Spec.State.step, view_user, hx, hy]
      exact congrArg (fun f => some (⟨f, s.created.length⟩ : Spec.State)) this.symm
    · cases h
  | assign x y =>
    simp only [Spec.State.step] at h
    split at h
    · next q r hx hy =>
      cases h
      refine ⟨?_, rfl⟩
      have := view_vars_upd s s.created s.vars x (some r)
      simp only [Op.onVars, Spec.State.step, view_user, hx, hy]
      exact congrArg (fun f => some (⟨f, s.created.length⟩ : Spec.State)) this.symm
    · cases h
  | moveAssign x y =>
    simp only [Spec.State.step] at h
    split at h
    · next q r hx hy =>
      cases h
      refine ⟨?_, rfl⟩
      have h1 := view_vars_upd s s.created s.vars x (some r)
      have := view_vars_upd s s.created (upd s.vars x (some r)) y (some q)
      rw [h1] at this
      simp only [Op.onVars, Spec.State.step, view_user, hx, hy]
      exact congrArg (fun f => some (⟨f, s.created.length⟩ : Spec.State)) this.symm
    · cases h
  | wrap x a =>
    simp only [Spec.State.step] at h
    split at h
    · next r hx =>
      cases h
      refine ⟨?_, rfl⟩
      have := view_vars_upd s s.created s.vars x (some (.to s.created.length))
      simp only [Op.onVars, Spec.State.step, view_user, hx]
      exact congrArg (fun f => some (⟨f, s.created.length + 1⟩ : Spec.State)) this.symm
    · cases h
  | destroy x =>
    simp only [Spec.State.step] at h
    split at h
    · next r hx =>
      cases h
      refine ⟨?_, rfl⟩
      have := view_vars_upd s s.created s.vars x none
      simp only [Op.onVars, Spec.State.step, view_user, hx]
      exact congrArg (fun f => some (⟨f, s.created.length⟩ : Spec.State)) this.symm
    · cases h

theorem view_setList_fresh {s : ListState α} {l : Nat} (h : s.lists l = none) : view (s.setList l (some [])) = view s := by
  apply view_ext
  · rw [view_param, view_param]
  · intro x; rw [view_user, view_user]; rfl
  · intro l' i'
    rw [view_setList_elem]
    split
    · next e => rw [view_elem, e, h]; rfl
    · rfl

theorem view_drop {s : ListState α} (l : Nat) : view (s.setList l none) = view (s.setList l (some [])) := by
  apply view_ext
  · rw [view_param, view_param]
  · intro x; rw [view_user, view_user]; rfl
  · intro l' i'
    rw [view_setList_elem, view_setList_elem]
    split <;> rfl

theorem setList_setList (s : ListState α) (l : Nat) (a b : Option (List (Option Ref))) : (s.setList l a).setList l b = s.setList l b := by
  unfold ListState.setList
  dsimp only
  congr 1 <;> funext j <;> split <;> rfl

theorem setList_created (s : ListState α) (l : Nat) (a : Option (List (Option Ref))) : (s.setList l a).created = s.created := rfl

/-- Two lists are exchanged. -/
theorem LInv.swap {m : ListMem α} {s : ListState α} (h : LInv m s) {l j : Nat} {es fs : List (Option Ref)} (hl : s.lists l = some es)
    (hj : s.lists j = some fs) : ∃ m', m.swap l j = .ok m' ∧ LInv m' { (s.setList l (some fs)).setList j (some es) with
      gone := fun i => if i = l then s.gone j else if i = j then s.gone l else s.gone i } := by
  obtain ⟨lists, h1, h2⟩ := h.lists.swap hl hj
  have hinv := h.items.inv.rename (fun v => if v % 2 = 1 then elem (ListMem.other l j (Nat.unpair (v / 2)).1) (Nat.unpair (v / 2)).2 else v) (by
    intro z
    rcases var_cases z with rfl | ⟨x, rfl⟩ | ⟨l', i, rfl⟩
    · simp [param]
    · have : ¬ user x % 2 = 1 := by unfold user; omega
      simp only [if_neg this]
    · simp only [elem_odd, if_true, elem_div, Nat.unpair_pair, other_other])
  have hvars : (fun v => m.items.vars (if v % 2 = 1 then elem (ListMem.other l j (Nat.unpair (v / 2)).1) (Nat.unpair (v / 2)).2 else v)) =
      fun v => if v % 2 = 1 then m.items.vars (elem (ListMem.other l j (Nat.unpair (v / 2)).1) (Nat.unpair (v / 2)).2) else m.items.vars v := by
    funext v
    split <;> rfl
  have hlists : (fun i => s.lists (ListMem.other l j i)) = ((s.setList l (some fs)).setList j (some es)).lists := by
    funext i
    unfold ListMem.other ListState.setList
    dsimp only
    by_cases c1 : i = l <;> by_cases c2 : i = j
    · subst c1; subst c2; rw [if_pos rfl, if_pos rfl, hl]
    · rw [if_pos c1, if_neg c2, if_pos c1, hj]
    · rw [if_neg c1, if_pos c2, if_pos c2, hl]
    · rw [if_neg c1, if_neg c2, if_neg c2, if_neg c1]
  refine ⟨⟨⟨fun v => if v % 2 = 1 then m.items.vars (elem (ListMem.other l j (Nat.unpair (v / 2)).1) (Nat.unpair (v / 2)).2) else m.items.vars v,
    m.items.counters, m.items.objects, m.items.released⟩, lists, fun i => m.size (ListMem.other l j i)⟩,
    by simp only [ListMem.swap, h1, Outcome.map, Outcome.bind_ok], ⟨?_, h.items.len, h.items.val⟩, ?_⟩
  · rw [hvars] at hinv
    refine cast ?_ hinv
    congr 1
    apply view_ext
    · show view s _ = _
      rw [if_neg (by simp [param]), view_param, view_param]
    · intro x
      have : ¬ user x % 2 = 1 := by unfold user; omega
      rw [if_neg this, view_user, view_user]
      rfl
    · intro l' i
      rw [if_pos (elem_odd _ _), elem_div, Nat.unpair_pair, view_elem, view_elem, ← hlists]
  · rw [← hlists]
    refine cast ?_ h2
    congr 1
    funext i
    unfold ListMem.other
    dsimp only
    split
    · rfl
    · split <;> rfl

/-- Every careful step keeps the invariant. -/
theorem LInv.step (k : ListKind α) {m : ListMem α} {s s' : ListState α} (h : LInv m s) (op : ListOp α) (hc : s.Careful op) (hs : s.step op = some s') :
    ∃ m', ListMem.step k m op = .ok m' ∧ LInv m' s' := by
  cases op with
  | var op =>
    simp only [ListState.step] at hs
    cases hv : Spec.State.step ⟨s.vars, s.created.length⟩ op with
    | none => rw [hv] at hs; cases hs
    | some v =>
      rw [hv] at hs
      cases hs
      obtain ⟨h1, h2⟩ := step_onVars s op hv
      obtain ⟨items, h3, h4⟩ := h.items.step k.item (op.onVars user) (careful_onVars s op hc) h1 (by rw [content_onVars]; exact h2)
      rw [content_onVars] at h4
      exact ⟨{ m with items := items }, by simp only [ListMem.step, h3, Outcome.map, Outcome.bind_ok], h4, h.lists⟩
  | empty l =>
    simp only [ListState.step] at hs
    split at hs
    · next hl =>
      cases hs
      refine ⟨_, rfl, ?_, h.lists.empty l⟩
      rw [view_setList_fresh hl]
      exact h.items
    · cases hs
  | new l n =>
    simp only [ListState.step] at hs
    split at hs
    · next hl =>
      cases hs
      have hg : Good ({ m with lists := m.lists.constructList l (List.replicate n none), size := fun j => if j = l then 0 else m.size j } : ListMem α).items
          (view (s.setList l (some []))) s.created := by rw [view_setList_fresh hl]; exact h.items
      obtain ⟨items, h1, h2⟩ := hg.resize k (l := l) (es := []) (by simp [ListState.setList]) (by simp) n
      rw [setList_setList] at h2
      refine ⟨_, h1, ?_, ?_⟩
      · simpa [setList_created] using h2
      · have := h.lists.new l n
        refine cast ?_ this
        congr 1
        funext j
        simp only
        split <;> rfl
    · cases hs
  | set l i x =>
    simp only [ListState.step] at hs
    split at hs
    · next es r hl hx =>
      split at hs
      · next hi =>
        cases hs
        have hr : r ≠ .moved := by rintro rfl; exact hc hx
        obtain ⟨m₁, h1, h2⟩ := h.items.copy (x := param) (y := user x) (r := r) (view_param s) (by rw [view_user]; exact hx) hr
        have hei : es[i]? = some es[i] := List.getElem?_eq_getElem hi
        obtain ⟨m₂, h3, h4⟩ := h2.assign (x := elem l i) (y := param) (q := es[i].getD .nothing) (r := r) (Ne.symm (param_ne_elem l i))
          (by rw [upd_ne _ _ (Ne.symm (param_ne_elem l i)), view_elem, hl, Option.bind_some, hei]; rfl) (upd_same _ _ _) hr
        have hp : upd (upd (view s) param (some r)) (elem l i) (some r) param = some r := by
          rw [upd_ne _ _ (param_ne_elem l i), upd_same]
        obtain ⟨m₃, h5, h6⟩ := h4.destroy k.item hp
        obtain ⟨arg, ha⟩ := h4.inv.alive hp
        have hst := h4.inv.stands param arg r ha hp
        have hraw : toRaw (some r) = some arg.ptr := by
          cases r with
          | nothing => rw [show arg.ptr = .null from hst]; rfl
          | moved => exact absurd rfl hr
          | «to» n => rw [hst.1]; rfl
        obtain ⟨w, raws, lists, g1, g2, g3, g4, g5⟩ := h.lists.setEntry hl hi hr hraw
        obtain ⟨w', q1, q2, -⟩ := h.lists.entry l es hl
        refine ⟨⟨m₃, lists, m.size⟩, ?_, ?_, g5⟩
        · simp only [ListMem.step, ListMem.set, h1, Outcome.bind_ok, q2, hi, not_true_eq_false, if_false, h3, Mem.var, ha]
          simp only [Mem.var] at g1
          rw [g1, Outcome.bind_ok, g2, Outcome.bind_ok, if_neg (by omega), g4, Outcome.bind_ok]
          rw [show m₂.destroy param = .ok m₃ from h5]
          rfl
        · refine cast ?_ h6
          congr 1
          apply view_ext
          · rw [upd_same, view_param]
          · intro y
            rw [upd_ne _ _ (Ne.symm (param_ne_user y)), upd_ne _ _ (user_ne_elem _ _ _), upd_ne _ _ (Ne.symm (param_ne_user y)), view_user, view_user]
            rfl
          · intro l' i'
            rw [upd_ne _ _ (Ne.symm (param_ne_elem _ _)), view_setList_elem]
            by_cases hl' : l' = l
            · rw [if_pos hl']
              subst hl'
              by_cases hi' : i' = i
              · subst hi'
                rw [upd_same, Option.bind_some, List.getElem?_set_self hi]
                rfl
              · rw [upd_ne _ _ (fun e => hi' (elem_inj e).2), upd_ne _ _ (Ne.symm (param_ne_elem _ _)), Option.bind_some,
                  List.getElem?_set_ne (Ne.symm hi'), view_elem, hl]
                rfl
            · rw [if_neg hl', upd_ne _ _ (fun e => hl' (elem_inj e).1), upd_ne _ _ (Ne.symm (param_ne_elem _ _))]
      · cases hs
    · cases hs
  | get x l i =>
    simp only [ListState.step] at hs
    split at hs
    · next es hx hl =>
      split at hs
      · next e he =>
        cases hs
        have hi := (List.getElem?_eq_some_iff.mp he).1
        have hv : view s (elem l i) = some (e.getD .nothing) := by rw [view_elem, hl, Option.bind_some, he]; rfl
        have hr : e.getD .nothing ≠ .moved := by
          cases e with
          | none => simp
          | some r =>
            rintro rfl
            exact h.lists.still l es hl (List.mem_of_getElem? he)
        obtain ⟨m₁, h1, h2⟩ := h.items.copy (x := user x) (y := elem l i) (by rw [view_user]; exact hx) hv hr
        obtain ⟨w', q1, q2, -⟩ := h.lists.entry l es hl
        refine ⟨{ m with items := m₁ }, ?_, ?_, h.lists⟩
        · simp only [ListMem.step, ListMem.get, q2, hi, not_true_eq_false, if_false, h1, Outcome.map, Outcome.bind_ok]
        · have := view_vars_upd s s.created s.vars x (some (e.getD .nothing))
          rw [show view s = view (⟨s.vars, s.lists, s.created, s.gone⟩ : ListState α) from rfl, ← this] at h2
          exact h2
      · cases hs
    · cases hs
  | receive l xs =>
    simp only [ListState.step] at hs
    split at hs
    · next es hl =>
      cases hs
      obtain ⟨n, hn⟩ := h.lists.claims hl
      obtain ⟨w', q1, q2, q3⟩ := h.lists.entry l es hl
      have hwild : ¬ (w'.ptr = .wild ∧ k.clears = false) := by
        rintro ⟨hw, -⟩
        rcases q3 with ⟨-, q3 | ⟨-, q3⟩, -⟩ | ⟨_, q3, -⟩
        · rw [q3] at hw; cases hw
        · rw [hc.1] at q3; cases q3
        · rw [q3] at hw; cases hw
      have hvar : m.lists.var l = .ok w' := by simp only [Mem.var, q1]
      -- the vector may be cleared
      obtain ⟨items₁, es₁, size₁, g1, g2, g3, g4⟩ : ∃ items es₁ size, (if k.clears = true ∧ n = 1 then m.resize k l 0 else .ok m) =
          .ok { m with items := items, size := size } ∧ Good items (view (s.setList l (some es₁))) s.created ∧
            (es₁ = es ∨ es₁ = []) ∧ ∀ j, size j = if j = l then es₁.length else m.size j := by
        by_cases hcl : k.clears = true ∧ n = 1
        · rw [if_pos hcl]
          obtain ⟨items, h1, h2⟩ := h.items.resize k hl q2 0
          exact ⟨items, [], _, h1, by simpa using h2, .inr rfl, fun j => rfl⟩
        · rw [if_neg hcl]
          refine ⟨m.items, es, m.size, rfl, ?_, .inl rfl, ?_⟩
          · have : view (s.setList l (some es)) = view s := by
              apply view_ext
              · rw [view_param, view_param]
              · intro x; rw [view_user, view_user]; rfl
              · intro l' i'
                rw [view_setList_elem]
                split
                · next e => rw [view_elem, e, hl]
                · rfl
            rw [this]
            exact h.items
          · intro j
            split
            · next e => rw [e, q2]
            · rfl
      obtain ⟨items₂, h1, h2⟩ := Good.resize k (m := { m with items := items₁, size := size₁ }) (l := l) (es := es₁) g2
        (by simp [ListState.setList]) (by show size₁ l = _; rw [g4, if_pos rfl]) xs.length
      rw [setList_setList] at h2
      obtain ⟨items₃, h3, h4⟩ := Good.wrapEach l xs 0 h2 (by
        intro j _ hj
        rw [view_setList_elem, if_pos rfl, Option.bind_some]
        have : j < (es₁.take xs.length ++ List.replicate (xs.length - es₁.length) none).length := by
          rw [List.length_append, List.length_take, List.length_replicate]; omega
        rw [List.getElem?_eq_getElem this]
        simp)
      obtain ⟨lists, h5, h6⟩ := h.lists.receive (size' := fun j => if j = l then xs.length else size₁ j) hl (ListState.received s.created.length xs)
        (by
          have hnot : ∀ (xs : List (Option α)) (n : Nat), some Ref.moved ∉ ListState.received n xs := by
            intro xs
            induction xs with
            | nil => intro n; simp [ListState.received]
            | cons x xs ih => intro n; cases x <;> simp [ListState.received, ih]
          exact hnot _ _)
        (by
          intro j
          rw [received_length]
          split
          · rfl
          · next e => rw [g4, if_neg e])
      refine ⟨⟨items₃, lists, fun j => if j = l then xs.length else size₁ j⟩, ?_, ?_, h6⟩
      · simp only [ListMem.step, ListMem.receive, hvar, if_neg hwild, hn, Outcome.bind_ok, g1, h1, h3, h5, Outcome.map]
      · refine cast ?_ h4
        congr 1
        rw [show view ({ s.setList l (some (ListState.received s.created.length xs)) with created := s.created ++ xs.filterMap id } : ListState α) =
          view (s.setList l (some (ListState.received s.created.length xs))) from rfl]
        apply view_ext
        · rw [wrapped_other l _ _ _ _ (fun j _ => param_ne_elem l j), view_param, view_param]
        · intro x
          rw [wrapped_other l _ _ _ _ (fun j _ => user_ne_elem x l j), view_user, view_user]
          rfl
        · intro l' i'
          by_cases hl' : l' = l
          · subst hl'
            rw [view_setList_elem, if_pos rfl, Option.bind_some]
            by_cases hi : i' < xs.length
            · have := wrapped_elem l' 0 s.created.length xs
                (view (s.setList l' (some (es₁.take xs.length ++ List.replicate (xs.length - es₁.length) none)))) i' (by
                  intro e he hn
                  subst hn
                  rw [Nat.zero_add, view_setList_elem, if_pos rfl, Option.bind_some]
                  have hcare := hc.2 es hl i'
                  have hlen : i' < (es₁.take xs.length ++ List.replicate (xs.length - es₁.length) none).length := by
                    rw [List.length_append, List.length_take, List.length_replicate]; omega
                  rw [List.getElem?_append, List.length_take]
                  by_cases c1 : i' < min xs.length es₁.length
                  · rw [if_pos c1, List.getElem?_take_of_lt hi]
                    have h7 : i' < es₁.length := by omega
                    rcases g3 with rfl | rfl
                    · rw [List.getElem?_eq_getElem h7, Option.map_some]
                      cases he' : es₁[i'] with
                      | none => rfl
                      | some r =>
                        cases r with
                        | nothing => rfl
                        | moved => exact absurd (he' ▸ List.getElem_mem h7) (h.lists.still l' es₁ hl)
                        | «to» n => exact absurd (by rw [List.getElem?_eq_getElem h7, he']) (hcare n he)
                    · simp at h7
                  · rw [if_neg c1, List.getElem?_replicate_of_lt (by omega)]
                    rfl) hi
              rw [Nat.zero_add] at this
              exact this
            · have hnone : (ListState.received s.created.length xs)[i']? = none := List.getElem?_eq_none (by rw [received_length]; omega)
              have hw : ∀ (xs : List (Option α)) (i n : Nat) (v : Nat → Option Ref), i + xs.length ≤ i' → wrapped v l' i n xs (elem l' i') = v (elem l' i') := by
                intro xs
                induction xs with
                | nil => intro i n v _; rfl
                | cons x xs ih =>
                  intro i n v hle
                  rw [List.length_cons] at hle
                  cases x with
                  | none => rw [wrapped, ih _ _ _ (by omega)]
                  | some a => rw [wrapped, ih _ _ _ (by omega), upd_ne _ _ (fun e => by have := (elem_inj e).2; omega)]
              rw [hnone, hw xs 0 _ _ (by omega), view_setList_elem, if_pos rfl, Option.bind_some,
                List.getElem?_eq_none (by rw [List.length_append, List.length_take, List.length_replicate]; omega)]
          · rw [wrapped_other l _ _ _ _ (fun j _ e => hl' (elem_inj e).1), view_setList_elem, view_setList_elem, if_neg hl', if_neg hl']
    · cases hs
  | swap l j =>
    simp only [ListState.step] at hs
    split at hs
    · next es fs hl hj =>
      cases hs
      exact h.swap hl hj
    · cases hs
  | copy l j => exact hc.elim
  | assign l j => exact hc.elim
  | move l j =>
    simp only [ListState.step] at hs
    split at hs
    · next fs hl hj =>
      cases hs
      have hlj : l ≠ j := by rintro rfl; rw [hl] at hj; cases hj
      have h1 : LInv ({ m with lists := m.lists.setVar l (some ⟨none, .wild⟩), size := fun i => if i = l then 0 else m.size i } : ListMem α)
          { s.setList l (some []) with gone := fun i => if i = l then true else s.gone i } :=
        ⟨by
          show Good m.items (view (s.setList l (some []))) s.created
          rw [view_setList_fresh hl]
          exact h.items, h.lists.raw l⟩
      obtain ⟨m', e, h2⟩ := h1.swap (l := l) (j := j) (es := []) (fs := fs) (by simp [ListState.setList])
        (by simp [ListState.setList, Ne.symm hlj, hj])
      refine ⟨m', e, cast ?_ h2⟩
      congr 1
      simp only [ListState.setList, ListState.mk.injEq, true_and]
      refine ⟨?_, ?_⟩
      · funext i
        by_cases c1 : i = l <;> by_cases c2 : i = j <;> simp [c1, c2]
      · funext i
        by_cases c1 : i = l
        · rw [if_pos c1, if_neg (fun e => hlj (c1.symm.trans e)), if_pos c1, if_neg (Ne.symm hlj)]
        · rw [if_neg c1, if_neg c1]
          by_cases c2 : i = j
          · rw [if_pos c2, if_pos c2, if_pos trivial]
          · rw [if_neg c2, if_neg c2, if_neg c1]
    · cases hs
  | drop l =>
    simp only [ListState.step] at hs
    split at hs
    · next es hl =>
      cases hs
      obtain ⟨w', q1, q2, -⟩ := h.lists.entry l es hl
      obtain ⟨lists, h1, h2⟩ := h.lists.drop hl
      obtain ⟨items, h3, h4⟩ := Good.resize k (m := { m with lists := lists }) h.items hl q2 0
      refine ⟨_, by simp only [ListMem.step, ListMem.drop, h1, Outcome.bind_ok, h3]; rfl, ?_, h2 0⟩
      rw [view_drop]
      simpa [setList_created] using h4
    · cases hs

theorem LInv.start : LInv (ListMem.start : ListMem α) ListState.start := by
  refine ⟨⟨?_, rfl, ?_⟩, ?_⟩
  · refine cast ?_ (Inv.start (α := α))
    congr 1
    apply view_ext
    · rw [view_param]; rfl
    · intro x; rw [view_user]; rfl
    · intro l i; rw [view_elem]; rfl
  · intro n b hb
    simp [ListMem.start, Mem.start] at hb
  · constructor
    · intro l; exact ⟨fun _ => rfl, fun _ => rfl⟩
    · intro l es h; cases h
    · intro l w c h; cases h
    · intro l j w w' k h; cases h
    · intro l j w w' k h; cases h
    · intro l es h; cases h

theorem LInv.run (k : ListKind α) (ops : List (ListOp α)) {m : ListMem α} {s s' : ListState α} (h : LInv m s)
    (hc : ListState.CarefulRun ops s) (hs : ListState.run ops s = some s') : ∃ m', ListMem.run k ops m = .ok m' ∧ LInv m' s' := by
  induction ops generalizing m s with
  | nil => cases hs; exact ⟨m, rfl, h⟩
  | cons op ops ih =>
    obtain ⟨c1, c2⟩ := hc
    simp only [ListState.run] at hs
    cases e : s.step op with
    | none => rw [e] at hs; cases hs
    | some s1 =>
      rw [e] at hs
      obtain ⟨m1, e1, h1⟩ := h.step k op c1 e
      obtain ⟨m2, e2, h2⟩ := ih h1 (c2 s1 e) hs
      exact ⟨m2, by simp only [ListMem.run, e1, Outcome.bind_ok, e2], h2⟩

end Trax.Cpp
