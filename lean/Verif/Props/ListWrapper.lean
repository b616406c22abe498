import Verif.Lemmas.ListWrapper
import Verif.Props.Values

/-!
# Property theorems C92, C93: C++ lists of images and objects
-/

namespace Trax

open Cpp
open Trax.Cpp.Spec (ListState Ref)

theorem entries_ok {α : Type} (k : ListKind α) {m : ListMem α} {s : ListState α} (h : LInv m s) (l : Nat) :
    ∀ (es : List (Option Ref)), (∀ i n : Nat, es[i]? = some (some (Ref.to n)) → ∃ z, view s z = some (.to n)) → some Ref.moved ∉ es →
    m.entries k (es.map toRaw) = .ok (es.map (s.content? k.blank))
  | [], _, _ => rfl
  | e :: es, hv, hm => by
    have ih := entries_ok k h l es (fun i n hi => hv (i + 1) n hi) (fun hmem => hm (List.mem_cons_of_mem _ hmem))
    have he : m.entry k (toRaw e) = .ok (s.content? k.blank e) := by
      cases e with
      | none => rfl
      | some r =>
        cases r with
        | nothing => rfl
        | moved => exact absurd (List.mem_cons_self ..) hm
        | «to» n =>
          obtain ⟨z, hz⟩ := hv 0 n rfl
          obtain ⟨w, hw⟩ := h.items.inv.alive hz
          obtain ⟨-, -, a, ha⟩ := h.items.inv.stands z w _ hw hz
          have := h.items.val n a ha
          simp only [toRaw, ListMem.entry, Mem.object, ha, Outcome.map, Outcome.bind_ok, ListState.content?, this]
    rw [List.map_cons, List.map_cons, ListMem.entries, he, Outcome.bind_ok, ih]
    rfl

theorem inUse_view {α : Type} (s : ListState α) (n : Nat) : s.InUse n ↔ ∃ z, view s z = some (.to n) := by
  constructor
  · rintro (⟨x, hx⟩ | ⟨l, es, hl, hmem⟩)
    · exact ⟨user x, by rw [view_user]; exact hx⟩
    · obtain ⟨i, hi⟩ := List.mem_iff_getElem?.mp hmem
      exact ⟨elem l i, by rw [view_elem, hl, Option.bind_some, hi]; rfl⟩
  · rintro ⟨z, hz⟩
    rcases var_cases z with rfl | ⟨x, rfl⟩ | ⟨l, i, rfl⟩
    · rw [view_param] at hz; cases hz
    · rw [view_user] at hz; exact .inl ⟨x, hz⟩
    · rw [view_elem] at hz
      cases hl : s.lists l with
      | none => rw [hl] at hz; cases hz
      | some es =>
        rw [hl, Option.bind_some] at hz
        cases he : es[i]? with
        | none => rw [he] at hz; cases hz
        | some e =>
          rw [he] at hz
          cases e with
          | none => cases hz
          | some r =>
            simp only [Option.map_some, Option.getD_some, Option.some.injEq] at hz
            subst hz
            exact .inr ⟨l, es, hl, List.mem_of_getElem? he⟩

/-- **C92, for programs that copy no list, put no variable that was moved from into a list, receive nothing into a list that was moved from and no NULL in the place of
an object, and handle their variables as in C63.** Whatever such a program does: what the C library reads from a list that was not moved from is, entry by entry, the content
of the object that was last put there or received there (and what a new C list has if nothing was); variables, among them those that were got from a list, have the content of the object they stand for;
every object is released exactly once, when neither a variable nor an entry of a list stands for it any more. -/
theorem C92_lists_partial {α : Type} (k : ListKind α) (ops : List (ListOp α)) (s : ListState α) (hs : ListState.run ops .start = some s)
    (hc : ListState.CarefulRun ops .start) :
    ∃ m, ListMem.run k ops .start = .ok m ∧
      (∀ l es, s.lists l = some es → s.gone l = false → m.handed k l = .ok (es.map (s.content? k.blank))) ∧
      (∀ x n, s.vars x = some (.to n) → ∃ w a, m.items.vars (user x) = some w ∧ m.items.object w.ptr = .ok a ∧ s.created[n]? = some a) ∧
      ∀ n, n < s.created.length → (s.InUse n → m.items.released.count n = 0) ∧ (¬ s.InUse n → m.items.released.count n = 1) := by
  obtain ⟨m, e, h⟩ := LInv.run k ops .start hc hs
  refine ⟨m, e, ?_, ?_, ?_⟩
  · intro l es hl hg
    obtain ⟨w, h1, -, h3⟩ := h.lists.entry l es hl
    rcases h3 with ⟨-, h3 | ⟨-, h3⟩, rfl⟩ | ⟨k', h3, h4⟩
    · simp only [ListMem.handed, Mem.var, h1, Outcome.bind_ok, h3, if_true, List.map_nil]
    · rw [hg] at h3; cases h3
    · simp only [ListMem.handed, Mem.var, h1, Outcome.bind_ok, h3, reduceCtorEq, if_false, Mem.object, h4]
      exact entries_ok k h l es (fun i n hi => ⟨elem l i, by rw [view_elem, hl, Option.bind_some, hi]; rfl⟩) (h.lists.still l es hl)
  · intro x n hx
    have hz : view s (user x) = some (.to n) := by rw [view_user]; exact hx
    obtain ⟨w, hw⟩ := h.items.inv.alive hz
    obtain ⟨hp, -, a, ha⟩ := h.items.inv.stands _ w _ hw hz
    exact ⟨w, a, hw, by rw [hp]; simp only [Mem.object, ha], h.items.val n a ha⟩
  · intro n hn
    rw [inUse_view]
    rcases h.items.inv.obj n (by rw [h.items.len]; exact hn) with ⟨-, h2, h3⟩ | ⟨-, h2, h3, -⟩
    · exact ⟨fun _ => List.count_eq_zero_of_not_mem h2, fun hu => absurd (h3.resolve_right id) hu⟩
    · exact ⟨fun hu => absurd hu h3, fun _ => h2⟩

/-- The hypotheses are met: a list for images is filled, changed, received into, exchanged with another one and moved; objects are got from it. -/
def listDemo : List (ListOp Nat) :=
  [.new 0 3, .var (.create 0 10), .set 0 0 0, .var (.create 1 20), .set 0 1 1, .set 0 0 1, .var (.destroy 0), .get 2 0 1, .new 1 3,
    .receive 1 [some 30, none, none], .swap 0 1, .drop 1, .empty 2, .move 3 0, .move 4 3,
    .swap 2 3]

example : (∃ s, ListState.run listDemo .start = some s ∧ s.created = [10, 20, 30] ∧ (s.lists 4).map (·.map (s.content? none)) = some [some 30, none, none] ∧
    s.gone 4 = false ∧ s.lists 3 = some [] ∧ s.gone 3 = false ∧ s.gone 2 = true ∧ s.vars 2 = some (.to 1) ∧ s.lists 1 = none) ∧ ListState.CarefulRun listDemo .start := by
  refine ⟨⟨_, rfl, rfl, rfl, rfl, rfl, rfl, rfl, rfl, rfl⟩, ?_⟩
  simp [listDemo, ListState.CarefulRun, ListState.Careful, ListState.step, ListState.setList, ListState.start, ListState.received, ListState.content,
    Spec.State.Careful, Spec.State.step, Spec.State.set]
  intro i n hi
  match i with
  | 0 => simp at hi
  | 1 => simp
  | 2 => simp
  | i + 3 => simp

/-- **C92, violated: copies.** A copy of a list shares the C list: putting an image into the copy changes what is sent for the original (while `get` on the original still gives
the old image); when the copy is gone, the original sends an image that was released. A list that was made by its constructor has no claim to its C list, but a copy of it has: the
end of the copy frees the C list, even if nothing was done with the copy. (`get` on a copy gives the images of the original.) -/
theorem C92_copies_false :
    (∃ s m m', ListState.run ([.new 0 3, .receive 0 [some 5, none, none], .copy 1 0, .var (.create 0 7), .set 1 0 0] : List (ListOp Nat)) .start = some s ∧
      (s.lists 0).map (·.map (s.content? none)) = some [some 5, none, none] ∧
      ListMem.run .images [.new 0 3, .receive 0 [some 5, none, none], .copy 1 0, .var (.create 0 7), .set 1 0 0] .start = .ok m ∧
      m.handed .images 0 = .ok [some 7, none, none] ∧
      m.get 1 0 0 = .ok m' ∧ ((m'.items.vars (user 1)).map fun w => m'.items.object w.ptr) = some (.ok 5)) ∧
    (∃ s m, ListState.run ([.new 0 3, .receive 0 [some 5, none, none], .copy 1 0, .var (.create 0 7), .set 1 0 0, .var (.destroy 0), .drop 1] : List (ListOp Nat))
        .start = some s ∧
      (s.lists 0).map (·.map (s.content? none)) = some [some 5, none, none] ∧
      ListMem.run .images [.new 0 3, .receive 0 [some 5, none, none], .copy 1 0, .var (.create 0 7), .set 1 0 0, .var (.destroy 0), .drop 1] .start = .ok m ∧
      m.handed .images 0 = .ub) ∧
    (∃ s m, ListState.run ([.new 0 3, .var (.create 0 7), .set 0 1 0, .copy 1 0, .drop 1] : List (ListOp Nat)) .start = some s ∧
      (s.lists 0).map (·.map (s.content? none)) = some [none, some 7, none] ∧
      ListMem.run .images [.new 0 3, .var (.create 0 7), .set 0 1 0, .copy 1 0, .drop 1] .start = .ok m ∧
      m.handed .images 0 = .ub) ∧
    (∃ m, ListMem.run .images [.new 0 3, .receive 0 [some 5, some 6, none], .copy 1 0, .get 0 1 0, .get 1 1 1, .get 2 1 2] .start = .ok m ∧
      ((m.items.vars (user 0)).map fun w => m.items.object w.ptr) = some (.ok 5) ∧ ((m.items.vars (user 1)).map fun w => m.items.object w.ptr) = some (.ok 6) ∧
      (m.items.vars (user 2)).map (·.ptr) = some .null) :=
  ⟨⟨_, _, _, rfl, rfl, rfl, rfl, rfl, rfl⟩, ⟨_, _, rfl, rfl, rfl, rfl⟩, ⟨_, _, rfl, rfl, rfl, rfl⟩, _, rfl, rfl, rfl, rfl⟩

/-- **C92, violated: assignments.** An assignment gives up the images of the list and shares the C list in the same way: putting an image into one of the lists changes what is sent for the other one. The assignment of an
`ObjectList` with its own claim to itself frees the C list and keeps using it: the object is lost, and the end of the list frees it again. -/
theorem C92_assign_false :
    (∃ s m, ListState.run ([.new 0 3, .receive 0 [some 5, none, none], .new 1 3, .assign 1 0, .var (.create 0 7), .set 1 0 0] : List (ListOp Nat)) .start = some s ∧
      (s.lists 0).map (·.map (s.content? none)) = some [some 5, none, none] ∧
      ListMem.run .images [.new 0 3, .receive 0 [some 5, none, none], .new 1 3, .assign 1 0, .var (.create 0 7), .set 1 0 0] .start = .ok m ∧
      m.handed .images 0 = .ok [some 7, none, none]) ∧
    (∃ m, ListMem.run .images [.new 0 3, .receive 0 [some 5, some 6, none], .new 1 3, .receive 1 [some 8, none, some 9], .assign 1 0, .get 0 1 0, .get 1 1 1, .get 2 1 2] .start = .ok m ∧
      m.handed .images 1 = .ok [some 5, some 6, none] ∧ ((m.items.vars (user 0)).map fun w => m.items.object w.ptr) = some (.ok 5) ∧
      ((m.items.vars (user 1)).map fun w => m.items.object w.ptr) = some (.ok 6) ∧ (m.items.vars (user 2)).map (·.ptr) = some .null ∧ m.items.released = [3, 2]) ∧
    ∃ s m, ListState.run ([.empty 0, .receive 0 [some 5], .assign 0 0] : List (ListOp Nat)) .start = some s ∧
      (s.lists 0).map (·.map (s.content? (some 0))) = some [some 5] ∧
      ListMem.run (.objects 0) [.empty 0, .receive 0 [some 5], .assign 0 0] .start = .ok m ∧ m.items.released = [0] ∧
      m.handed (.objects 0) 0 = .ub ∧ m.drop (.objects 0) 0 = .ub :=
  ⟨⟨_, _, rfl, rfl, rfl, rfl⟩, ⟨_, rfl, rfl, rfl, rfl, rfl, rfl⟩, _, _, rfl, rfl, rfl, rfl, rfl, rfl⟩

/-- **C92, violated: lists that were moved from.** A list that was moved from is not a list without entries: its pointer was never set, so that sending it reads arbitrary
memory, and receiving into an `ImageList` writes behind the end of its vector. (An `ObjectList` can be received into.) -/
theorem C92_moved_false :
    (∃ s m, ListState.run ([.new 0 3, .receive 0 [some 5, none, none], .move 1 0] : List (ListOp Nat)) .start = some s ∧ s.lists 0 = some [] ∧
      ListMem.run .images [.new 0 3, .receive 0 [some 5, none, none], .move 1 0] .start = .ok m ∧
      m.handed .images 0 = .ub ∧ m.receive .images 0 [some 6, none, none] = .ub) ∧
    ∃ m, ListMem.run (.objects 0) [.empty 0, .receive 0 [some 5], .move 1 0, .receive 0 [some 6]] (.start : ListMem Nat) = .ok m ∧
      m.handed (.objects 0) 0 = .ok [some 6] ∧ m.handed (.objects 0) 1 = .ok [some 5] :=
  ⟨⟨_, _, rfl, rfl, rfl, rfl, rfl⟩, _, rfl, rfl, rfl⟩

/-- **C92, violated: lists that are used again.** An image of a channel that is not received stays in the list: `get` gives the old one although the C list has none. -/
theorem C92_stale_false :
    ∃ s m, ListState.run ([.new 0 3, .var (.create 0 7), .set 0 1 0, .receive 0 [some 5, none, none], .get 1 0 1] : List (ListOp Nat)) .start = some s ∧
      s.vars 1 = some .nothing ∧
      ListMem.run .images [.new 0 3, .var (.create 0 7), .set 0 1 0, .receive 0 [some 5, none, none], .get 1 0 1] .start = .ok m ∧
      m.handed .images 0 = .ok [some 5, none, none] ∧ ((m.items.vars (user 1)).map fun w => m.items.object w.ptr) = some (.ok 7) :=
  ⟨_, _, rfl, rfl, rfl, rfl, rfl⟩


/-! ## Properties of the objects of a list -/

/-- `list.properties(i).set(k, v);` (`src/traxpp.cpp` 662–664): a copy of element `e` of the vector is made, changed and destroyed. -/
def setObjectProperty (e t : Nat) (k v : Str) : List PropsOp := [.copy t e, .set t k v, .destroy t]

theorem propsRun_append : ∀ (a b : List PropsOp) (s s' : Cpp.Spec.Values Trax.Spec.AMap), Cpp.Spec.propsRun a s = some s' →
    Cpp.Spec.propsRun (a ++ b) s = Cpp.Spec.propsRun b s'
  | [], _, s, s', h => by cases h; rfl
  | op :: a, b, s, s', h => by
    simp only [Cpp.Spec.propsRun, List.cons_append] at h ⊢
    cases e : Cpp.Spec.propsStep s op with
    | none => rw [e] at h; cases h
    | some s₁ =>
      rw [e] at h
      exact propsRun_append a b s₁ s' h

theorem propsCareful_append : ∀ (a b : List PropsOp) (s s' : Cpp.Spec.Values Trax.Spec.AMap), Cpp.Spec.propsRun a s = some s' →
    Cpp.Spec.PropsCarefulRun a s → Cpp.Spec.PropsCarefulRun b s' → Cpp.Spec.PropsCarefulRun (a ++ b) s
  | [], _, s, s', h, _, hb => by cases h; exact hb
  | op :: a, b, s, s', h, ha, hb => by
    simp only [Cpp.Spec.propsRun] at h
    refine ⟨ha.1, fun s₁ e => ?_⟩
    rw [e] at h
    exact propsCareful_append a b s₁ s' h (ha.2 s₁ e) hb

/-- **C93, violated, for every list and every property.** Whatever a program has done before: `list.properties(i).set(k, v)` has no effect. The properties of object `i`
of the list (element `e`) read as before, so that what is set is never sent. -/
theorem C93_object_properties_false (ops : List PropsOp) (s : Cpp.Spec.Values Trax.Spec.AMap) (hs : Cpp.Spec.propsRun ops .start = some s)
    (hc : Cpp.Spec.PropsCarefulRun ops .start) (e t tag : Nat) (b : Trax.Spec.AMap) (he : s.vars e = some (.val tag b)) (ht : s.vars t = none)
    (k v : Str) (hk : NoNul k) (hv : NoNul v) :
    ∃ m, runPropsOps (ops ++ setObjectProperty e t k v) .start = .ok m ∧ ∀ k', NoNul k' → m.getProperty e k' = .ok (b k') := by
  have hte : e ≠ t := by rintro rfl; rw [he] at ht; cases ht
  obtain ⟨s', h1, h2⟩ : ∃ s', Cpp.Spec.propsRun (setObjectProperty e t k v) s = some s' ∧ s'.vars e = some (.val tag b) := by
    have h : Cpp.Spec.propsRun (setObjectProperty e t k v) s =
        some (((s.put t (some (.val tag b))).own t (Trax.Spec.AMap.set b k v)).put t none) := by
      simp [setObjectProperty, Cpp.Spec.propsRun, Cpp.Spec.propsStep, Cpp.Spec.Values.copy, ht, he, Cpp.Spec.Values.change,
        Cpp.Spec.Values.put, Cpp.Spec.Values.own, Cpp.Spec.Values.destroy]
    refine ⟨_, h, ?_⟩
    simp only [Cpp.Spec.Values.put, Cpp.Spec.Values.own, hte, if_false]
    exact he
  have h3 : Cpp.Spec.PropsCarefulRun (setObjectProperty e t k v) s := by
    refine ⟨?_, fun s₁ _ => ⟨⟨hk, hv⟩, fun s₂ _ => ⟨trivial, fun _ _ => trivial⟩⟩⟩
    show ¬ s.vars e = some .moved
    rw [he]
    intro h
    cases h
  obtain ⟨m, g1, g2⟩ := C64_value_semantics_partial (ops ++ setObjectProperty e t k v) s' (by rw [propsRun_append _ _ _ _ hs]; exact h1)
    (propsCareful_append _ _ _ _ hs hc h3)
  exact ⟨m, g1, (g2 e tag b h2).1⟩

/-- A list with one object, its properties already given (as for a list that was received): the hypotheses are met. -/
example : ∃ s b, Cpp.Spec.propsRun [.construct 0, .set 0 b!"a" b!"1"] .start = some s ∧ Cpp.Spec.PropsCarefulRun [.construct 0, .set 0 b!"a" b!"1"] .start ∧
    (∃ tag, s.vars 0 = some (.val tag b)) ∧ s.vars 1 = none ∧ b b!"a" = some b!"1" := by
  refine ⟨_, _, rfl, ⟨trivial, fun _ _ => ⟨⟨by decide, by decide⟩, fun _ _ => trivial⟩⟩, ⟨_, rfl⟩, rfl, rfl⟩

end Trax
