import Verif.Lemmas.Wrapper

/-!
# Property theorem C63: shared C++ wrappers
-/

namespace Trax

open Cpp

/-- **C63, for programs that do not assign an object to itself, do not copy an object that was moved from, and do
not construct lists by `ImageList()` or `ObjectList(int)`.** Whatever such a program does, for each of the resources
it created: as long as some object refers to it, it has not been released and the objects that refer to it hold a
pointer to it; when no object refers to it (any more), it has been released, exactly once. -/
theorem C63_released_once_partial {α : Type} (k : Kind) (ops : List (Op α)) (s : Spec.State)
    (hs : Spec.State.run ops .start = some s) (hc : Spec.CarefulRun ops .start) :
    ∃ m, run k ops .start = .ok m ∧ m.objects.length = s.created ∧
      ∀ n, n < s.created →
        (s.InUse n → m.released.count n = 0 ∧ ∀ x, s.vars x = some (.to n) →
          ∃ w a, m.vars x = some w ∧ w.ptr = .obj n ∧ m.object w.ptr = .ok a) ∧
        (¬ s.InUse n → m.released.count n = 1) := by
  obtain ⟨m, e, h, hl⟩ := Inv.run k ops .start rfl hc hs
  refine ⟨m, e, hl, fun n hn => ⟨?_, ?_⟩⟩
  · intro hu
    rcases h.obj n (by omega) with ⟨-, h2, -⟩ | ⟨-, -, h3, -⟩
    · refine ⟨List.count_eq_zero_of_not_mem h2, fun x hx => ?_⟩
      obtain ⟨w, hw⟩ := h.alive hx
      obtain ⟨hp, -, a, ha⟩ := h.stands x w _ hw hx
      exact ⟨w, a, hw, hp, by rw [hp]; simp only [Mem.object, ha]⟩
    · exact absurd hu h3
  · intro hu
    rcases h.obj n (by omega) with ⟨-, -, h3⟩ | ⟨-, h2, -⟩
    · rcases h3 with h3 | h3
      · exact absurd h3 hu
      · exact h3.elim
    · exact h2

/-- The hypotheses are met: two resources, shared, replaced, moved and dropped; the first one is not in use at the
end, the second one is. -/
def wrapDemo : List (Op Nat) :=
  [.create 0 10, .copy 1 0, .create 2 20, .assign 0 2, .move 3 1, .moveAssign 2 3, .construct 4, .assign 2 4, .destroy 1]

example : (∃ s, Spec.State.run wrapDemo .start = some s ∧ s.created = 2 ∧ ¬ s.InUse 0 ∧ s.InUse 1) ∧
    Spec.CarefulRun wrapDemo .start := by
  refine ⟨⟨_, rfl, rfl, ?_, ⟨0, rfl⟩⟩, ?_⟩
  · rintro ⟨x, hx⟩
    simp only [Spec.State.set, Spec.State.start] at hx
    split at hx
    · cases hx
    · repeat' split at hx
      all_goals simp_all
  · simp [wrapDemo, Spec.CarefulRun, Spec.State.Careful, Spec.State.step, Spec.State.set, Spec.State.start]

/-- **C63, violated: self assignment.** After `T y = x; x = x;` two counters claim the same resource, and the end of
the two objects releases it twice. If `x` is the only object, `x = x` releases the resource that it refers to. -/
theorem C63_self_assignment_false (k : Kind) :
    (∃ s, Spec.State.run ([.create 0 7, .copy 1 0, .assign 0 0, .destroy 0, .destroy 1] : List (Op Nat)) .start = some s) ∧
    run k ([.create 0 7, .copy 1 0, .assign 0 0, .destroy 0, .destroy 1] : List (Op Nat)) .start = .ub ∧
    (∃ s m, Spec.State.run ([.create 0 7, .assign 0 0] : List (Op Nat)) .start = some s ∧ s.vars 0 = some (.to 0) ∧
      run k ([.create 0 7, .assign 0 0] : List (Op Nat)) .start = .ok m ∧ m.released = [0]) :=
  ⟨⟨_, rfl⟩, rfl, _, _, rfl, rfl, rfl, rfl⟩

/-- **C63, violated: copy of a moved-from object.** An object that was moved from keeps a pointer to the resource
(`Image`, `Metadata`) or gets an indeterminate one (`Region`, `Properties`, lists) but no counter; a copy of it
releases what the pointer points to. -/
theorem C63_moved_from_false :
    (∃ s, Spec.State.run ([.create 0 7, .move 1 0, .copy 2 0, .destroy 2, .destroy 1] : List (Op Nat)) .start = some s) ∧
    (∀ k, run k ([.create 0 7, .move 1 0, .copy 2 0, .destroy 2, .destroy 1] : List (Op Nat)) .start = .ub) ∧
    run .region ([.create 0 7, .move 1 0, .copy 2 0, .destroy 2] : List (Op Nat)) .start = .ub :=
  ⟨⟨_, rfl⟩, by rintro ⟨_ | _⟩ <;> rfl, rfl⟩

/-- **C63, violated: lists.** A list that was constructed by `ImageList()` or `ObjectList(int)` is never released by
its own destructor; but a copy of it releases it at once when it ends, while the original still refers to it. -/
theorem C63_lists_false :
    (∃ s m, Spec.State.run ([.createList 0 7, .destroy 0] : List (Op Nat)) .start = some s ∧ ¬ s.InUse 0 ∧
      run .list ([.createList 0 7, .destroy 0] : List (Op Nat)) .start = .ok m ∧ m.released = []) ∧
    (∃ s m, Spec.State.run ([.createList 0 7, .copy 1 0, .destroy 1] : List (Op Nat)) .start = some s ∧ s.vars 0 = some (.to 0) ∧
      run .list ([.createList 0 7, .copy 1 0, .destroy 1] : List (Op Nat)) .start = .ok m ∧ m.released = [0]) := by
  refine ⟨⟨_, _, rfl, ?_, rfl, rfl⟩, _, _, rfl, rfl, rfl, rfl⟩
  rintro ⟨x, hx⟩
  simp only [Spec.State.set, Spec.State.start] at hx
  repeat' split at hx
  all_goals simp_all

end Trax
