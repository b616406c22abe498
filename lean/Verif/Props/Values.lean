import Verif.Lemmas.Values

/-!
# Property theorems C64, C77: value semantics of C++ objects
-/

namespace Trax

open Cpp

/-! ## C64: properties -/

/-- **C64, for programs that do not assign an object to itself, do not copy an object that was moved from, and do not
clear an object whose value is still shared with a copy.** Whatever such a program does with `Properties` objects,
no step is undefined behaviour, and at the end every object reads as the map that its own history has made: a change of
one object has never changed another one. -/
theorem C64_value_semantics_partial (ops : List PropsOp) (s : Cpp.Spec.Values Trax.Spec.AMap)
    (hs : Cpp.Spec.propsRun ops .start = some s) (hc : Cpp.Spec.PropsCarefulRun ops .start) :
    ∃ m, runPropsOps ops .start = .ok m ∧ ∀ x t b, s.vars x = some (.val t b) →
      (∀ k, NoNul k → m.getProperty x k = .ok (b k)) ∧
      ∃ keys : List Str, m.sizeProperties x = .ok keys.length ∧ keys.Nodup ∧ ∀ k, k ∈ keys ↔ NoNul k ∧ (b k).isSome := by
  obtain ⟨m, v, e, h⟩ := VInv.propsRun ops VInv.start hc hs
  exact ⟨m, e, fun x t b hx => ⟨fun k hk => h.read hx k hk, h.size hx⟩⟩

/-- A program that copies, assigns, moves, changes and clears. -/
def propsDemo : List PropsOp :=
  [.construct 0, .set 0 b!"a" b!"1", .copy 1 0, .set 1 b!"a" b!"2", .set 1 b!"b" b!"3", .construct 2, .assign 2 1, .move 3 1,
    .set 3 b!"a" b!"4", .clear 2, .set 2 b!"c" b!"5", .destroy 1]

/-- The hypotheses are met, and the three remaining objects have different values. -/
example : (∃ s b₀ b₂ b₃, Cpp.Spec.propsRun propsDemo .start = some s ∧
      (∃ t, s.vars 0 = some (.val t b₀)) ∧ (∃ t, s.vars 2 = some (.val t b₂)) ∧ (∃ t, s.vars 3 = some (.val t b₃)) ∧
      b₀ b!"a" = some b!"1" ∧ b₂ b!"a" = none ∧ b₂ b!"c" = some b!"5" ∧ b₃ b!"a" = some b!"4" ∧ b₃ b!"b" = some b!"3") ∧
    Cpp.Spec.PropsCarefulRun propsDemo .start := by
  refine ⟨⟨_, _, _, _, rfl, ⟨_, rfl⟩, ⟨_, rfl⟩, ⟨_, rfl⟩, rfl, rfl, rfl, rfl, rfl⟩, ?_⟩
  simp only [propsDemo, Cpp.Spec.PropsCarefulRun, Cpp.Spec.PropsCareful]
  repeat' first | (refine ⟨?_, ?_⟩) | (intro _ h; cases h) | trivial | decide
  all_goals first
    | (intro h; cases h; done)
    | (rintro ⟨y, t, b, c, h1, h2, h3⟩
       simp only [Cpp.Spec.Values.own, Cpp.Spec.Values.put, Cpp.Spec.Values.start] at h2 h3
       simp at h2
       obtain ⟨rfl, rfl⟩ := h2
       repeat' split at h3
       all_goals cases h3)

/-- **C64, violated.** `clear` of an object whose value is shared with a copy gives up its claim and keeps the pointer:
the object still reads as before, a following `set` changes the copy as well, and when the copy ends it reads released
memory. -/
theorem C64_clear_false :
    let before : List PropsOp := [.construct 0, .set 0 b!"a" b!"1", .copy 1 0, .clear 1]
    (∃ s b, Cpp.Spec.propsRun before .start = some s ∧ (∃ t, s.vars 1 = some (.val t b)) ∧ b b!"a" = none ∧
      ((runPropsOps before .start).bind fun m => m.getProperty 1 b!"a") = .ok (some b!"1")) ∧
    (∃ s b, Cpp.Spec.propsRun (before ++ [.set 1 b!"a" b!"2"]) .start = some s ∧ (∃ t, s.vars 0 = some (.val t b)) ∧ b b!"a" = some b!"1" ∧
      ((runPropsOps (before ++ [.set 1 b!"a" b!"2"]) .start).bind fun m => m.getProperty 0 b!"a") = .ok (some b!"2")) ∧
    (∃ s b, Cpp.Spec.propsRun (before ++ [.destroy 0]) .start = some s ∧ (∃ t, s.vars 1 = some (.val t b)) ∧ b b!"a" = none ∧
      ((runPropsOps (before ++ [.destroy 0]) .start).bind fun m => m.getProperty 1 b!"a") = .ub) := by
  refine ⟨⟨_, _, rfl, ⟨_, rfl⟩, rfl, ?_⟩, ⟨_, _, rfl, ⟨_, rfl⟩, rfl, ?_⟩, ⟨_, _, rfl, ⟨_, rfl⟩, rfl, ?_⟩⟩ <;> decide +kernel

/-! ## C77: regions -/

/-- **C77, for programs that do not assign an object to itself, do not copy an object that was moved from, and do not
write mask pixels of an object whose value is shared with a copy.** Whatever such a program does with `Region` objects
(`set_polygon_point` being called on polygons with an index in range), no step aborts or is undefined behaviour, and at
the end every object reads as the region that its own history has made: a change of one object has never changed
another one. -/
theorem C77_value_semantics_partial (legacy : Bool) (fresh : Nat → List UInt8) (ops : List RegionOp)
    (s : Cpp.Spec.Values (Option Region)) (hs : Cpp.Spec.regionRun ops .start = some s) (hc : Cpp.Spec.RegionCarefulRun ops .start) :
    ∃ m, runRegionOps legacy fresh ops .start = .ok m ∧ ∀ x t b, s.vars x = some (.val t b) → m.readRegion x = .ok b := by
  obtain ⟨m, v, e, h⟩ := VInv.regionRun ops VInv.start hc hs
  exact ⟨m, e, fun x t b hx => h.readRegion hx⟩

/-- A program that creates, copies, assigns, moves and changes regions of every type. -/
def regionsDemo : List RegionOp :=
  [.create 5 (.mask 0 0 2 1 [0, 1]), .pixel 5 0 0 1,
    .create 0 (.rectangle (.ofInt 1) (.ofInt 2) (.ofInt 3) (.ofInt 4)), .copy 1 0, .rectangle 1 (.ofInt 5) (.ofInt 6) (.ofInt 7) (.ofInt 8),
    .create 2 (.polygon [(.ofInt 0, .ofInt 0), (.ofInt 4, .ofInt 0), (.ofInt 0, .ofInt 4)]), .copy 3 2, .point 3 1 (.ofInt 9) (.ofInt 9),
    .assign 0 2, .special 2 7, .special 2 8, .move 4 3, .moveAssign 1 4, .copy 6 5,
    .construct 7, .destroy 6]

/-- The hypotheses are met. -/
example : (∃ s, Cpp.Spec.regionRun regionsDemo .start = some s ∧
      (∃ t, s.vars 0 = some (.val t (some (.polygon [(.ofInt 0, .ofInt 0), (.ofInt 4, .ofInt 0), (.ofInt 0, .ofInt 4)])))) ∧
      (∃ t, s.vars 1 = some (.val t (some (.polygon [(.ofInt 0, .ofInt 0), (.ofInt 9, .ofInt 9), (.ofInt 0, .ofInt 4)])))) ∧
      (∃ t, s.vars 2 = some (.val t (some (.special 8)))) ∧
      (∃ t, s.vars 5 = some (.val t (some (.mask 0 0 2 1 [1, 1]))))) ∧
    Cpp.Spec.RegionCarefulRun regionsDemo .start := by
  refine ⟨⟨_, rfl, ⟨_, rfl⟩, ⟨_, rfl⟩, ⟨_, rfl⟩, ⟨_, rfl⟩⟩, ?_⟩
  simp only [regionsDemo, Cpp.Spec.RegionCarefulRun, Cpp.Spec.RegionCareful]
  repeat' first | (refine ⟨?_, ?_⟩) | (intro _ h; cases h) | trivial | decide
  all_goals first
    | (intro h; cases h; done)
    | (rintro ⟨y, t, b, c, h1, h2, h3⟩
       simp only [Cpp.Spec.Values.own, Cpp.Spec.Values.put, Cpp.Spec.Values.start] at h2 h3
       simp at h2
       obtain ⟨rfl, rfl⟩ := h2
       repeat' split at h3
       all_goals first | exact absurd (by assumption) h1 | cases h3)

/-- **C77, violated.** `write_mask_row` gives access to the pixels of all copies: after `Region y = x;` a pixel written
through `y` is seen in `x`. -/
theorem C77_write_mask_false :
    let ops : List RegionOp := [.create 0 (.mask 0 0 2 1 [0, 0]), .copy 1 0, .pixel 1 0 0 1]
    ∃ s, Cpp.Spec.regionRun ops .start = some s ∧ (∃ t, s.vars 0 = some (.val t (some (.mask 0 0 2 1 [0, 0])))) ∧
      ∀ legacy fresh, ((runRegionOps legacy fresh ops .start).bind fun m => m.readRegion 0) = .ok (some (.mask 0 0 2 1 [1, 0])) :=
  ⟨_, rfl, ⟨_, rfl⟩, fun _ _ => rfl⟩

/-- **C77, violated.** The effect of `set_polygon_point` on a region that is not a polygon depends on whether the object
was copied: alone it fails an assertion, after a copy it makes the object a polygon. -/
theorem C77_point_false (fresh : Nat → List UInt8) :
    let r : Region := .rectangle (.ofInt 1) (.ofInt 2) (.ofInt 3) (.ofInt 4)
    runRegionOps false fresh [.create 0 r, .point 0 0 (.ofInt 9) (.ofInt 9)] .start = .abort ∧
    ∃ ps, ((runRegionOps false fresh [.create 0 r, .copy 1 0, .point 0 0 (.ofInt 9) (.ofInt 9)] .start).bind fun m => m.readRegion 0) =
      .ok (some (.polygon ps)) := by
  refine ⟨rfl, ?_⟩
  exact ⟨_, rfl⟩

end Trax
