import Verif.Model.Trajectory
import Verif.Lemmas.SessionText
import Verif.Props.RegionCodec

/-!
# Property theorem C70: saved trajectories
-/

namespace Trax
open Spec

/-- The text of a region object, `Region::operator std::string` (`src/traxpp.cpp` 950–965). -/
def Spec.textOf : Option Region → Outcome Str
  | none => .ok []
  | some r => r.string.map fun t => t.getD []

theorem readLine_line (l rest : Str) (h : ∀ c ∈ l, c ≠ ch%'\n' ∧ c ≠ ch%'\r') : readLine (l ++ ch%'\n' :: rest) = (l, rest, false) := by
  induction l with
  | nil => simp [readLine]
  | cons c cs ih =>
    have hc := h c (by simp)
    rw [List.cons_append, readLine.eq_def]
    dsimp only
    rw [if_neg hc.1, if_neg hc.2, ih (fun x hx => h x (by simp [hx]))]

theorem cstr_noNul {s : Str} (h : ∀ c ∈ s, c ≠ 0) : cstr s = s := by
  unfold cstr
  induction s with
  | nil => rfl
  | cons c cs ih =>
    have hc : c ≠ 0 := h c (by simp)
    rw [List.takeWhile_cons_of_pos (by simpa using hc), ih fun x hx => h x (by simp [hx])]

/-- Writing one region and reading the line back. -/
theorem region_line (r : Option Region) (hr : ∀ x, r = some x → StableRegion x) :
    ∃ t r', writeRegion r = .ok (t ++ [ch%'\n']) ∧ (∀ c ∈ t, c ≠ ch%'\n' ∧ c ≠ ch%'\r') ∧ Region.decode (cstr t) = .ok r' ∧
      textOf r = .ok t ∧ textOf r' = .ok t ∧ Region.getType r' = Region.getType r := by
  cases r with
  | none => exact ⟨[], none, rfl, by simp, by decide +kernel, rfl, rfl, rfl⟩
  | some r =>
    obtain ⟨t, r', h1, h2, h3, h4⟩ := C37_stable_partial r (hr r rfl)
    have hch := Region.string_chars h1
    refine ⟨t, some r', ?_, ?_, ?_, ?_, ?_, ?_⟩
    · have : Region.getType (some r) ≠ 0 := by
        cases r with
        | special => exact (by decide : (1 : UInt32) ≠ 0)
        | rectangle => exact (by decide : (2 : UInt32) ≠ 0)
        | polygon => exact (by decide : (4 : UInt32) ≠ 0)
        | mask => exact (by decide : (8 : UInt32) ≠ 0)
      rw [writeRegion, if_neg this, h1]
      rfl
    · intro c hc
      have := (hch c hc).2.2.2
      constructor
      · rintro rfl; revert this; decide
      · rintro rfl; revert this; decide
    · rw [cstr_noNul fun c hc => (hch c hc).1, Region.decode, h2]
      rfl
    · rw [textOf, h1]; rfl
    · rw [textOf, h3]; rfl
    · rw [Region.getType, Region.getType]
      cases r <;> cases r' <;> first | rfl | cases h4

theorem load_save (rs : List (Option Region)) (hr : ∀ r, some r ∈ rs → StableRegion r) :
    ∃ file rs', saveTrajectory rs = .ok file ∧ (∀ fuel, rs.length < fuel → loadLoop fuel file = .ok rs') ∧ rs.length ≤ file.length ∧
      List.Forall₂ (fun r r' => ∃ t, textOf r = .ok t ∧ textOf r' = .ok t ∧ Region.getType r' = Region.getType r) rs rs' := by
  induction rs with
  | nil =>
    refine ⟨[], [], rfl, ?_, Nat.le_refl _, .nil⟩
    intro fuel hf
    obtain ⟨fuel, rfl⟩ : ∃ f, fuel = f + 1 := ⟨fuel - 1, by simp at hf; omega⟩
    have : Region.decode (cstr []) = .ok none := by decide +kernel
    simp only [loadLoop, readLine, this, Outcome.bind_ok, and_self, if_true]
  | cons r rs ih =>
    obtain ⟨file, rs', h1, h2, h3, h4⟩ := ih (fun x hx => hr x (by simp [hx]))
    obtain ⟨t, r', g1, g2, g3, g4, g5, g6⟩ := region_line r (fun x hx => hr x (by simp [hx]))
    refine ⟨t ++ [ch%'\n'] ++ file, r' :: rs', ?_, ?_, ?_, .cons ⟨t, g4, g5, g6⟩ h4⟩
    · rw [saveTrajectory, g1, h1]; rfl
    · intro fuel hf
      obtain ⟨fuel, rfl⟩ : ∃ f, fuel = f + 1 := ⟨fuel - 1, by simp at hf; omega⟩
      have := readLine_line t file g2
      rw [loadLoop, List.append_assoc, List.singleton_append, this]
      simp only [g3, Outcome.bind_ok, Bool.false_eq_true, and_false, if_false]
      rw [h2 fuel (by simp at hf; omega)]
      rfl
    · simp; omega

/-- **C70** (partial): a trajectory of empty regions, special regions whose code has at most 24
significant bits, rectangles and polygons without NaN, and masks with a foreground pixel and moderate
size is saved and loaded back as a list of the same length, each region having the same type and the
same text as the one saved.

Missing: the other regions, for which it is false (`C70_trajectory_false`). -/
theorem C70_trajectory_partial (rs : List (Option Region)) (hr : ∀ r, some r ∈ rs → StableRegion r) :
    ∃ file rs', saveTrajectory rs = .ok file ∧ loadTrajectory file = .ok rs' ∧ rs'.length = rs.length ∧
      List.Forall₂ (fun r r' => ∃ t, textOf r = .ok t ∧ textOf r' = .ok t ∧ Region.getType r' = Region.getType r) rs rs' := by
  obtain ⟨file, rs', h1, h2, h3, h4⟩ := load_save rs hr
  exact ⟨file, rs', h1, h2 _ (by omega), h4.length_eq.symm, h4⟩

/-- A rectangle, an empty region, a special region and a mask. -/
example : (∀ r, some r ∈ [some (.rectangle (atofFloat b!"1.5") (atofFloat b!"-2") (atofFloat b!"0.3") (atofFloat b!"7")), none, some (.special 3),
      some (.mask 1 2 3 1 [0, 5, 0])] → StableRegion r) ∧
    saveTrajectory [some (.rectangle (atofFloat b!"1.5") (atofFloat b!"-2") (atofFloat b!"0.3") (atofFloat b!"7")), none, some (.special 3),
      some (.mask 1 2 3 1 [0, 5, 0])] = .ok b!"1.5000,-2.0000,0.3000,7.0000\n\n3\nmask:1,2,3,1,1,1\n" := by
  refine ⟨?_, by decide +kernel⟩
  intro r hr
  simp only [List.mem_cons, Option.some.injEq, reduceCtorEq, List.not_mem_nil, or_false, false_or] at hr
  rcases hr with rfl | rfl | rfl
  · show ∀ c ∈ _, _
    decide +kernel
  · exact ⟨by decide, 3, 0, by decide, by decide⟩
  · exact ⟨by decide, by decide, by decide, by decide, by decide, by decide, 5, by decide, by decide⟩

/-- The full claim of C70 is false: a large code is changed, loading a mask without foreground aborts the process, and a
rectangle with NaN becomes a special region. -/
theorem C70_trajectory_false :
    (saveTrajectory [some (.special 16777217)] = .ok b!"16777217\n" ∧ loadTrajectory b!"16777217\n" = .ok [some (.special 16777216)]) ∧
    (saveTrajectory [some (.mask 0 0 2 1 [0, 0])] = .ok b!"mask:0,0,2,1\n" ∧ loadTrajectory b!"mask:0,0,2,1\n" = .abort) ∧
    (saveTrajectory [some (.rectangle .nan (.fin false 0) (.fin false 0) (.fin false 0))] = .ok b!"nan,0.0000,0.0000,0.0000\n" ∧
      loadTrajectory b!"nan,0.0000,0.0000,0.0000\n" = .ok [some (.special 0)]) := by
  decide +kernel

end Trax
