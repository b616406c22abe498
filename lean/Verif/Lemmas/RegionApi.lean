import Verif.Model.RegionApi
import Verif.Lemmas.Bounds

/-!
# Lemmas about the region functions of the API
-/

namespace Trax
namespace Region

theorem bind_eq_ok {α β : Type} {x : Outcome α} {f : α → Outcome β} {b : β} (h : x.bind f = .ok b) :
    ∃ a, x = .ok a ∧ f a = .ok b := by
  cases x with
  | ok a => exact ⟨a, rfl, h⟩
  | abort => cases h
  | ub => cases h

theorem map_eq_ok {α β : Type} {x : Outcome α} {f : α → β} {b : β} (h : x.map f = .ok b) :
    ∃ a, x = .ok a ∧ f a = b := by
  obtain ⟨a, h1, h2⟩ := bind_eq_ok h
  exact ⟨a, h1, by cases h2; rfl⟩

/-- A successful conversion gives a region of the requested type. -/
theorem convert_type {legacy : Bool} {fresh : Nat → List UInt8} {r r' : Region} {t : RegionType}
    (h : convert legacy fresh r t = .ok (some r')) : r'.type = t := by
  cases t <;> cases r <;> simp only [convert] at h
  all_goals first
    | (cases h; rfl)
    | (cases h; done)
    | (obtain ⟨b, -, h2⟩ := map_eq_ok h; cases h2; rfl)
    | skip
  · obtain ⟨_, -, h⟩ := bind_eq_ok h
    obtain ⟨_, -, h⟩ := bind_eq_ok h
    obtain ⟨_, -, h⟩ := bind_eq_ok h
    obtain ⟨_, -, h⟩ := bind_eq_ok h
    obtain ⟨_, -, h⟩ := bind_eq_ok h
    obtain ⟨_, -, h⟩ := map_eq_ok h
    cases h; rfl
  · obtain ⟨_, -, h⟩ := bind_eq_ok h
    obtain ⟨_, -, h⟩ := bind_eq_ok h
    obtain ⟨_, -, h⟩ := bind_eq_ok h
    obtain ⟨_, -, h⟩ := bind_eq_ok h
    obtain ⟨_, -, h⟩ := bind_eq_ok h
    obtain ⟨_, -, h⟩ := map_eq_ok h
    cases h; rfl
  · obtain ⟨_, -, h⟩ := bind_eq_ok h
    obtain ⟨_, -, h⟩ := bind_eq_ok h
    split at h
    · cases h; rfl
    · cases h

theorem apiType_of_type {r : Region} : (r.type = .mask → r.apiType = 8) ∧ (r.type = .polygon → r.apiType = 4) ∧
    (r.type = .rectangle → r.apiType = 2) ∧ (r.type = .special → r.apiType = 1) := by
  cases r <;> simp [type, apiType]

theorem typeBack_apiType (r : Region) : typeBack r.apiType = r.type := by
  cases r <;> rfl

end Region
end Trax
