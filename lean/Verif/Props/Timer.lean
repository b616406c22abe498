import Verif.Model.Timer

/-!
# C173: the measured time
-/

namespace Trax.Timer

/-- A time in nanoseconds. -/
def TimeSpec.nanoseconds (t : TimeSpec) : Nat := t.sec * 1000000000 + t.nsec

/-- A time of a clock that began less than 2^43 seconds ago. -/
def TimeSpec.Real (t : TimeSpec) : Prop := t.nsec < 1000000000 ∧ t.sec < 2 ^ 43

/-- **C173.** After `timer_init`, however often it was called, the time between two readings of a clock that does not go back is a whole number of microseconds that differs from the true time by less than one microsecond. Missing from the full claim:
measuring without `timer_init` (`C173_init_false`). -/
theorem C173_elapsed_partial (calls : Nat) (a b : TimeSpec) (ha : a.Real) (hb : b.Real) (h : a.nanoseconds ≤ b.nanoseconds) :
    ∃ us : Nat, elapsed (Nat.repeat init (calls + 1) 0) (clock a) b = some ((us : Rat) / 1000000) ∧ 1000 * us < b.nanoseconds - a.nanoseconds + 1000 ∧ b.nanoseconds - a.nanoseconds < 1000 * us + 1000 := by
  have hf : ∀ n, Nat.repeat init (n + 1) 0 = 1000000 := by
    intro n
    induction n with
    | zero => rfl
    | succ n ih => show init (Nat.repeat init (n + 1) 0) = _; rw [ih]; rfl
  obtain ⟨s1, n1⟩ := a
  obtain ⟨s2, n2⟩ := b
  obtain ⟨a1, a2⟩ := ha
  obtain ⟨b1, b2⟩ := hb
  unfold TimeSpec.nanoseconds at *
  dsimp only at *
  have c1 : clock ⟨s1, n1⟩ = s1 * 1000000 + n1 / 1000 := by unfold clock; dsimp only; omega
  have c2 : clock ⟨s2, n2⟩ = s2 * 1000000 + n2 / 1000 := by unfold clock; dsimp only; omega
  refine ⟨(s2 * 1000000 + n2 / 1000) - (s1 * 1000000 + n1 / 1000), ?_, ?_, ?_⟩
  · unfold elapsed
    rw [hf, c1, c2]
    dsimp only
    rw [if_neg (by decide)]
    have : (s2 * 1000000 + n2 / 1000 + 2 ^ 64 - (s1 * 1000000 + n1 / 1000)) % 2 ^ 64 = (s2 * 1000000 + n2 / 1000) - (s1 * 1000000 + n1 / 1000) := by omega
    rw [this]
    rfl
  · omega
  · omega

/-- **C173 for parts.** The times of two parts that follow each other add up to the time of the whole. -/
theorem C173_parts (a b c : TimeSpec) (ha : a.Real) (hb : b.Real) (hc : c.Real) (h1 : a.nanoseconds ≤ b.nanoseconds) (h2 : b.nanoseconds ≤ c.nanoseconds) :
    ∃ x y z : Nat, elapsed (init 0) (clock a) b = some ((x : Rat) / 1000000) ∧ elapsed (init 0) (clock b) c = some ((y : Rat) / 1000000) ∧ elapsed (init 0) (clock a) c = some ((z : Rat) / 1000000) ∧ x + y = z := by
  have one : ∀ p q : TimeSpec, p.Real → q.Real → p.nanoseconds ≤ q.nanoseconds → elapsed (init 0) (clock p) q = some (((q.sec * 1000000 + q.nsec / 1000 - (p.sec * 1000000 + p.nsec / 1000) : Nat) : Rat) / 1000000) := by
    rintro ⟨s1, n1⟩ ⟨s2, n2⟩ ⟨a1, a2⟩ ⟨b1, b2⟩ h
    unfold TimeSpec.nanoseconds at h
    dsimp only at *
    have c1 : clock ⟨s1, n1⟩ = s1 * 1000000 + n1 / 1000 := by unfold clock; dsimp only; omega
    have c2 : clock ⟨s2, n2⟩ = s2 * 1000000 + n2 / 1000 := by unfold clock; dsimp only; omega
    unfold elapsed
    rw [show init 0 = 1000000 from rfl, c1, c2]
    dsimp only
    rw [if_neg (by decide)]
    have : (s2 * 1000000 + n2 / 1000 + 2 ^ 64 - (s1 * 1000000 + n1 / 1000)) % 2 ^ 64 = (s2 * 1000000 + n2 / 1000) - (s1 * 1000000 + n1 / 1000) := by omega
    rw [this]
    rfl
  refine ⟨_, _, _, one a b ha hb h1, one b c hb hc h2, one a c ha hc (Nat.le_trans h1 h2), ?_⟩
  unfold TimeSpec.nanoseconds TimeSpec.Real at *
  omega

/-- **C173 without `timer_init`** (false). The public functions `timer_clock` and `timer_elapsed` divide by zero as long as no `TrackerProcess` has been created and nobody has called `timer_init`. -/
theorem C173_init_false (a b : TimeSpec) : elapsed 0 (clock a) b = none := rfl

/-- A second and a half, and a bit. -/
example : elapsed (init 0) (clock ⟨10, 999999999⟩) ⟨12, 500000001⟩ = some (((1500001 : Nat) : Rat) / 1000000) := rfl

example : ∃ us : Nat, elapsed (Nat.repeat init 3 0) (clock ⟨10, 999999999⟩) ⟨12, 500000001⟩ = some ((us : Rat) / 1000000) ∧ 1000 * us < 1500000002 + 1000 ∧ 1500000002 < 1000 * us + 1000 :=
  C173_elapsed_partial 2 ⟨10, 999999999⟩ ⟨12, 500000001⟩ ⟨by decide, by decide⟩ ⟨by decide, by decide⟩ (by decide)

end Trax.Timer
