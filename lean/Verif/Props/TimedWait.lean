import Verif.Model.TimedWait

/-!
# Property theorems C89: waiting with a time limit
-/

namespace Trax.TimedWait

/-- `pthread_cond_timedwait` refuses a deadline whose nanoseconds are not below 10⁹, and returns at once. -/
def Valid (nsec : Int) : Prop := 0 ≤ nsec ∧ nsec < 1000000000

/-- **C89** (partial): a wait for `timeout` milliseconds is a wait for the point in time that is `timeout` milliseconds from now, given in the form that the
system asks for, exactly if the microseconds of the clock and the limit together are less than two seconds and not exactly one second;
without a positive limit it is a wait without a limit. Missing: other limits (`C89_second_false`, `C89_long_false`). -/
theorem C89_deadline_partial (sec usec timeout : Int) (hu : 0 ≤ usec) (_hu' : usec < 1000000) :
    (timeout ≤ 0 → wait sec usec timeout = .forever) ∧
    (0 < timeout → ((∃ s n, wait sec usec timeout = .until s n ∧ Valid n ∧
        s * 1000000000 + n = (sec * 1000000 + usec + timeout * 1000) * 1000) ↔
      (usec + timeout * 1000 < 2000000 ∧ usec + timeout * 1000 ≠ 1000000))) := by
  refine ⟨fun h => ?_, fun h => ?_⟩
  · unfold wait condWait
    rw [if_neg (by omega), if_pos (by omega)]
  · unfold wait condWait
    rw [if_pos h, if_neg (by omega)]
    dsimp only
    split
    · constructor
      · rintro ⟨s, n, h1, h2, h3⟩
        injection h1 with h1 h4
        subst h1 h4
        unfold Valid at h2
        omega
      · intro hb
        exact ⟨_, _, rfl, by unfold Valid; omega, by omega⟩
    · constructor
      · rintro ⟨s, n, h1, h2, h3⟩
        injection h1 with h1 h4
        subst h1 h4
        unfold Valid at h2
        omega
      · intro hb
        exact ⟨_, _, rfl, by unfold Valid; omega, by omega⟩

/-- Half a second from 0.7 seconds after the full second. -/
example : wait 100 700000 500 = .until 101 200000000 := rfl

/-- **C89** fails as stated: a wait for one second (the only limit that the library uses) that begins at a full second is refused by the system. -/
theorem C89_second_false : wait 100 0 1000 = .until 100 1000000000 ∧ ¬ Valid 1000000000 := ⟨rfl, by unfold Valid; omega⟩

/-- **C89** fails as stated: so is every wait for two seconds or more. -/
theorem C89_long_false (sec usec timeout : Int) (hu : 0 ≤ usec) (ht : 2000 ≤ timeout) :
    ∃ s n, wait sec usec timeout = .until s n ∧ ¬ Valid n := by
  unfold wait condWait
  rw [if_pos (by omega), if_neg (by omega)]
  dsimp only
  rw [if_pos (by omega)]
  exact ⟨_, _, rfl, by unfold Valid; omega⟩

end Trax.TimedWait
