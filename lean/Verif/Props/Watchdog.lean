import Verif.Model.Watchdog
import Mathlib.Data.List.Induction

/-!
# Property theorem C67: the watchdog
-/

namespace Trax
open Watchdog

/-! ## Specification -/

namespace Spec

/-- Every turn of the watchdog loop runs without anything else happening in between. -/
def Uninterrupted (h : List WatchdogEvent) : Prop := ∀ c, WatchdogEvent.step c ∉ h

/-- Nobody arms or disarms the watchdog, stops the process or asks for it to be stopped. -/
def Quiet (h : List WatchdogEvent) : Prop :=
  (∀ t, WatchdogEvent.reset t ∉ h) ∧ WatchdogEvent.halt ∉ h ∧ WatchdogEvent.tick true ∉ h

/-- The number of turns of the watchdog loop. -/
def ticks (h : List WatchdogEvent) : Int := h.count (.tick false)

end Spec
open Spec

/-! ## Lemmas -/

theorem tick_spec {w : Watchdog} (hp : w.point = .idle) (c : Bool) :
    w.tick c = if (!w.alive || c) = true then w.fire
      else if w.timer > 1 then { w with timer := w.timer - 1 }
      else if w.timer = 1 then { w with timer := 0, alive := false, stops := w.stops + 1 }
      else w := by
  obtain ⟨timer, point, alive, stops⟩ := w
  dsimp only at hp
  subst hp
  unfold tick
  by_cases h1 : (!alive || c) = true
  · simp only [step, h1, if_true, fire]
  · simp only [step, h1]
    by_cases h2 : timer > 1
    · have h3 : timer > 0 := by omega
      have h4 : timer - 1 ≠ 0 := by omega
      simp [h2, h3, step, h4]
    · by_cases h3 : timer = 1
      · subst h3
        have ha : alive = true := by
          cases alive
          · simp at h1
          · rfl
        subst ha
        simp [step, fire, stopProcess]
      · have h4 : ¬ timer > 0 := by omega
        simp [h2, h3, h4]

theorem tick_idle {w : Watchdog} (hp : w.point = .idle) (c : Bool) : (w.tick c).point = .idle := by
  rw [tick_spec hp]
  split
  · rfl
  · split
    · exact hp
    · split
      · exact hp
      · exact hp

theorem run_append (w : Watchdog) (a b : List WatchdogEvent) : w.run (a ++ b) = (w.run a).bind fun w => w.run b := by
  induction a generalizing w with
  | nil => rfl
  | cons e es ih =>
    simp only [List.cons_append, run]
    cases w.apply e with
    | ok x => exact ih x
    | abort => rfl
    | ub => rfl

theorem run_idle {w w' : Watchdog} (hp : w.point = .idle) {h : List WatchdogEvent} (hu : Uninterrupted h)
    (hr : w.run h = .ok w') : w'.point = .idle := by
  induction h generalizing w with
  | nil => cases hr; exact hp
  | cons e es ih =>
    have hu' : Uninterrupted es := fun c hc => hu c (by simp [hc])
    unfold run at hr
    cases e with
    | reset t =>
      simp only [apply, Watchdog.reset, mul32] at hr
      split at hr
      · exact ih (by exact hp) hu' hr
      · cases hr
    | halt => exact ih (by exact hp) hu' hr
    | start => exact ih (by exact hp) hu' hr
    | exit => exact ih (by exact hp) hu' hr
    | tick c => exact ih (tick_idle hp c) hu' hr
    | step c => exact absurd (by simp) (hu c)

/-- The counter is positive only when the watchdog was armed, and tells how long ago. -/
theorem run_timer {h : List WatchdogEvent} (hu : Uninterrupted h) : ∀ {w : Watchdog}, initial.run h = .ok w → w.timer > 0 →
    ∃ pre t post, h = pre ++ .reset t :: post ∧ 0 < t ∧ Quiet post ∧ w.timer = 10 * t - ticks post := by
  induction h using List.reverseRecOn with
  | nil =>
    intro w hr hp
    cases hr
    simp [initial] at hp
  | append_singleton es e ih =>
    intro w hr hp
    have hu' : Uninterrupted es := fun c hc => hu c (by simp [hc])
    rw [run_append] at hr
    cases hr1 : initial.run es with
    | abort => rw [hr1] at hr; cases hr
    | ub => rw [hr1] at hr; cases hr
    | ok w₁ =>
      rw [hr1, Outcome.bind_ok, run] at hr
      have hidle : w₁.point = .idle := run_idle rfl hu' hr1
      cases e with
      | reset t =>
        simp only [apply, Watchdog.reset, mul32] at hr
        split at hr
        · simp only [Outcome.map, Outcome.bind_ok, run] at hr
          cases hr
          have ht : 0 < t := by simp only at hp; omega
          exact ⟨es, t, [], rfl, ht, by simp [Quiet], by simp [ticks]; omega⟩
        · cases hr
      | halt =>
        simp only [apply, Outcome.bind_ok, run] at hr
        cases hr
        simp [stopProcess] at hp
      | start =>
        simp only [apply, Outcome.bind_ok, run] at hr
        cases hr
        obtain ⟨pre, t, post, rfl, ht, ⟨q1, q2, q3⟩, hw⟩ := ih hu' hr1 hp
        refine ⟨pre, t, post ++ [.start], by simp, ht, ⟨?_, ?_, ?_⟩, ?_⟩
        · simpa using q1
        · simpa using q2
        · simpa using q3
        · simpa [ticks] using hw
      | exit =>
        simp only [apply, Outcome.bind_ok, run] at hr
        cases hr
        obtain ⟨pre, t, post, rfl, ht, ⟨q1, q2, q3⟩, hw⟩ := ih hu' hr1 hp
        refine ⟨pre, t, post ++ [.exit], by simp, ht, ⟨?_, ?_, ?_⟩, ?_⟩
        · simpa using q1
        · simpa using q2
        · simpa using q3
        · simpa [ticks] using hw
      | step c => exact absurd (by simp) (hu c)
      | tick c =>
        simp only [apply, Outcome.bind_ok, run] at hr
        cases hr
        rw [tick_spec hidle] at hp ⊢
        split at hp
        · simp [fire, stopProcess] at hp
        · next hc =>
          rw [if_neg hc]
          have hcf : c = false := by
            cases c
            · rfl
            · simp at hc
          subst hcf
          split at hp
          · next h1 =>
            rw [if_pos h1]
            obtain ⟨pre, t, post, rfl, ht, ⟨q1, q2, q3⟩, hw⟩ := ih hu' hr1 (by omega)
            refine ⟨pre, t, post ++ [.tick false], by simp, ht, ⟨?_, ?_, ?_⟩, ?_⟩
            · simpa using q1
            · simpa using q2
            · simpa using q3
            · simp only [ticks, List.count_append, List.count_singleton_self] at hw ⊢
              push_cast
              omega
          · next h1 =>
            split at hp
            · simp at hp
            · omega

/-- The turns after the watchdog was armed. -/
theorem run_ticks {w : Watchdog} (hp : w.point = .idle) (ha : w.alive = true) (k : Nat) (hk : (k : Int) < w.timer) :
    w.run (List.replicate k (.tick false)) = .ok { w with timer := w.timer - k } := by
  induction k generalizing w with
  | zero => simp [run]
  | succ k ih =>
    rw [List.replicate_succ, run, apply, Outcome.bind_ok, tick_spec hp]
    rw [if_neg (by simp [ha]), if_pos (by omega), ih (by exact hp) (by exact ha) (by simp only; omega)]
    simp only [Outcome.ok.injEq, Watchdog.mk.injEq, and_true, true_and]
    push_cast
    omega

/-! ## The property -/

/-- **C67** (partial): take any history in which the turns of the watchdog loop are not interrupted.

When the tracker is alive and the watchdog is armed with `t` seconds, then during the following
`10 t - 1` turns of its loop (one turn takes 0.1 s) the tracker is left alone, and at the next turn it is stopped.

When the watchdog stops a tracker that is alive and no callback asked for it, then it was armed
`10 t` turns earlier with `t` seconds, and was neither re-armed nor disarmed since.

Missing: a turn that is interrupted by the calling thread, which sets the counter without holding the
lock of the watchdog; then both claims are false (`C67_race_false`). -/
theorem C67_watchdog_partial (h : List WatchdogEvent) (hu : Uninterrupted h) (w : Watchdog) (hw : initial.run h = .ok w) :
    (∀ t : Int, 0 < t → t ≤ 214748364 → w.alive = true → ∀ k : Nat,
      (k < 10 * t → ∃ w', initial.run (h ++ .reset t :: List.replicate k (.tick false)) = .ok w' ∧ w'.alive = true ∧ w'.stops = w.stops) ∧
      (k = 10 * t → ∃ w', initial.run (h ++ .reset t :: List.replicate k (.tick false)) = .ok w' ∧ w'.alive = false ∧ w'.stops = w.stops + 1)) ∧
    (∀ w', initial.run (h ++ [.tick false]) = .ok w' → w'.stops ≠ w.stops →
      w.alive = true ∧ ∃ pre t post, h = pre ++ .reset t :: post ∧ 0 < t ∧ Quiet post ∧ ticks post + 1 = 10 * t) ∧
    (∀ w', initial.run (h ++ [.tick false]) = .ok w' → w.alive = true → w'.alive = false → w'.stops ≠ w.stops) := by
  have hidle : w.point = .idle := run_idle rfl hu hw
  have hstep : ∀ w', initial.run (h ++ [.tick false]) = .ok w' → w' = w.tick false := by
    intro w' hr
    rw [run_append, hw] at hr
    cases hr
    rfl
  refine ⟨?_, ?_, ?_⟩
  · intro t ht hmax ha k
    have hm : InInt32 (t * 10) := by unfold InInt32; omega
    have e1 : ∀ k, initial.run (h ++ .reset t :: List.replicate k (.tick false))
        = ({ w with timer := t * 10 } : Watchdog).run (List.replicate k (.tick false)) := by
      intro k
      rw [run_append, hw, Outcome.bind_ok, run]
      simp only [apply, Watchdog.reset, mul32, hm, if_true, Outcome.map, Outcome.bind_ok]
    constructor
    · intro hk
      rw [e1, run_ticks (by exact hidle) (by exact ha) k (by simp only; omega)]
      exact ⟨_, rfl, ha, rfl⟩
    · intro hk
      obtain ⟨m, rfl⟩ : ∃ m, k = m + 1 := ⟨k - 1, by omega⟩
      rw [e1, List.replicate_succ', run_append, run_ticks (by exact hidle) (by exact ha) m (by simp only; omega)]
      rw [Outcome.bind_ok, run, apply, Outcome.bind_ok, tick_spec (by exact hidle)]
      have hone : t * 10 - (m : Int) = 1 := by omega
      rw [if_neg (by simp [ha]), if_neg (by simp only; omega), if_pos hone]
      exact ⟨_, rfl, rfl, rfl⟩
  · intro w' hr hs
    have := hstep w' hr
    subst this
    rw [tick_spec hidle] at hs
    split at hs
    · next hc =>
      have ha : w.alive = false := by simpa using hc
      simp [fire, ha] at hs
    · next hc =>
      have ha : w.alive = true := by simpa using hc
      refine ⟨ha, ?_⟩
      split at hs
      · exact absurd rfl hs
      · split at hs
        · next h1 =>
          obtain ⟨pre, t, post, he, ht, hq, htm⟩ := run_timer hu hw (by omega)
          exact ⟨pre, t, post, he, ht, hq, by omega⟩
        · exact absurd rfl hs
  · intro w' hr ha hd
    have := hstep w' hr
    subst this
    rw [tick_spec hidle] at hd ⊢
    rw [if_neg (by simp [ha])] at hd ⊢
    split at hd
    · rw [ha] at hd; cases hd
    · next h1 =>
      rw [if_neg h1]
      split at hd
      · next h2 => rw [if_pos h2]; simp
      · rw [ha] at hd; cases hd

/-- A tracker that answers in time twice, and then does not answer. -/
example : Uninterrupted ([.start, .reset 1] ++ List.replicate 9 (.tick false) ++ [.reset 0, .tick false, .tick false, .reset 2]
      ++ List.replicate 19 (.tick false)) ∧
    initial.run ([.start, .reset 1] ++ List.replicate 9 (.tick false) ++ [.reset 0, .tick false, .tick false, .reset 2]
      ++ List.replicate 19 (.tick false)) = .ok ⟨1, .idle, true, 0⟩ ∧
    initial.run ([.start, .reset 1] ++ List.replicate 9 (.tick false) ++ [.reset 0, .tick false, .tick false, .reset 2]
      ++ List.replicate 20 (.tick false)) = .ok ⟨0, .idle, false, 1⟩ := by
  refine ⟨?_, by decide +kernel, by decide +kernel⟩
  intro c
  cases c <;> decide +kernel

/-- The full claim of C67 is false. (1) The answer of the tracker arrives while the watchdog has
just counted down: the counter is reset to zero, the watchdog sees zero and stops the tracker, long before the
timeout. (2) The watchdog overwrites the zero that disarms it and stops the tracker although it is
disarmed. (3) The watchdog overwrites a new timeout. -/
theorem C67_race_false :
    initial.run [.start, .reset 30, .step false, .step false, .step false, .reset 0, .step false] = .ok ⟨0, .idle, false, 1⟩ ∧
    initial.run ([.start, .reset 1, .step false, .step false, .reset 0, .step false, .step false] ++ List.replicate 9 (.tick false))
      = .ok ⟨0, .idle, false, 1⟩ ∧
    initial.run ([.start, .reset 1] ++ List.replicate 9 (.tick false) ++ [.step false, .step false, .reset 30, .step false, .step false])
      = .ok ⟨0, .idle, false, 1⟩ := by
  refine ⟨by decide +kernel, by decide +kernel, by decide +kernel⟩

end Trax
