import Verif.Model.Lock
import Verif.Spec.Lock

/-!
# Property theorems C83: the recursive lock
-/

namespace Trax.Lock
open Trax.Lock.Spec (depth held)

theorem held_acquired (t u : Nat) (log : List Event) : held t (log ++ [.acquired u]) = if u = t then held t log + 1 else held t log := by
  simp [held, depth]

theorem held_released (t u : Nat) (log : List Event) : held t (log ++ [.released u]) = if u = t then held t log - 1 else held t log := by
  simp [held, depth]

/-- What holds for thread `t`. -/
def At (s : State) (t : Nat) : Prop :=
  match s.pc t with
  | .idle | .acquire => (s.owner = some t ∧ s.counter = held t s.log ∧ 1 ≤ held t s.log) ∨ (s.mutex ≠ some t ∧ held t s.log = 0)
  | .lock => s.mutex ≠ some t ∧ held t s.log = 0
  | .setOwner => s.mutex = some t ∧ s.owner ≠ some t ∧ held t s.log = 0
  | .clear => s.owner = some t ∧ held t s.log = 0
  | .increment => s.owner = some t ∧ s.counter = held t s.log
  | .release => (s.owner = some t ∧ s.counter = held t s.log + 1) ∨ (s.mutex ≠ some t ∧ held t s.log = 0)
  | .decrement => s.owner = some t ∧ s.counter = held t s.log + 1
  | .test => s.owner = some t ∧ s.counter = held t s.log
  | .clearOwner => s.owner = some t ∧ held t s.log = 0
  | .unlock => s.mutex = some t ∧ s.owner ≠ some t ∧ held t s.log = 0

/-- The invariant. -/
structure Inv (s : State) : Prop where
  owner : ∀ t, s.owner = some t → s.mutex = some t
  threads : ∀ t, At s t

theorem Inv.fresh : Inv State.fresh := ⟨fun t h => (by cases h), fun t => by right; exact ⟨by simp [State.fresh], rfl⟩⟩

/-- What another thread may change. -/
structure Other (s s' : State) (u : Nat) : Prop where
  pc : s'.pc u = s.pc u
  held : held u s'.log = held u s.log
  mutex : s'.mutex = some u ↔ s.mutex = some u
  owner : s'.owner = some u ↔ s.owner = some u
  counter : s.owner = some u → s'.counter = s.counter

theorem Other.at {s s' : State} {u : Nat} (h : Other s s' u) (k : At s u) : At s' u := by
  have hc := h.counter
  unfold At at k ⊢
  rw [h.pc, h.held, h.owner]
  have hm : (s'.mutex ≠ some u) = (s.mutex ≠ some u) := by
    simp only [ne_eq, h.mutex]
  rw [hm, h.mutex]
  have ho : (s'.owner ≠ some u) = (s.owner ≠ some u) := by
    simp only [ne_eq, h.owner]
  rw [ho]
  split <;> rename_i hpc <;> simp only [hpc] at k
  · rcases k with ⟨k1, k2⟩ | k
    · left; exact ⟨k1, by rw [hc k1]; exact k2⟩
    · exact .inr k
  · rcases k with ⟨k1, k2⟩ | k
    · left; exact ⟨k1, by rw [hc k1]; exact k2⟩
    · exact .inr k
  · exact k
  · exact k
  · exact k
  · exact ⟨k.1, by rw [hc k.1]; exact k.2⟩
  · rcases k with ⟨k1, k2⟩ | k
    · left; exact ⟨k1, by rw [hc k1]; exact k2⟩
    · exact .inr k
  · exact ⟨k.1, by rw [hc k.1]; exact k.2⟩
  · exact ⟨k.1, by rw [hc k.1]; exact k.2⟩
  · exact k
  · exact k

theorem goto_self (s : State) (t : Nat) (c : PC) : (s.goto t c).pc t = c := by simp [State.goto]
theorem goto_other (s : State) (t u : Nat) (c : PC) (h : u ≠ t) : (s.goto t c).pc u = s.pc u := by simp [State.goto, h]

theorem Inv.intro {s s' : State} (t : Nat) (ho : ∀ u, s'.owner = some u → s'.mutex = some u) (ht : At s' t) (h : Inv s)
    (hu : ∀ u, u ≠ t → Other s s' u) : Inv s' := by
  refine ⟨ho, fun u => ?_⟩
  by_cases hut : u = t
  · subst hut; exact ht
  · exact (hu u hut).at (h.threads u)

theorem Inv.step {s s' : State} {t : Nat} {c : Call} (h : Inv s) (hx : step s t c = .ok s') : Inv s' := by
  have ht := h.threads t
  have hother : ∀ u, u ≠ t → s.owner = some t → s.owner ≠ some u := by
    intro u hut h1 h2
    rw [h1] at h2
    injection h2 with h2
    exact hut h2.symm
  unfold Lock.step at hx
  unfold At at ht
  split at hx <;> rename_i hpc <;> simp only [hpc] at ht
  · split at hx
    · injection hx with hx; subst hx
      refine Inv.intro t h.owner ?_ h (fun u hu => ⟨goto_other s t u _ hu, rfl, Iff.rfl, Iff.rfl, fun _ => rfl⟩)
      unfold At; rw [goto_self]; exact ht
    · injection hx with hx; subst hx
      refine Inv.intro t h.owner ?_ h
        (fun u hu => ⟨goto_other s t u _ hu, by rw [held_released, if_neg (Ne.symm hu)], Iff.rfl, Iff.rfl, fun _ => rfl⟩)
      unfold At; dsimp only; rw [goto_self]; dsimp only
      rw [held_released, if_pos rfl]
      rcases ht with ⟨h1, h2, h3⟩ | ⟨h1, h2⟩
      · left; exact ⟨h1, by show s.counter = _; omega⟩
      · right; exact ⟨h1, by omega⟩
  · injection hx with hx; subst hx
    refine Inv.intro t h.owner ?_ h (fun u hu => ⟨goto_other s t u _ hu, rfl, Iff.rfl, Iff.rfl, fun _ => rfl⟩)
    unfold At; rw [goto_self]
    by_cases ho : s.owner = some t
    · rw [if_pos ho]
      rcases ht with ⟨h1, h2, h3⟩ | ⟨h1, h2⟩
      · exact ⟨h1, h2⟩
      · exact absurd (h.owner t ho) h1
    · rw [if_neg ho]
      rcases ht with ⟨h1, h2, h3⟩ | ⟨h1, h2⟩
      · exact absurd h1 ho
      · exact ⟨h1, h2⟩
  · split at hx
    · rename_i hm
      injection hx with hx; subst hx
      have hn : ∀ u, s.owner ≠ some u := fun u hu => by rw [h.owner u hu] at hm; cases hm
      refine Inv.intro t (fun u hu => absurd hu (hn u)) ?_ h
        (fun u hu => ⟨goto_other s t u _ hu, rfl, ⟨fun x => ?_, fun x => ?_⟩, Iff.rfl, fun _ => rfl⟩)
      · unfold At; dsimp only; rw [goto_self]; exact ⟨rfl, hn t, ht.2⟩
      · injection x with x; exact absurd x.symm hu
      · rw [hm] at x; cases x
    · injection hx with hx; subst hx; exact h
  · injection hx with hx; subst hx
    obtain ⟨h1, h2, h3⟩ := ht
    have hn : ∀ u, u ≠ t → s.owner ≠ some u := fun u hu ho => by
      rw [h.owner u ho] at h1; injection h1 with h1; exact hu h1
    refine Inv.intro t (fun u hu => ?_) ?_ h (fun u hu => ⟨goto_other s t u _ hu, rfl, Iff.rfl, ⟨fun x => ?_, fun x => ?_⟩, fun _ => rfl⟩)
    · injection hu with hu; subst hu; exact h1
    · unfold At; dsimp only; rw [goto_self]; exact ⟨rfl, h3⟩
    · injection x with x; exact absurd x.symm hu
    · exact absurd x (hn u hu)
  · injection hx with hx; subst hx
    refine Inv.intro t h.owner ?_ h
      (fun u hu => ⟨goto_other s t u _ hu, rfl, Iff.rfl, Iff.rfl, fun x => absurd x (hother u hu ht.1)⟩)
    unfold At; dsimp only; rw [goto_self]
    refine ⟨ht.1, ?_⟩
    show (0 : Int) = ((held t s.log : Nat) : Int)
    rw [ht.2]; rfl
  · split at hx
    · injection hx with hx; subst hx
      refine Inv.intro t h.owner ?_ h
        (fun u hu => ⟨goto_other s t u _ hu, by rw [held_acquired, if_neg (Ne.symm hu)], Iff.rfl, Iff.rfl, fun x => absurd x (hother u hu ht.1)⟩)
      unfold At; dsimp only; rw [goto_self]; dsimp only
      rw [held_acquired, if_pos rfl]
      left
      exact ⟨ht.1, by rw [ht.2]; rfl, by omega⟩
    · cases hx
  · injection hx with hx; subst hx
    refine Inv.intro t h.owner ?_ h (fun u hu => ⟨goto_other s t u _ hu, rfl, Iff.rfl, Iff.rfl, fun _ => rfl⟩)
    unfold At; rw [goto_self]
    by_cases ho : s.owner = some t
    · rw [if_pos ho]
      rcases ht with ⟨h1, h2⟩ | ⟨h1, h2⟩
      · exact ⟨h1, h2⟩
      · exact absurd (h.owner t ho) h1
    · rw [if_neg ho]
      rcases ht with ⟨h1, h2⟩ | ⟨h1, h2⟩
      · exact absurd h1 ho
      · exact .inr ⟨h1, h2⟩
  · injection hx with hx; subst hx
    refine Inv.intro t h.owner ?_ h
      (fun u hu => ⟨goto_other s t u _ hu, rfl, Iff.rfl, Iff.rfl, fun x => absurd x (hother u hu ht.1)⟩)
    unfold At; dsimp only; rw [goto_self]
    exact ⟨ht.1, by show s.counter - 1 = ((held t s.log : Nat) : Int); omega⟩
  · injection hx with hx; subst hx
    refine Inv.intro t h.owner ?_ h (fun u hu => ⟨goto_other s t u _ hu, rfl, Iff.rfl, Iff.rfl, fun _ => rfl⟩)
    unfold At; rw [goto_self]
    by_cases hc : s.counter < 1
    · rw [if_pos hc]
      exact ⟨ht.1, by show held t s.log = 0; omega⟩
    · rw [if_neg hc]
      left
      exact ⟨ht.1, ht.2, by show 1 ≤ held t s.log; omega⟩
  · injection hx with hx; subst hx
    refine Inv.intro t (fun u hu => by cases hu) ?_ h
      (fun u hu => ⟨goto_other s t u _ hu, rfl, Iff.rfl, ⟨fun x => (by cases x), fun x => absurd x (hother u hu ht.1)⟩, fun _ => rfl⟩)
    unfold At; dsimp only; rw [goto_self]
    exact ⟨h.owner t ht.1, by simp, ht.2⟩
  · split at hx
    · rename_i hm
      injection hx with hx; subst hx
      have hn : ∀ u, s.owner ≠ some u := fun u hu => by
        have := h.owner u hu
        rw [hm] at this
        injection this with this
        subst this
        exact ht.2.1 hu
      refine Inv.intro t (fun u hu => absurd hu (hn u)) ?_ h
        (fun u hu => ⟨goto_other s t u _ hu, rfl, ⟨fun x => (by cases x), fun x => ?_⟩, Iff.rfl, fun _ => rfl⟩)
      · unfold At; dsimp only; rw [goto_self]; right; exact ⟨by simp, ht.2.2⟩
      · rw [hm] at x; injection x with x; exact absurd x.symm hu
    · cases hx

theorem Inv.run {schedule : List (Nat × Call)} {s s' : State} (h : Inv s) (hx : run schedule s = .ok s') : Inv s' := by
  induction schedule generalizing s with
  | nil => injection hx with hx; subst hx; exact h
  | cons a rest ih =>
    rcases a with ⟨t, c⟩
    unfold Lock.run at hx
    rcases e : Lock.step s t c with s1 | _ | _
    · rw [e] at hx; exact ih (h.step e) hx
    · rw [e] at hx; cases hx
    · rw [e] at hx; cases hx

/-- Whoever has taken the lock is the owner, or about to be counted. -/
theorem Inv.held {s : State} (h : Inv s) (t : Nat) (hd : 0 < held t s.log) : s.owner = some t := by
  have k := h.threads t
  unfold At at k
  split at k
  · rcases k with k | k
    · exact k.1
    · omega
  · rcases k with k | k
    · exact k.1
    · omega
  · omega
  · omega
  · omega
  · exact k.1
  · rcases k with k | k
    · exact k.1
    · omega
  · exact k.1
  · exact k.1
  · omega
  · omega

/-- **C83** (exclusion): in every interleaving of any number of threads, at most one thread has taken the lock and not given it back. -/
theorem C83_exclusion (schedule : List (Nat × Call)) (s : State) (h : run schedule .fresh = .ok s) (t u : Nat)
    (ht : 0 < held t s.log) (hu : 0 < held u s.log) : t = u := by
  have k := Inv.fresh.run h
  have h1 := k.held t ht
  rw [k.held u hu] at h1
  injection h1 with h1
  exact h1.symm

/-- **C83** (recursion): a thread that has taken the lock is never kept waiting when it takes it again or gives it back: every step
that it makes changes its place, until it is outside again. -/
theorem C83_recursion (schedule : List (Nat × Call)) (s : State) (h : run schedule .fresh = .ok s) (t : Nat)
    (ht : 0 < held t s.log) (c : Call) (s' : State) (hx : step s t c = .ok s') : s.pc t ≠ .lock ∧ s'.pc t ≠ s.pc t := by
  have k := Inv.fresh.run h
  have ho := k.held t ht
  have ka := k.threads t
  unfold At at ka
  unfold step at hx
  refine ⟨fun hl => ?_, ?_⟩
  · simp only [hl] at ka; omega
  · split at hx <;> rename_i hpc <;> simp only [hpc] at ka
    · split at hx <;> (injection hx with hx; subst hx; (try dsimp only); rw [goto_self, hpc]; simp)
    · injection hx with hx; subst hx; rw [goto_self, hpc]; split <;> simp
    · omega
    · injection hx with hx; subst hx; dsimp only; rw [goto_self, hpc]; simp
    · injection hx with hx; subst hx; dsimp only; rw [goto_self, hpc]; simp
    · split at hx
      · injection hx with hx; subst hx; dsimp only; rw [goto_self, hpc]; simp
      · cases hx
    · injection hx with hx; subst hx; rw [goto_self, hpc]; split <;> simp
    · injection hx with hx; subst hx; dsimp only; rw [goto_self, hpc]; simp
    · injection hx with hx; subst hx; rw [goto_self, hpc]; split <;> simp
    · injection hx with hx; subst hx; dsimp only; rw [goto_self, hpc]; simp
    · split at hx
      · injection hx with hx; subst hx; dsimp only; rw [goto_self, hpc]; simp
      · cases hx

/-- **C83** (release): when every thread is outside of the lock's methods and has given the lock back as often as it took it, the
lock is free: nobody holds the mutex. -/
theorem C83_free (schedule : List (Nat × Call)) (s : State) (h : run schedule .fresh = .ok s) (hi : ∀ t, s.pc t = .idle)
    (hd : ∀ t, held t s.log = 0) : s.mutex = none ∧ s.owner = none := by
  have k := Inv.fresh.run h
  have hm : ∀ t, s.mutex ≠ some t := by
    intro t hm
    have ka := k.threads t
    unfold At at ka
    rw [hi t] at ka
    rcases ka with ka | ka
    · have := hd t; omega
    · exact ka.1 hm
  refine ⟨?_, ?_⟩
  · rcases e : s.mutex with _ | t
    · rfl
    · exact absurd e (hm t)
  · rcases e : s.owner with _ | t
    · rfl
    · exact absurd (k.owner t e) (hm t)

theorem step_safe (s : State) (t : Nat) (c : Call) (h : Inv s) (hc : s.counter < 2147483647) :
    ∃ s', step s t c = .ok s' ∧ s'.counter ≤ max s.counter 0 + 1 := by
  have ka := h.threads t
  unfold At at ka
  unfold step
  split <;> rename_i hpc <;> simp only [hpc] at ka
  · split <;> exact ⟨_, rfl, by (try dsimp only [State.goto]); omega⟩
  · exact ⟨_, rfl, by dsimp only [State.goto]; omega⟩
  · split <;> exact ⟨_, rfl, by (try dsimp only [State.goto]); omega⟩
  · exact ⟨_, rfl, by dsimp only [State.goto]; omega⟩
  · exact ⟨_, rfl, by dsimp only [State.goto]; omega⟩
  · rw [if_pos (by omega)]; exact ⟨_, rfl, by dsimp only [State.goto]; omega⟩
  · exact ⟨_, rfl, by dsimp only [State.goto]; omega⟩
  · exact ⟨_, rfl, by dsimp only [State.goto]; omega⟩
  · exact ⟨_, rfl, by dsimp only [State.goto]; omega⟩
  · exact ⟨_, rfl, by dsimp only [State.goto]; omega⟩
  · rw [if_pos ka.1]; exact ⟨_, rfl, by dsimp only [State.goto]; omega⟩

/-- **C83** (safety): no interleaving of fewer than 2³¹ steps releases a mutex that the thread does not hold, or overflows the counter: releasing a lock
that one has not taken does nothing. -/
theorem C83_safe (schedule : List (Nat × Call)) (h : schedule.length < 2147483648) : ∃ s, run schedule .fresh = .ok s := by
  have key : ∀ (schedule : List (Nat × Call)) (s : State), Inv s → 0 ≤ max s.counter 0 →
      max s.counter 0 + schedule.length < 2147483648 → ∃ s', run schedule s = .ok s' := by
    intro schedule
    induction schedule with
    | nil => intro s _ _ _; exact ⟨s, rfl⟩
    | cons a rest ih =>
      intro s hi _ hl
      rcases a with ⟨t, c⟩
      simp only [List.length_cons] at hl
      obtain ⟨s1, e, hc⟩ := step_safe s t c hi (by omega)
      unfold run
      rw [e]
      exact ih s1 (hi.step e) (by omega) (by omega)
  exact key schedule .fresh Inv.fresh (by simp [State.fresh]) (by simp [State.fresh]; omega)

/-- Two threads: thread 1 takes the lock twice, thread 2 waits, thread 1 gives it back twice, thread 2 takes it. -/
def demo : List (Nat × Call) :=
  List.replicate 6 (1, .acquire) ++ List.replicate 4 (2, .acquire) ++ List.replicate 3 (1, .acquire) ++
  List.replicate 4 (1, .release) ++ List.replicate 2 (2, .acquire)

/-- In the middle of the schedule thread 1 has taken the lock twice, and thread 2 is kept waiting. -/
example : ∃ s, run (demo.take 13) .fresh = .ok s ∧ held 1 s.log = 2 ∧ held 2 s.log = 0 ∧ s.pc 2 = .lock := by
  refine ⟨_, rfl, ?_, ?_, ?_⟩ <;> decide +kernel

/-- Later thread 1 has given it back and thread 2 has it. -/
example : ∃ s, run (demo ++ List.replicate 4 (1, .release) ++ List.replicate 3 (1, .release) ++ List.replicate 4 (2, .acquire)) .fresh = .ok s ∧
    held 1 s.log = 0 ∧ held 2 s.log = 1 := by
  refine ⟨_, rfl, ?_, ?_⟩ <;> decide +kernel

end Trax.Lock
