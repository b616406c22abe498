import Verif.Spec.ChildStatus

/-!
# C172: the process of a tracker and its status
-/

namespace Trax.Child
open Trax.Child.Spec

/-- The state agrees with what is known. -/
def Agrees (sp : Spawned) : Known → State → Prop
  | .running, s => s.p.running = true ∧ s.p.pid = sp.pid ∧ s.p.stdin = some sp.stdin ∧ s.p.stdout = some sp.stdout ∧ s.p.stderr = some sp.stderr ∧ s.child = .running
  | .ended f, s => s.p.running = true ∧ s.p.pid = sp.pid ∧ s.p.stdin = some sp.stdin ∧ s.p.stdout = some sp.stdout ∧ s.p.stderr = some sp.stderr ∧ s.child = .dead f ∧ Real f
  | .noticed f, s => s.p.running = false ∧ s.p.exitStatus = some (status f) ∧ s.child = .reaped

theorem isAlive_run {s : State} (h1 : s.p.running = true) (h6 : s.child = .running) : isAlive s = (true, some 0, s) := by
  obtain ⟨p, child, log⟩ := s
  dsimp only at h1 h6
  subst h6
  unfold isAlive
  simp [h1, waitpid]

theorem isAlive_running {sp : Spawned} {s : State} (h : Agrees sp .running s) : isAlive s = (true, some 0, s) := isAlive_run h.1 h.2.2.2.2.2

theorem isAlive_noticed {sp : Spawned} {f : Fate} {s : State} (h : Agrees sp (.noticed f) s) : isAlive s = (false, some (status f), s) := by
  unfold isAlive
  rw [h.1, h.2.1]
  rfl

theorem isAlive_dead {f : Fate} {s : State} (h1 : s.p.running = true) (hp : 0 < s.p.pid) (h6 : s.child = .dead f) (h7 : Real f) :
    isAlive s = (false, some (status f), { s with child := .reaped, p := { s.p with running := false, exitStatus := some (status f) } }) := by
  obtain ⟨p, child, log⟩ := s
  dsimp only at h1 hp h6 ⊢
  subst h6
  unfold isAlive
  rw [h1]
  dsimp only [waitpid]
  rw [if_neg (by simp), if_neg (by omega)]
  cases f with
  | exit code =>
    have e1 : wifExited (waitStatus (.exit code)) = true := by
      unfold wifExited waitStatus
      simp only [beq_iff_eq]
      omega
    have e2 : ((wExitStatus (waitStatus (.exit code)) : Nat) : Int) = code % 256 := by
      unfold wExitStatus waitStatus
      have := Int.emod_nonneg code (show (256 : Int) ≠ 0 by decide)
      have := Int.emod_lt_of_pos code (show (0 : Int) < 256 by decide)
      dsimp only
      omega
    rw [if_pos e1, e2]
    rfl
  | signal n core =>
    obtain ⟨r1, r2⟩ := h7
    have e0 : waitStatus (.signal n core) % 128 = n := by
      unfold waitStatus
      dsimp only
      split <;> omega
    rw [if_neg (by unfold wifExited; rw [e0]; simp; omega), if_pos (by unfold wifSignaled; rw [e0]; simp; omega)]
    unfold wTermSig
    rw [e0]
    rfl

theorem isAlive_ended {sp : Spawned} (hp : 0 < sp.pid) {f : Fate} {s : State} (h : Agrees sp (.ended f) s) :
    isAlive s = (false, some (status f), { s with child := .reaped, p := { s.p with running := false, exitStatus := some (status f) } }) :=
  isAlive_dead h.1 (by rw [h.2.1]; exact hp) h.2.2.2.2.2.1 h.2.2.2.2.2.2

theorem signal_any {sp : Spawned} (hp : 0 < sp.pid) {s : State} : (Agrees sp .running s → (signal s).1 = true ∧ Agrees sp .running (signal s).2) ∧
    (∀ f, Agrees sp (.ended f) s → (signal s).1 = true ∧ Agrees sp (.noticed f) (signal s).2) ∧ (∀ f, Agrees sp (.noticed f) s → (signal s).1 = true ∧ Agrees sp (.noticed f) (signal s).2) := by
  refine ⟨fun h => ?_, fun f h => ?_, fun f h => ?_⟩
  · have h' : Agrees sp .running { s with signalled := s.signalled ++ [s.child] } := h
    unfold signal
    rw [h.1, if_pos rfl, isAlive_running h']
    exact ⟨rfl, h'⟩
  · have h' : Agrees sp (.ended f) { s with signalled := s.signalled ++ [s.child] } := h
    unfold signal
    rw [h.1, if_pos rfl, isAlive_ended hp h']
    exact ⟨rfl, rfl, rfl, rfl⟩
  · unfold signal
    rw [h.1]
    exact ⟨rfl, h⟩

/-- **C172 for the replies.** Once a child has been started, each call says of it what is so: while it runs, that it is alive; after its end, that it is not, with its code or its signal, however often and in whatever order the methods are called; and the
descriptors and the number of the process as long as the object does not know of the end. Missing from the full claim: the object is not started a second time after its child's end is known (`C172_restart_false`). -/
theorem C172_status_partial (sp : Spawned) (hp : 0 < sp.pid) (steps : List Step) (hreal : ∀ f, .ends f ∈ steps → Real f) (hstart : ∀ o, .start o ∉ steps) :
    (run (.start (some sp) :: steps) fresh).1 = .done true :: expected sp .running steps := by
  have main : ∀ (steps : List Step) (_ : ∀ f, .ends f ∈ steps → Real f) (_ : ∀ o, .start o ∉ steps) (k : Known) (s : State), Agrees sp k s → (run steps s).1 = expected sp k steps := by
    intro steps
    induction steps with
    | nil => intro _ _ k s _; cases k <;> rfl
    | cons x rest ih =>
      intro hr hs k s h
      have ih' := ih (fun f hf => hr f (by simp [hf])) (fun o ho => hs o (by simp [ho]))
      have next : ∀ (r : Option Reply) (s' : State) (k' : Known), step s x = (r, s') → Agrees sp k' s' → (run (x :: rest) s).1 = r.toList ++ expected sp k' rest := by
        intro r s' k' e a
        rw [run, e]
        show r.toList ++ (run rest s').1 = _
        rw [ih' k' s' a]
      obtain ⟨g1, g2, g3⟩ := signal_any hp (s := s)
      cases x with
      | start o => exact absurd (by simp) (hs o)
      | isAlive =>
        cases k with
        | running => exact next (some (.alive true (some 0))) s .running (by unfold step; rw [isAlive_running h]) h
        | ended f => exact next (some (.alive false (some (status f)))) _ (.noticed f) (by unfold step; rw [isAlive_ended hp h]) ⟨rfl, rfl, rfl⟩
        | noticed f => exact next (some (.alive false (some (status f)))) s (.noticed f) (by unfold step; rw [isAlive_noticed h]) h
      | stop =>
        have e : step s .stop = (some (.done (signal s).1), (signal s).2) := rfl
        cases k with
        | running => exact next (some (.done true)) _ .running (by rw [e, (g1 h).1]) (g1 h).2
        | ended f => exact next (some (.done true)) _ (.noticed f) (by rw [e, (g2 f h).1]) (g2 f h).2
        | noticed f => exact next (some (.done true)) _ (.noticed f) (by rw [e, (g3 f h).1]) (g3 f h).2
      | kill =>
        have e : step s .kill = (some (.done (signal s).1), (signal s).2) := rfl
        cases k with
        | running => exact next (some (.done true)) _ .running (by rw [e, (g1 h).1]) (g1 h).2
        | ended f => exact next (some (.done true)) _ (.noticed f) (by rw [e, (g2 f h).1]) (g2 f h).2
        | noticed f => exact next (some (.done true)) _ (.noticed f) (by rw [e, (g3 f h).1]) (g3 f h).2
      | input =>
        cases k with
        | running => exact next (some (.number (some sp.stdin))) s .running (by unfold step stream; dsimp only; rw [h.1, h.2.2.1]; rfl) h
        | ended f => exact next (some (.number (some sp.stdin))) s (.ended f) (by unfold step stream; dsimp only; rw [h.1, h.2.2.1]; rfl) h
        | noticed f => exact next (some (.number (some (-1)))) s (.noticed f) (by unfold step stream; rw [h.1]; rfl) h
      | output =>
        cases k with
        | running => exact next (some (.number (some sp.stdout))) s .running (by unfold step stream; dsimp only; rw [h.1, h.2.2.2.1]; rfl) h
        | ended f => exact next (some (.number (some sp.stdout))) s (.ended f) (by unfold step stream; dsimp only; rw [h.1, h.2.2.2.1]; rfl) h
        | noticed f => exact next (some (.number (some (-1)))) s (.noticed f) (by unfold step stream; rw [h.1]; rfl) h
      | error =>
        cases k with
        | running => exact next (some (.number (some sp.stderr))) s .running (by unfold step stream; dsimp only; rw [h.1, h.2.2.2.2.1]; rfl) h
        | ended f => exact next (some (.number (some sp.stderr))) s (.ended f) (by unfold step stream; dsimp only; rw [h.1, h.2.2.2.2.1]; rfl) h
        | noticed f => exact next (some (.number (some (-1)))) s (.noticed f) (by unfold step stream; rw [h.1]; rfl) h
      | handle =>
        cases k with
        | running => exact next (some (.number (some sp.pid))) s .running (by unfold step Child.handle; dsimp only; rw [h.1, h.2.1]; rfl) h
        | ended f => exact next (some (.number (some sp.pid))) s (.ended f) (by unfold step Child.handle; dsimp only; rw [h.1, h.2.1]; rfl) h
        | noticed f => exact next (some (.number (some 0))) s (.noticed f) (by unfold step Child.handle; rw [h.1]; rfl) h
      | ends f =>
        cases k with
        | running =>
          obtain ⟨a1, a2, a3, a4, a5, a6⟩ := h
          exact next Option.none { s with child := .dead f } (.ended f) (by unfold step; dsimp only; rw [if_pos a6]) ⟨a1, a2, a3, a4, a5, rfl, hr f (by simp)⟩
        | ended g => exact next Option.none s (.ended g) (by unfold step; dsimp only; rw [h.2.2.2.2.2.1]; rfl) h
        | noticed g => exact next Option.none s (.noticed g) (by unfold step; dsimp only; rw [h.2.2]; rfl) h
  have := main steps hreal hstart .running _ (show Agrees sp .running (start (some sp) fresh).2 from ⟨rfl, rfl, rfl, rfl, rfl, rfl⟩)
  show .done true :: (run steps (start (some sp) fresh).2).1 = _
  rw [this]

/-- What holds in every sequence of calls. -/
def Good (s : State) : Prop :=
  (s.p.running = true → 0 < s.p.pid ∧ (s.child = .running ∨ ∃ f, s.child = .dead f ∧ Real f)) ∧ (s.child = .running ∨ (∃ f, s.child = .dead f) → s.p.running = true) ∧ ∀ c ∈ s.signalled, c = .running ∨ ∃ f, c = .dead f

theorem good_isAlive {s : State} (h : Good s) : Good (isAlive s).2.2 := by
  cases hr : s.p.running with
  | false =>
    have : isAlive s = (false, s.p.exitStatus, s) := by unfold isAlive; rw [hr]; rfl
    rw [this]; exact h
  | true =>
    obtain ⟨hp, hc | ⟨f, hc, hf⟩⟩ := h.1 hr
    · rw [isAlive_run hr hc]; exact h
    · rw [isAlive_dead hr hp hc hf]
      exact ⟨fun h => (by cases h), fun h => (by rcases h with h | ⟨f, h⟩ <;> cases h), h.2.2⟩

theorem good_signal {s : State} (h : Good s) : Good (signal s).2 := by
  unfold signal
  split
  · rename_i hr
    apply good_isAlive
    refine ⟨h.1, h.2.1, fun c hc => ?_⟩
    rcases List.mem_append.1 hc with hc | hc
    · exact h.2.2 c hc
    · rw [List.mem_singleton.1 hc]
      obtain ⟨_, h | ⟨f, h, _⟩⟩ := h.1 hr
      · exact .inl h
      · exact .inr ⟨f, h⟩
  · exact h

theorem good_step {s : State} (h : Good s) (x : Step) (hx : ∀ sp, x = .start (some sp) → 0 < sp.pid) (hf : ∀ f, x = .ends f → Real f) : Good (step s x).2 := by
  cases x with
  | start sp =>
    show Good (start sp s).2
    unfold start
    split
    · exact h
    · rename_i hr
      have hno : ¬ (s.child = .running ∨ ∃ f, s.child = .dead f) := fun hc => hr (h.2.1 hc)
      dsimp only
      split
      · exact ⟨fun h => absurd h hr, fun hc => absurd hc hno, h.2.2⟩
      · cases sp with
        | none => exact ⟨fun h => absurd h hr, fun hc => absurd hc hno, h.2.2⟩
        | some sp => exact ⟨fun _ => ⟨hx sp rfl, .inl rfl⟩, fun _ => rfl, h.2.2⟩
  | isAlive => exact good_isAlive h
  | stop => exact good_signal h
  | kill => exact good_signal h
  | input => exact h
  | output => exact h
  | error => exact h
  | handle => exact h
  | ends f =>
    show Good (if s.child = .running then { s with child := .dead f } else s)
    split
    · rename_i hc
      exact ⟨fun hr => ⟨(h.1 hr).1, .inr ⟨f, rfl, hf f rfl⟩⟩, fun _ => h.2.1 (.inl hc), h.2.2⟩
    · exact h

theorem good_run : ∀ (steps : List Step) {s : State} (_ : Good s) (_ : ∀ sp, .start (some sp) ∈ steps → 0 < sp.pid) (_ : ∀ f, .ends f ∈ steps → Real f), Good (run steps s).2 := by
  intro steps
  induction steps with
  | nil => intro s h _ _; exact h
  | cons x rest ih =>
    intro s h hx hf
    exact ih (good_step h x (fun sp e => hx sp (by simp [e])) (fun f e => hf f (by simp [e]))) (fun sp hsp => hx sp (by simp [hsp])) (fun f hf' => hf f (by simp [hf']))

theorem good_fresh : Good fresh := ⟨fun h => (by cases h), fun h => (by rcases h with h | ⟨f, h⟩ <;> cases h), fun _ h => (by cases h)⟩

/-- **C172 for signals.** In every sequence of calls, a signal is only sent to a child that has not been waited for, so that its number cannot belong to another process. -/
theorem C172_signals (steps : List Step) (hpid : ∀ sp, .start (some sp) ∈ steps → 0 < sp.pid) (hreal : ∀ f, .ends f ∈ steps → Real f) :
    ∀ c ∈ (run steps fresh).2.signalled, c = .running ∨ ∃ f, c = .dead f := (good_run steps good_fresh hpid hreal).2.2

/-- **C172 for the end of the object.** If the child has ended before the object is destroyed, it has been waited for after that. Missing from the full claim: a child that still runs (`C172_zombie_false`). -/
theorem C172_reaped_partial (steps : List Step) (hpid : ∀ sp, .start (some sp) ∈ steps → 0 < sp.pid) (hreal : ∀ f, .ends f ∈ steps → Real f) (h : (run steps fresh).2.child ≠ .running) :
    (destroy (run steps fresh).2).child = .reaped ∨ (destroy (run steps fresh).2).child = .absent := by
  have good := good_run steps good_fresh hpid hreal
  generalize (run steps fresh).2 = s at *
  unfold destroy
  cases hr : s.p.running with
  | false =>
    have : signal s = (true, s) := by unfold signal; rw [hr]; rfl
    rw [this]
    dsimp only
    cases hc : s.child with
    | absent => exact .inr rfl
    | reaped => exact .inl rfl
    | running => exact absurd hc h
    | dead f => exact absurd (good.2.1 (.inr ⟨f, hc⟩)) (by rw [hr]; simp)
  | true =>
    obtain ⟨hp, hc | ⟨f, hc, hf⟩⟩ := good.1 hr
    · exact absurd hc h
    · left
      unfold signal
      rw [if_pos hr, isAlive_dead (s := { s with signalled := s.signalled ++ [s.child] }) hr hp hc hf]

/-- **C172 for the end of the object** (false). If the child still runs when the object is destroyed, it is sent `SIGKILL`, but nobody waits for it: it ends after the only call of `waitpid`, and stays as a zombie. -/
theorem C172_zombie_false (steps : List Step) (hpid : ∀ sp, .start (some sp) ∈ steps → 0 < sp.pid) (hreal : ∀ f, .ends f ∈ steps → Real f) (h : (run steps fresh).2.child = .running) (f : Fate) :
    (step (destroy (run steps fresh).2) (.ends f)).2.child = .dead f := by
  have good := good_run steps good_fresh hpid hreal
  generalize (run steps fresh).2 = s at *
  have hr := good.2.1 (.inl h)
  have : (destroy s).child = .running := by
    unfold destroy signal
    rw [if_pos hr, isAlive_run (s := { s with signalled := s.signalled ++ [s.child] }) hr h]
    exact h
  unfold step
  dsimp only
  rw [if_pos this]

/-- **C172 for a second start** (false). When the end of the child is known, the object cannot be started again, and the attempt loses the status of the child: -1 is reported from then on, as if signal 1 had ended it. -/
theorem C172_restart_false (sp : Spawned) (hp : 0 < sp.pid) (f : Fate) (hf : Real f) (again : Option Spawned) :
    (run [.start (some sp), .ends f, .isAlive, .start again, .isAlive] fresh).1 = [.done true, .alive false (some (status f)), .done false, .alive false (some (-1))] := by
  have e : isAlive { (start (some sp) fresh).2 with child := .dead f } = _ := isAlive_dead (f := f) rfl hp rfl hf
  rw [run]
  show .done true :: (run [.ends f, .isAlive, .start again, .isAlive] (start (some sp) fresh).2).1 = _
  rw [run]
  show .done true :: (run [.isAlive, .start again, .isAlive] { (start (some sp) fresh).2 with child := .dead f }).1 = _
  rw [run]
  unfold step
  dsimp only
  rw [e]
  have hne : sp.pid ≠ 0 := by omega
  simp [run, step, start, fresh, isAlive, hne]

/-! ## A concrete case -/

namespace Demo

def tracker : Spawned := ⟨4711, 5, 6, 8⟩

end Demo

example : (run [.start (some Demo.tracker), .isAlive, .input, .handle, .ends (.exit (-1)), .output, .isAlive, .isAlive, .output, .handle, .kill] fresh).1 =
    [.done true, .alive true (some 0), .number (some 5), .number (some 4711), .number (some 6), .alive false (some 255), .alive false (some 255), .number (some (-1)), .number (some 0), .done true] := by decide +kernel

/-- A signal is sent, and the child ends from it, with a core dump. -/
example : (run [.start (some Demo.tracker), .stop, .isAlive, .ends (.signal 11 true), .stop, .isAlive, .isAlive] fresh) =
    ([.done true, .done true, .alive true (some 0), .done true, .alive false (some (-11)), .alive false (some (-11))],
      ⟨⟨false, some (-11), 4711, some 5, some 6, some 8⟩, .reaped, [.running, .dead (.signal 11 true)]⟩) := by decide +kernel

example : (run [.start (some Demo.tracker), .isAlive, .ends (.signal 9 false), .isAlive] fresh).1 = [.done true, .alive true (some 0), .alive false (some (-9))] :=
  C172_status_partial Demo.tracker (by decide) [.isAlive, .ends (.signal 9 false), .isAlive] (by
    intro f hf
    simp only [List.mem_cons, List.not_mem_nil, or_false, reduceCtorEq, false_or, Step.ends.injEq] at hf
    subst hf
    exact ⟨by decide, by decide⟩) (by
    intro o ho
    simp at ho)

example : (step (destroy (run [.start (some Demo.tracker), .isAlive] fresh).2) (.ends (.signal 9 false))).2.child = .dead (.signal 9 false) :=
  C172_zombie_false [.start (some Demo.tracker), .isAlive] (by
    intro sp hsp
    simp only [List.mem_cons, List.not_mem_nil, or_false, reduceCtorEq, Step.start.injEq, Option.some.injEq] at hsp
    subst hsp
    decide) (by intro f hf; simp at hf) rfl _

end Trax.Child
