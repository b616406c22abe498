import Verif.Spec.Runner

/-!
# Lemmas about the tracking mode of `traxclient`
-/

namespace Trax.Cli
open Trax.Cli.Spec (Phase code note write lost onFailure judge visit visitAll)

variable {σ : Type}

theorem andThen_assoc {α β γ : Type} (x : Program α) (f : α → Program β) (g : β → Program γ) :
    Program.andThen (Program.andThen x f) g = Program.andThen x fun a => Program.andThen (f a) g := by
  rcases x with (_ | a) | _ | _ <;> rfl

theorem bind_andThen {α β γ : Type} (x : Outcome α) (f : α → Program β) (g : β → Program γ) :
    Program.andThen (x.bind f) g = x.bind fun a => Program.andThen (f a) g := by
  rcases x with a | _ | _ <;> rfl

@[simp] theorem andThen_none {α β : Type} (f : α → Program β) : Program.andThen (.ok none) f = .ok none := rfl
@[simp] theorem andThen_some {α β : Type} (a : α) (f : α → Program β) : Program.andThen (.ok (some a)) f = f a := rfl

theorem start_eq (T : Tracker σ) (f : Nat) (s : Run σ) : startTracker T f s = Spec.start T f s := rfl

/-- Frames that are passed over. -/
def passed (k : Nat) (s : Run σ) : Run σ :=
  { s with output := s.output ++ List.replicate k (code 0), timings := s.timings ++ List.replicate k none }

theorem passed_succ (k : Nat) (s : Run σ) : passed k (note (write s (code 0)) none) = passed (k + 1) s := by
  simp [passed, note, write, List.replicate_succ]

theorem passed_zero (s : Run σ) : passed 0 s = s := by simp [passed]

theorem visitAll_stopped (T : Tracker σ) (c : Config) (count f : Nat) (s : Run σ) :
    visitAll T c count f .stopped s = .ok (some (passed count s)) := by
  induction count generalizing f s with
  | zero => rw [passed_zero]; rfl
  | succ n ih =>
    show visitAll T c n (f + 1) .stopped _ = _
    rw [ih, passed_succ]

theorem visitAll_pass (T : Tracker σ) (c : Config) (k count f : Nat) (s : Run σ) :
    visitAll T c (k + count) f (.idle k) s = visitAll T c count (f + k) (.idle 0) (passed k s) := by
  induction k generalizing f s with
  | zero => rw [passed_zero, Nat.zero_add]; rfl
  | succ k ih =>
    rw [show k + 1 + count = (k + count) + 1 by omega]
    show visitAll T c (k + count) (f + 1) (.idle k) _ = _
    rw [ih, passed_succ, show f + 1 + k = f + (k + 1) by omega]

theorem visitAll_pass_end (T : Tracker σ) (c : Config) (k count f : Nat) (s : Run σ) (h : count ≤ k) :
    visitAll T c count f (.idle k) s = .ok (some (passed count s)) := by
  induction count generalizing f s k with
  | zero => rw [passed_zero]; rfl
  | succ n ih =>
    cases k with
    | zero => omega
    | succ k =>
      show visitAll T c n (f + 1) (.idle k) _ = _
      rw [ih k _ _ (by omega), passed_succ]

theorem skip_eq (T : Tracker σ) (c : Config) (hi : c.frames ≤ c.initialization.length) (count f : Nat) (s : Run σ) (h : f + count = c.frames) :
    visitAll T c count f (.idle 0) s = (skipLoop c (count + 1) f s).bind fun (f', s') =>
      if f' = c.frames then .ok (some s') else (startTracker T f' s').andThen fun s =>
        (judge T c f' (fun _ => code 1) s).andThen fun (ph, s) => visitAll T c (c.frames - f' - 1) (f' + 1) ph s := by
  induction count generalizing f s with
  | zero =>
    have hf : f = c.frames := by omega
    unfold skipLoop
    rw [if_neg (by omega)]
    show _ = if f = c.frames then _ else _
    rw [if_pos hf]
    rfl
  | succ n ih =>
    unfold skipLoop
    rw [if_pos (by omega)]
    simp only [visitAll, visit]
    rcases hc : c.initialization[f]? with _ | _ | r
    · rw [List.getElem?_eq_none_iff] at hc; omega
    · exact ih (f + 1) _ (by omega)
    · show _ = if f = c.frames then _ else _
      rw [if_neg (by omega), start_eq]
      dsimp only [Option.join_some]
      rw [andThen_assoc, show c.frames - f - 1 = n by omega]

theorem recover_eq (T : Tracker σ) (c : Config) (f : Nat) (s : Run σ) (hf : f < c.frames) (main : Nat → Run σ → Program (Run σ))
    (hm : ∀ f' s', f < f' → f' ≤ c.frames → main f' s' = visitAll T c (c.frames - f') f' (.idle 0) s') :
    (recover T c f s).andThen (fun (f, s) => main f s) =
      (onFailure T c f s).andThen fun (ph, s) => visitAll T c (c.frames - f - 1) (f + 1) ph s := by
  have hpad : ∀ (j : Nat) (s : Run σ), f < j → pad f j s = passed (j - f - 1) (note (write s (code 2)) none) := by
    intro j s hj
    simp [pad, passed, note, write, special, code, Nat.sub_sub]
  unfold recover onFailure
  by_cases h0 : c.reinitialize = 0
  · rw [if_neg (by omega), if_pos h0]
    dsimp only [andThen_some]
    rw [visitAll_stopped, hm _ _ hf (Nat.le_refl _), Nat.sub_self, hpad _ _ hf]
    rfl
  · rw [if_pos (by omega), if_neg h0]
    by_cases h1 : f + c.reinitialize < c.frames
    · have hj : (if c.frames ≤ f + c.reinitialize then c.frames else f + c.reinitialize) = f + c.reinitialize := if_neg (by omega)
      dsimp only
      rw [hj, if_pos h1, if_pos h1]
      have e : (pad f (f + c.reinitialize) s).tracker = (note (write s (code 2)) none).tracker := rfl
      rw [e]
      rcases T.restart (note (write s (code 2)) none).tracker with ⟨_ | _, t⟩
      · rfl
      · dsimp only [andThen_some]
        rw [hm _ _ (by omega) (by omega), hpad _ _ (by omega)]
        have e1 : c.frames - f - 1 = (c.reinitialize - 1) + (c.frames - (f + c.reinitialize)) := by omega
        rw [e1, visitAll_pass, show f + 1 + (c.reinitialize - 1) = f + c.reinitialize by omega,
          show f + c.reinitialize - f - 1 = c.reinitialize - 1 by omega]
        rfl
    · have hj : (if c.frames ≤ f + c.reinitialize then c.frames else f + c.reinitialize) = c.frames := if_pos (by omega)
      dsimp only
      rw [hj, if_neg h1, if_neg (Nat.lt_irrefl _)]
      dsimp only [andThen_some]
      rw [visitAll_pass_end _ _ _ _ _ _ (by omega), hm _ _ hf (Nat.le_refl _), Nat.sub_self, hpad _ _ hf]
      rfl

theorem track_eq (T : Tracker σ) (c : Config) (main : Nat → Run σ → Program (Run σ)) (fuel f : Nat) (first : Bool) (s : Run σ)
    (hf : f < c.frames) (hfuel : fuel = c.frames - f)
    (hm : ∀ f' s', f < f' → f' ≤ c.frames → main f' s' = visitAll T c (c.frames - f') f' (.idle 0) s') :
    (trackLoop T c fuel f first s).andThen (fun (f, s) =>
        if f < c.frames then (recover T c f s).andThen (fun (f, s) => main f s) else main f s) =
      (judge T c f (fun r => if first then code 1 else r) s).andThen
        fun (ph, s) => visitAll T c (c.frames - f - 1) (f + 1) ph s := by
  induction fuel generalizing f first s with
  | zero => omega
  | succ fuel ih =>
    unfold trackLoop judge
    rcases T.wait s.tracker with ⟨_ | _ | r, t⟩
    · rfl
    · dsimp only
      rcases T.ready t with ⟨_ | _, t⟩
      · rfl
      · dsimp only [andThen_some]
        rw [if_pos hf]
        exact recover_eq T c f _ hf main hm
    · dsimp only
      rw [bind_andThen, bind_andThen]
      congr 1
      funext overlap
      have hl : c.failed overlap = lost c overlap := rfl
      rw [hl]
      by_cases hb : lost c overlap = true
      · rw [if_pos hb, if_pos hb, andThen_some, if_pos hf]
        exact recover_eq T c f _ hf main hm
      · rw [if_neg hb, if_neg hb, andThen_some]
        dsimp only
        by_cases he : c.frames ≤ f + 1
        · rw [if_pos he]
          dsimp only [andThen_some]
          rw [if_neg (by omega), hm _ _ (by omega) (by omega), show c.frames - (f + 1) = 0 by omega, show c.frames - f - 1 = 0 by omega]
          rfl
        · rw [if_neg he, show c.frames - f - 1 = (c.frames - (f + 1) - 1) + 1 by omega]
          simp only [visitAll, visit]
          dsimp only [note, write]
          rcases T.load (f + 1) t with ⟨_ | _, t⟩ | _ | _
          · rfl
          · simp only [Outcome.bind_ok]
            rcases T.frame (f + 1) t with ⟨_ | _, t⟩
            · rfl
            · have := ih (f + 1) false ⟨t, s.trace ++ [.wait, .frame (f + 1)],
                s.output ++ [if first then special 1 else r], s.timings ++ [some f]⟩ (by omega) (by omega)
                (fun f' s' h1 h2 => hm f' s' (by omega) h2)
              dsimp only at this ⊢
              rw [this]
              simp only [Bool.false_eq_true, if_false, List.append_assoc, List.cons_append, List.nil_append]
              rfl
          · rfl
          · rfl

theorem main_eq (T : Tracker σ) (c : Config) (hi : c.frames ≤ c.initialization.length) (fuel f : Nat) (s : Run σ) (hf : f ≤ c.frames) (hfuel : c.frames - f < fuel) :
    mainLoop T c fuel f s = visitAll T c (c.frames - f) f (.idle 0) s := by
  induction fuel generalizing f s with
  | zero => omega
  | succ fuel ih =>
    unfold mainLoop
    by_cases h : f < c.frames
    · rw [if_pos h, skip_eq T c hi _ f s (by omega), show c.frames + 1 - f = c.frames - f + 1 by omega]
      have hmono : ∀ (k g : Nat) (s : Run σ) (g' : Nat) (s' : Run σ), skipLoop c k g s = .ok (g', s') → g ≤ g' ∧ (g ≤ c.frames → g' ≤ c.frames) := by
        intro k
        induction k with
        | zero => intro g s g' s' h; simp [skipLoop] at h
        | succ k ihk =>
          intro g s g' s' h
          unfold skipLoop at h
          split at h
          · split at h
            · cases h
            · injection h with h; injection h with h1 h2; omega
            · have := ihk _ _ _ _ h; omega
          · injection h with h; injection h with h1 h2; omega
      rcases hsk : skipLoop c (c.frames - f + 1) f s with ⟨g, s'⟩ | _ | _
      · have hg := hmono _ _ _ _ _ hsk
        show (if g = c.frames then _ else _) = if g = c.frames then _ else _
        by_cases he : g = c.frames
        · rw [if_pos he, if_pos he]
        · rw [if_neg he, if_neg he]
          congr 1
          funext s
          exact track_eq T c (mainLoop T c fuel) (c.frames - g) g true s (by omega) rfl
            (fun f' s' h1 h2 => ih f' s' h2 (by omega))
      · rfl
      · rfl
    · rw [if_neg h, show c.frames - f = 0 by omega]
      rfl

theorem bind_ok' {α β : Type} {x : Outcome α} {f : α → Outcome β} {b : β} (h : x.bind f = .ok b) : ∃ a, x = .ok a ∧ f a = .ok b := by
  rcases x with a | _ | _
  · exact ⟨a, rfl, h⟩
  · simp at h
  · simp at h

/-- What a frame adds to the output. -/
theorem visit_output (T : Tracker σ) (c : Config) (f : Nat) (ph : Phase) (s : Run σ) (ph' : Phase) (s' : Run σ)
    (h : visit T c f ph s = .ok (some (ph', s'))) :
    s'.output.length = s.output.length + 1 ∧
    ((∀ r, c.initialization[f]? = some r → r ≠ none) → f < c.initialization.length → s'.timings.length = s.timings.length + 1) := by
  have hfail : ∀ (s0 : Run σ) ph' s', onFailure T c f s0 = .ok (some (ph', s')) →
      s'.output.length = s0.output.length + 1 ∧ s'.timings.length = s0.timings.length + 1 := by
    intro s0 ph' s' h
    unfold onFailure at h
    dsimp only at h
    split at h
    · injection h with h; injection h with h; injection h with h1 h2; subst h2; simp [note, write]
    · split at h
      · split at h
        · simp at h
        · injection h with h; injection h with h; injection h with h1 h2; subst h2; simp [note, write]
      · injection h with h; injection h with h; injection h with h1 h2; subst h2; simp [note, write]
  have hjudge : ∀ (e : Option Region → Option Region) (s0 : Run σ) ph' s', judge T c f e s0 = .ok (some (ph', s')) →
      s'.output.length = s0.output.length + 1 ∧ s'.timings.length = s0.timings.length + 1 := by
    intro e s0 ph' s' h
    unfold judge at h
    split at h
    · simp at h
    · split at h
      · simp at h
      · have := hfail _ _ _ h
        exact this
    · rename_i r t _
      rcases ho : T.overlap f r t with o | _ | _
      · rw [ho, Outcome.bind_ok] at h
        dsimp only at h
        split at h
        · have := hfail _ _ _ h
          exact this
        · injection h with h; injection h with h; injection h with h1 h2; subst h2; simp [note, write]
      · rw [ho] at h; simp at h
      · rw [ho] at h; simp at h
  cases ph with
  | stopped =>
    simp only [visit] at h
    injection h with h; injection h with h; injection h with h1 h2; subst h2; simp [note, write]
  | tracking =>
    simp only [visit] at h
    obtain ⟨⟨b, t⟩, -, h⟩ := bind_ok' h
    split at h
    · simp at h
    · split at h
      · simp at h
      · have := hjudge _ _ _ _ h
        exact ⟨this.1, fun _ _ => this.2⟩
  | idle k =>
    cases k with
    | succ k =>
      simp only [visit] at h
      injection h with h; injection h with h; injection h with h1 h2; subst h2; simp [note, write]
    | zero =>
      simp only [visit] at h
      split at h
      · rename_i hn
        injection h with h; injection h with h; injection h with h1 h2; subst h2
        refine ⟨by simp [write], fun h1 h2 => ?_⟩
        rw [List.getElem?_eq_getElem h2] at hn h1
        simp only [Option.join_some] at hn
        exact absurd hn (h1 _ rfl)
      · have hst : ∀ s1, Spec.start T f s = .ok (some s1) → s1.output = s.output ∧ s1.timings = s.timings := by
          intro s1 hs
          unfold Spec.start at hs
          split at hs
          · simp at hs
          split at hs
          · simp at hs
          obtain ⟨⟨b, t⟩, -, hs⟩ := bind_ok' hs
          split at hs
          · simp at hs
          split at hs
          · simp at hs
          injection hs with hs; injection hs with hs; subst hs; exact ⟨rfl, rfl⟩
        rcases hs : Spec.start T f s with (_ | s1) | _ | _
        · rw [hs] at h; simp at h
        · rw [hs, andThen_some] at h
          have := hjudge _ _ _ _ h
          have e := hst _ hs
          rw [e.1, e.2] at this
          exact ⟨this.1, fun _ _ => this.2⟩
        · rw [hs] at h; simp [Program.andThen] at h
        · rw [hs] at h; simp [Program.andThen] at h

theorem visitAll_output (T : Tracker σ) (c : Config) (count f : Nat) (ph : Phase) (s : Run σ) (s' : Run σ)
    (h : visitAll T c count f ph s = .ok (some s')) :
    s'.output.length = s.output.length + count ∧
    ((∀ r ∈ c.initialization, r ≠ none) → f + count ≤ c.initialization.length → s'.timings.length = s.timings.length + count) := by
  induction count generalizing f ph s with
  | zero => injection h with h; injection h with h; subst h; simp
  | succ n ih =>
    simp only [visitAll] at h
    rcases hv : visit T c f ph s with (_ | ⟨ph1, s1⟩) | _ | _
    · rw [hv] at h; simp at h
    · rw [hv, andThen_some] at h
      have h1 := visit_output T c f ph s ph1 s1 hv
      have h2 := ih (f + 1) ph1 s1 h
      refine ⟨by omega, fun ha hb => ?_⟩
      have h3 := h1.2 (fun r hr => ha r (List.mem_of_getElem? hr)) (by omega)
      have h4 := h2.2 ha (by omega)
      omega
    · rw [hv] at h; simp [Program.andThen] at h
    · rw [hv] at h; simp [Program.andThen] at h

end Trax.Cli
