import Verif.Lemmas.Runner

/-!
# Property theorems C80, C81: a run of `traxclient` over a sequence
-/

namespace Trax.Cli
open Trax.Cli.Spec (Phase code note write lost onFailure judge visit visitAll supervise)

variable {σ : Type}

/-- **C80** (partial): for every tracker, however it behaves, the program works like the frame by frame procedure of
`Spec.Runner`: it writes the same results, makes the same calls on the tracker, and ends with an exception in the
same cases. Missing: a list of initialization regions that is shorter than the sequence (`C80_short_list_false`). -/
theorem C80_run_partial (T : Tracker σ) (c : Config) (t : σ) (hi : c.frames ≤ c.initialization.length) :
    run T c t = supervise T c t := by
  have := main_eq T c hi (c.frames + 1) 0 { tracker := t, trace := [], output := [], timings := [] } (Nat.zero_le _) (by omega)
  exact this

/-- **C80**: a run that ends without an exception has written exactly one entry for every frame. -/
theorem C80_one_entry_per_frame (T : Tracker σ) (c : Config) (t : σ) (s : Run σ) (hi : c.frames ≤ c.initialization.length)
    (h : run T c t = .ok (some s)) : s.output.length = c.frames := by
  rw [C80_run_partial T c t hi] at h
  have := (visitAll_output T c c.frames 0 _ _ _ h).1
  simpa using this

/-- The frame of a call. -/
def Event.number : Event → Option Nat
  | .init f => some f
  | .frame f => some f
  | .wait => none
  | .restart => none

/-- The calls of a frame. -/
theorem visit_trace (T : Tracker σ) (c : Config) (f : Nat) (ph : Phase) (s : Run σ) (ph' : Phase) (s' : Run σ)
    (h : visit T c f ph s = .ok (some (ph', s'))) :
    ∃ tr, s'.trace = s.trace ++ tr ∧ (tr.filterMap Event.number = [] ∨ tr.filterMap Event.number = [f]) ∧
      (∀ g, .init g ∈ tr → ∃ r, c.initialization[g]? = some (some r)) := by
  have hfail : ∀ (s0 : Run σ) ph' s', onFailure T c f s0 = .ok (some (ph', s')) →
      s'.trace = s0.trace ∨ s'.trace = s0.trace ++ [.restart] := by
    intro s0 ph' s' h
    unfold onFailure at h
    dsimp only at h
    split at h
    · injection h with h; injection h with h; injection h with h1 h2; subst h2; simp [note, write]
    · split at h
      · split at h
        · simp at h
        · injection h with h; injection h with h; injection h with h1 h2; subst h2; simp [note, write]
      · injection h with h; injection h with h; injection h with h1 h2; subst h2; simp [note, write]
  have hjudge : ∀ (e : Option Region → Option Region) (s0 : Run σ) ph' s', judge T c f e s0 = .ok (some (ph', s')) →
      s'.trace = s0.trace ++ [.wait] ∨ s'.trace = s0.trace ++ [.wait, .restart] := by
    intro e s0 ph' s' h
    unfold judge at h
    split at h
    · simp at h
    · split at h
      · simp at h
      · have := hfail _ _ _ h
        simpa using this
    · rename_i r t _
      rcases ho : T.overlap f r t with o | _ | _
      · rw [ho, Outcome.bind_ok] at h
        dsimp only at h
        split at h
        · have := hfail _ _ _ h
          simpa using this
        · injection h with h; injection h with h; injection h with h1 h2; subst h2; simp [note, write]
      · rw [ho] at h; simp at h
      · rw [ho] at h; simp at h
  cases ph with
  | stopped =>
    simp only [visit] at h
    injection h with h; injection h with h; injection h with h1 h2; subst h2
    exact ⟨[], by simp [note, write], by simp, by simp⟩
  | tracking =>
    simp only [visit] at h
    obtain ⟨⟨b, t⟩, -, h⟩ := bind_ok' h
    split at h
    · simp at h
    · split at h
      · simp at h
      · rcases hjudge _ _ _ _ h with h | h
        · exact ⟨[.frame f, .wait], by simp [h], by simp [Event.number], by simp⟩
        · exact ⟨[.frame f, .wait, .restart], by simp [h], by simp [Event.number], by simp⟩
  | idle k =>
    cases k with
    | succ k =>
      simp only [visit] at h
      injection h with h; injection h with h; injection h with h1 h2; subst h2
      exact ⟨[], by simp [note, write], by simp, by simp⟩
    | zero =>
      simp only [visit] at h
      split at h
      · injection h with h; injection h with h; injection h with h1 h2; subst h2
        exact ⟨[], by simp [write], by simp, by simp⟩
      · rename_i r hr
        have hst : ∀ s1, Spec.start T f s = .ok (some s1) → s1.trace = s.trace ++ [.init f] := by
          intro s1 hs
          unfold Spec.start at hs
          split at hs
          · simp at hs
          split at hs
          · simp at hs
          obtain ⟨⟨b, t⟩, -, hs⟩ := bind_ok' hs
          split at hs
          · simp at hs
          split at hs
          · simp at hs
          injection hs with hs; injection hs with hs; subst hs; rfl
        rw [Option.join_eq_some_iff] at hr
        rcases hs : Spec.start T f s with (_ | s1) | _ | _
        · rw [hs] at h; simp at h
        · rw [hs, andThen_some] at h
          have e := hst _ hs
          rcases hjudge _ _ _ _ h with h | h
          · exact ⟨[.init f, .wait], by simp [h, e], by simp [Event.number], fun g hg => by
              simp at hg; subst hg; exact ⟨r, hr⟩⟩
          · exact ⟨[.init f, .wait, .restart], by simp [h, e], by simp [Event.number], fun g hg => by
              simp at hg; subst hg; exact ⟨r, hr⟩⟩
        · rw [hs] at h; simp [Program.andThen] at h
        · rw [hs] at h; simp [Program.andThen] at h

theorem visitAll_trace (T : Tracker σ) (c : Config) (count f : Nat) (ph : Phase) (s : Run σ) (s' : Run σ)
    (h : visitAll T c count f ph s = .ok (some s'))
    (h1 : (s.trace.filterMap Event.number).Pairwise (· < ·)) (h2 : ∀ g ∈ s.trace.filterMap Event.number, g < f)
    (h3 : ∀ g, .init g ∈ s.trace → ∃ r, c.initialization[g]? = some (some r)) :
    (s'.trace.filterMap Event.number).Pairwise (· < ·) ∧ (∀ g ∈ s'.trace.filterMap Event.number, g < f + count) ∧
    (∀ g, .init g ∈ s'.trace → ∃ r, c.initialization[g]? = some (some r)) := by
  induction count generalizing f ph s with
  | zero => injection h with h; injection h with h; subst h; exact ⟨h1, h2, h3⟩
  | succ n ih =>
    simp only [visitAll] at h
    rcases hv : visit T c f ph s with (_ | ⟨ph1, s1⟩) | _ | _
    · rw [hv] at h; simp at h
    · rw [hv, andThen_some] at h
      obtain ⟨tr, e1, e2, e3⟩ := visit_trace T c f ph s ph1 s1 hv
      have := ih (f + 1) ph1 s1 h (by
        rw [e1, List.filterMap_append, List.pairwise_append]
        refine ⟨h1, by rcases e2 with e | e <;> simp [e], fun a ha b hb => ?_⟩
        rcases e2 with e | e
        · rw [e] at hb; simp at hb
        · rw [e] at hb; simp at hb; subst hb; exact h2 a ha) (by
        intro g hg
        rw [e1, List.filterMap_append, List.mem_append] at hg
        rcases hg with hg | hg
        · have := h2 g hg; omega
        · rcases e2 with e | e
          · rw [e] at hg; simp at hg
          · rw [e] at hg; simp at hg; omega) (by
        intro g hg
        rw [e1, List.mem_append] at hg
        rcases hg with hg | hg
        · exact h3 g hg
        · exact e3 g hg)
      refine ⟨this.1, fun g hg => ?_, this.2.2⟩
      have := this.2.1 g hg
      omega
    · rw [hv] at h; simp [Program.andThen] at h
    · rw [hv] at h; simp [Program.andThen] at h

/-- **C80**: the tracker sees the frames of the sequence in their order, no frame twice, and it is initialized only in
frames that have an initialization region. -/
theorem C80_order (T : Tracker σ) (c : Config) (t : σ) (s : Run σ) (hi : c.frames ≤ c.initialization.length)
    (h : run T c t = .ok (some s)) :
    (s.trace.filterMap Event.number).Pairwise (· < ·) ∧ (∀ f ∈ s.trace.filterMap Event.number, f < c.frames) ∧
    (∀ f, .init f ∈ s.trace → ∃ r, c.initialization[f]? = some (some r)) := by
  rw [C80_run_partial T c t hi] at h
  have := visitAll_trace T c c.frames 0 _ _ _ h (by simp) (by simp) (by simp)
  rw [Nat.zero_add] at this
  exact this

/-- A tracker that does what it is asked: no call throws an exception, and each wait gives a region. -/
structure Obedient (T : Tracker σ) : Prop where
  ready : ∀ t, (T.ready t).1 = true
  metadata : ∀ t, (T.metadata t).1 = true
  load : ∀ f t, ∃ t', T.load f t = .ok (true, t')
  init : ∀ f t, (T.init f t).1 = true
  wait : ∀ t, ∃ r, (T.wait t).1 = .state r
  frame : ∀ f t, (T.frame f t).1 = true

theorem visitAll_obedient (T : Tracker σ) (c : Config) (hT : Obedient T) (ho : ∀ f r t, ∃ o, T.overlap f r t = .ok o)
    (ht : Flt.zero.le c.threshold = false) (count f : Nat) (s : Run σ) :
    ∃ s', visitAll T c count f .tracking s = .ok (some s') ∧
      s'.trace = s.trace ++ (List.range' f count).flatMap (fun g => [.frame g, .wait]) ∧
      s'.timings = s.timings ++ (List.range' f count).map some ∧ ∃ rest, s'.output = s.output ++ rest := by
  induction count generalizing f s with
  | zero => exact ⟨s, rfl, by simp, by simp, [], by simp⟩
  | succ n ih =>
    simp only [visitAll, visit]
    obtain ⟨t, hl⟩ := hT.load f s.tracker
    rw [hl, Outcome.bind_ok]
    dsimp only
    have h2 := hT.frame f t
    rcases hf : T.frame f t with ⟨b, t'⟩
    rw [hf] at h2
    dsimp only at h2
    subst h2
    dsimp only
    unfold judge
    obtain ⟨r, h3⟩ := hT.wait t'
    dsimp only
    rcases hw : T.wait t' with ⟨a, t''⟩
    rw [hw] at h3
    dsimp only at h3
    subst h3
    dsimp only
    obtain ⟨o, h4⟩ := ho f r t''
    rw [h4, Outcome.bind_ok]
    have hlost : lost c o = false := by unfold lost; rw [ht]; rfl
    rw [if_neg (by rw [hlost]; exact Bool.false_ne_true), andThen_some]
    obtain ⟨s', e1, e2, e3, rest, e4⟩ := ih (f + 1) (note (write { s with tracker := t'', trace := s.trace ++ [.frame f] ++ [.wait] } (id r)) (some f))
    refine ⟨s', e1, ?_, ?_, r :: rest, by rw [e4]; simp [note, write]⟩
    · rw [e2, List.range'_succ]
      simp [note, write]
    · rw [e3, List.range'_succ]
      simp [note, write]

/-- **C80**: without a failure threshold and with an obedient tracker the sequence is processed without interruption: one
initialization in the first frame, then each frame once, each followed by one wait. -/
theorem C80_uninterrupted (T : Tracker σ) (c : Config) (t : σ) (hi : c.frames ≤ c.initialization.length)
    (hT : Obedient T) (ho : ∀ f r t, ∃ o, T.overlap f r t = .ok o) (ht : Flt.zero.le c.threshold = false)
    (r : Region) (rest : List (Option Region)) (hr : c.initialization = some r :: rest) (n : Nat) (hn : c.frames = n + 1) :
    ∃ s, run T c t = .ok (some s) ∧
      s.trace = [.init 0, .wait] ++ (List.range' 1 n).flatMap (fun f => [.frame f, .wait]) ∧
      s.output.length = n + 1 ∧ s.output.head? = some (some (.special 1)) ∧ s.timings = (List.range (n + 1)).map some := by
  rw [C80_run_partial T c t hi]
  unfold supervise
  rw [hn]
  simp only [visitAll, visit, hr, List.getElem?_cons_zero, Option.join_some]
  unfold Spec.start
  dsimp only
  have h1 := hT.ready t
  rcases e1 : T.ready t with ⟨b, t1⟩
  rw [e1] at h1; dsimp only at h1; subst h1; dsimp only
  have h2 := hT.metadata t1
  rcases e2 : T.metadata t1 with ⟨b, t2⟩
  rw [e2] at h2; dsimp only at h2; subst h2; dsimp only
  obtain ⟨t3, e3⟩ := hT.load 0 t2
  rw [e3, Outcome.bind_ok]; dsimp only
  have h4 := hT.init 0 t3
  rcases e4 : T.init 0 t3 with ⟨b, t4⟩
  rw [e4] at h4; dsimp only at h4; subst h4; dsimp only
  rw [andThen_some]
  unfold judge
  dsimp only
  obtain ⟨q, h5⟩ := hT.wait t4
  rcases e5 : T.wait t4 with ⟨a, t5⟩
  rw [e5] at h5; dsimp only at h5; subst h5; dsimp only
  obtain ⟨o, h6⟩ := ho 0 q t5
  rw [h6, Outcome.bind_ok]
  have hlost : lost c o = false := by unfold lost; rw [ht]; rfl
  rw [if_neg (by rw [hlost]; exact Bool.false_ne_true), andThen_some]
  dsimp only
  generalize hs1 : note (write _ _) _ = s1
  obtain ⟨s', f1, f2, f3, rest', f4⟩ := visitAll_obedient T c hT ho ht n 1 s1
  rw [Nat.zero_add]
  subst hs1
  refine ⟨s', f1, ?_, ?_, ?_, ?_⟩
  · rw [f2]; rfl
  · have := (visitAll_output T c n 1 _ _ _ f1).1
    rw [this]
    simp [note, write]
    omega
  · rw [f4]; rfl
  · rw [f3, List.range_eq_range', List.range'_succ]; rfl

/-- **C80**: the list of images and the list of groundtruth regions are cut to the shorter one. -/
theorem C80_truncate {α β : Type} (images : List α) (groundtruth : List β) :
    (truncate images groundtruth).1 = images.take (min images.length groundtruth.length) ∧
    (truncate images groundtruth).2 = groundtruth.take (min images.length groundtruth.length) ∧
    (truncate images groundtruth).1.length = (truncate images groundtruth).2.length := by
  unfold truncate
  by_cases h : images.length < groundtruth.length
  · simp [h, Nat.min_eq_left (Nat.le_of_lt h)]
  · rw [if_neg h]
    have hm : min images.length groundtruth.length = groundtruth.length := Nat.min_eq_right (by omega)
    by_cases h' : groundtruth.length < images.length
    · simp [hm, h', Nat.le_of_lt h']
    · have e : images.length = groundtruth.length := by omega
      rw [hm]; dsimp only; rw [if_neg h']
      exact ⟨(List.take_of_length_le (by omega)).symm, (List.take_of_length_le (by omega)).symm, e⟩

/-- **C81** (partial): if every frame has an initialization region, a run that ends without an exception gives
one time for every frame. Missing: sequences with frames without a region (`C81_skipped_false`). -/
theorem C81_one_time_per_frame_partial (T : Tracker σ) (c : Config) (t : σ) (s : Run σ) (hi : c.frames ≤ c.initialization.length)
    (hr : ∀ r ∈ c.initialization, r ≠ none) (h : run T c t = .ok (some s)) : s.timings.length = c.frames := by
  rw [C80_run_partial T c t hi] at h
  have := (visitAll_output T c c.frames 0 _ _ _ h).2 hr (by omega)
  simpa using this

/-! ### Concrete runs -/

namespace Demo

/-- A tracker that counts its waits, answers with a rectangle at its count, and asks to stop at the wait `stop`. -/
def tracker (stop : Nat) : Tracker Nat where
  ready t := (true, t)
  metadata t := (true, t)
  load _ t := .ok (true, t)
  init _ t := (true, t)
  wait t := if t + 1 = stop then (.no, t + 1) else (.state (some (.rectangle (Flt.ofInt t) .zero .one .one)), t + 1)
  frame _ t := (true, t)
  restart t := (true, t)
  overlap _ _ _ := .ok .zero

def box : Option Region := some (.rectangle .zero .zero .one .one)

/-- Five frames, the second has no region, reinitialization after `again` frames, no failure criterion. -/
def config (again : Nat) : Config :=
  { frames := 5, initialization := [box, none, box, none, box],
    threshold := Flt.ofInt (-1), reinitialize := again }

end Demo

/-- The hypotheses of the theorems about runs are met, with a failure and a new start in the run. -/
example : (match run (Demo.tracker 2) (Demo.config 2) 0 with
    | .ok (some s) => (decide (s.trace = [.init 0, .wait, .frame 1, .wait, .restart, .init 4, .wait]) &&
        decide (s.output = [special 1, special 2, special 0, special 0, special 1]) &&
        decide (s.timings = [some 0, none, none, some 4]))
    | _ => false) = true := by decide +kernel

/-- The same without reinitialization. -/
example : (match run (Demo.tracker 2) (Demo.config 0) 0 with
    | .ok (some s) => (decide (s.trace = [.init 0, .wait, .frame 1, .wait]) &&
        decide (s.output = [special 1, special 2, special 0, special 0, special 0]))
    | _ => false) = true := by decide +kernel

/-- An obedient tracker. -/
example : Obedient (Demo.tracker 0) :=
  ⟨fun _ => rfl, fun _ => rfl, fun _ t => ⟨t, rfl⟩, fun _ _ => rfl, fun _ => ⟨_, rfl⟩, fun _ _ => rfl⟩
example : Flt.zero.le (Demo.config 0).threshold = false := by decide +kernel

/-- **C80** does not hold when the file with the initialization regions has fewer lines than the sequence: the program
reads behind the end of the list. -/
theorem C80_short_list_false :
    run (Demo.tracker 2) { Demo.config 1 with initialization := [Demo.box, none] } 0 = .ub := by rfl

/-- **C81** does not hold when frames are skipped because they have no initialization region: no time is written for them,
and the lines of the file do not match the frames. -/
theorem C81_skipped_false : (match run (Demo.tracker 2) (Demo.config 2) 0 with
    | .ok (some s) => decide (s.timings.length ≠ (Demo.config 2).frames)
    | _ => false) = true := by decide +kernel

end Trax.Cli
