import Verif.Props.CliMain

/-!
# Lemmas on runs of `traxclient` with a tracker that goes through phases
-/

namespace Trax.Cli
open Trax.Cli.Spec

variable {σ α : Type}

/-- A tracker process that does what it is asked when the calls come in order. `starts` and `goes` tell which requests are made and what comes of them,
`answer` is the answer. -/
structure Phased (P : Process σ) (a : About) (starts : FrameImages → Region → α → Prop) (goes : α → FrameImages → α → Prop) (props : Properties) (answer : α → Region)
    (good idle : σ → Prop) (asked tracking : α → σ → Prop) : Prop where
  sound : (∀ t, idle t → good t) ∧ ∀ x t, tracking x t → good t
  ready : ∀ t, idle t → ∃ t', P.ready t = (true, t') ∧ idle t'
  metadata : ∀ t, idle t → ∃ t', P.metadata t = (some a, t') ∧ idle t'
  setup : ∀ x t images r, idle t → starts images r x → ∃ t', P.setup images (some r) props t = (true, t') ∧ asked x t'
  wait : ∀ x t, asked x t → ∃ t', P.wait t = (.state (some (answer x)), t') ∧ tracking x t'
  frame : ∀ x y t images, tracking x t → goes x images y → ∃ t', P.frame images t = (true, t') ∧ asked y t'
  reset : ∀ x t, tracking x t → ∃ t1 b t2, P.reset t = (true, t1) ∧ P.query t1 = (some b, t2) ∧ idle t2

/-- What is done between frames. -/
inductive Mode (α : Type) where
  | idle (pass : Nat)
  | tracking (x : α)
  | stopped

def Mode.phase : Mode α → Phase
  | .idle k => .idle k
  | .tracking _ => .tracking
  | .stopped => .stopped

def Mode.failed (c : Opt.Settings) : Mode α := if c.reinitialize ≤ 0 then .stopped else .idle (c.reinitialize.toNat - 1)

theorem Mode.phase_failed (c : Opt.Settings) : (Mode.failed c : Mode α).phase = afterFailure c := by
  unfold Mode.failed afterFailure
  split <;> rfl

/-- An answer that counts as a failure. -/
def Rejected (W : World σ) (c : Opt.Settings) (q : Sequence) (f : Nat) (r : Option Region) : Prop := ∃ o, Measured W q f r o ∧ TooSmall c.threshold o

/-- A run from frame `f` to frame `n`: the entries of the result, and the times. -/
inductive Course (W : World σ) (c : Opt.Settings) (q : Sequence) (a : About) (starts : FrameImages → Region → α → Prop) (goes : α → FrameImages → α → Prop) (answer : α → Region) (n : Nat) (final : Mode α) :
    Nat → Mode α → List (Option Region) → List (Option Nat) → Prop
  | done : Course W c q a starts goes answer n final n final [] []
  | stopped {f es ts} : f < q.frames → Course W c q a starts goes answer n final (f + 1) .stopped es ts →
      Course W c q a starts goes answer n final f .stopped (some (.special 0) :: es) (none :: ts)
  | pass {f k es ts} : f < q.frames → Course W c q a starts goes answer n final (f + 1) (.idle k) es ts →
      Course W c q a starts goes answer n final f (.idle (k + 1)) (some (.special 0) :: es) (none :: ts)
  | skip {f es ts} : f < q.frames → q.initialization[f]? = some none → Course W c q a starts goes answer n final (f + 1) (.idle 0) es ts →
      Course W c q a starts goes answer n final f (.idle 0) (some (.special 0) :: es) ts
  | begin {f r l x es ts} : f < q.frames → q.initialization[f]? = some (some r) → frameImages W.read (q.rows.getD f []) a.formats a.channels = .ok (.ok l) → starts l r x →
      Accepted W c q f (some (answer x)) → Course W c q a starts goes answer n final (f + 1) (.tracking x) es ts →
      Course W c q a starts goes answer n final f (.idle 0) (some (.special 1) :: es) (some f :: ts)
  | beginFailed {f r l x es ts} : f < q.frames → q.initialization[f]? = some (some r) → frameImages W.read (q.rows.getD f []) a.formats a.channels = .ok (.ok l) → starts l r x →
      Rejected W c q f (some (answer x)) → Course W c q a starts goes answer n final (f + 1) (.failed c) es ts →
      Course W c q a starts goes answer n final f (.idle 0) (some (.special 2) :: es) (none :: ts)
  | go {f l x y es ts} : f < q.frames → frameImages W.read (q.rows.getD f []) a.formats a.channels = .ok (.ok l) → goes x l y →
      Accepted W c q f (some (answer y)) → Course W c q a starts goes answer n final (f + 1) (.tracking y) es ts →
      Course W c q a starts goes answer n final f (.tracking x) (some (answer y) :: es) (some f :: ts)
  | goFailed {f l x y es ts} : f < q.frames → frameImages W.read (q.rows.getD f []) a.formats a.channels = .ok (.ok l) → goes x l y →
      Rejected W c q f (some (answer y)) → Course W c q a starts goes answer n final (f + 1) (.failed c) es ts →
      Course W c q a starts goes answer n final f (.tracking x) (some (.special 2) :: es) (none :: ts)

section
variable {W : World σ} {c : Opt.Settings} {q : Sequence} {I : List (Option Region)} {a : About} {starts : FrameImages → Region → α → Prop}
  {goes : α → FrameImages → α → Prop} {answer : α → Region} {good idle : σ → Prop} {asked tracking : α → σ → Prop}

theorem phased_load {f : Nat} (hf : f < q.frames) {l : FrameImages} (h : frameImages W.read (q.rows.getD f []) a.formats a.channels = .ok (.ok l)) (s : Session σ)
    (ha : s.about = a) : (seqTracker W c q I).load f s = .ok (true, { s with loaded := l }) := by
  have e : (q.rows.take q.frames).getD f [] = q.rows.getD f [] := by
    rw [List.getD_eq_getElem?_getD, List.getElem?_take, if_pos hf, List.getD_eq_getElem?_getD]
  unfold seqTracker sequenceTracker
  dsimp only
  rw [e, ha, h, Outcome.bind_ok]

theorem phased_overlap (hb : isTrue (W.getenv b!"TRAX_BOUNDED_OVERLAP") = false) {f : Nat} (hf : f < q.frames) {r : Option Region} {o : Flt} (h : Measured W q f r o)
    (s : Session σ) : (seqTracker W c q I).overlap f r s = .ok o := by
  obtain ⟨bounds, h1, h2⟩ := h
  rw [h1 hb] at h2
  unfold seqTracker sequenceTracker
  dsimp only
  rw [switchedOn_eq, switchedOn_eq, hb, List.getElem?_take, if_pos hf]
  exact h2

/-- The state of the process fits what is done. -/
def Fits (q : Sequence) (a : About) (good idle : σ → Prop) (tracking : α → σ → Prop) (f : Nat) (s : Session σ) : Mode α → Prop
  | .idle k => idle s.process ∨ (q.frames ≤ f + k ∧ good s.process)
  | .tracking x => tracking x s.process ∧ s.about = a
  | .stopped => good s.process

theorem fits_good (hP : Phased W.process a starts goes c.properties answer good idle asked tracking) {f : Nat} {s : Session σ} {mode : Mode α}
    (h : Fits q a good idle tracking f s mode) : good s.process := by
  cases mode with
  | idle k =>
    rcases h with h | h
    · exact hP.sound.1 _ h
    · exact h.2
  | tracking x => exact hP.sound.2 _ _ h.1
  | stopped => exact h

theorem phased_failure (hP : Phased W.process a starts goes c.properties answer good idle asked tracking) {f : Nat} {x : α} (s : Run (Session σ))
    (ht : tracking x s.tracker.process) :
    ∃ s', onFailure (seqTracker W c q I) (setting c q I) f s = .ok (some ((Mode.failed c : Mode α).phase, s')) ∧
      Fits q a good idle tracking (f + 1) s'.tracker (Mode.failed c) ∧
      s'.output = s.output ++ [some (.special 2)] ∧ s'.timings = s.timings ++ [none] := by
  rw [Mode.phase_failed]
  unfold onFailure afterFailure Mode.failed
  dsimp only
  have hz : (setting c q I).reinitialize = 0 ↔ c.reinitialize ≤ 0 := by show c.reinitialize.toNat = 0 ↔ _; omega
  have hre : (setting c q I).reinitialize = c.reinitialize.toNat := rfl
  by_cases h0 : c.reinitialize ≤ 0
  · rw [if_pos (hz.mpr h0), if_pos h0, if_pos h0]
    exact ⟨_, rfl, hP.sound.2 _ _ ht, rfl, rfl⟩
  · rw [if_neg (fun h => h0 (hz.mp h)), if_neg h0, if_neg h0]
    by_cases hlt : f + (setting c q I).reinitialize < (setting c q I).frames
    · rw [if_pos hlt]
      obtain ⟨t1, b, t2, e1, e2, e3⟩ := hP.reset _ _ ht
      have : (seqTracker W c q I).restart s.tracker = (true, { s.tracker with process := t2 }) := by
        unfold seqTracker sequenceTracker
        dsimp only
        rw [e1]
        dsimp only
        rw [e2]
      have this' : (seqTracker W c q I).restart (note (write s (code 2)) none).tracker = (true, { s.tracker with process := t2 }) := this
      rw [this']
      exact ⟨_, rfl, Or.inl e3, rfl, rfl⟩
    · rw [if_neg hlt]
      refine ⟨_, rfl, Or.inr ⟨?_, hP.sound.2 _ _ ht⟩, rfl, rfl⟩
      have : (setting c q I).frames = q.frames := rfl
      omega

theorem phased_wait (hP : Phased W.process a starts goes c.properties answer good idle asked tracking) {x : α} (s : Session σ) (ha : asked x s.process) :
    ∃ t', (seqTracker W c q I).wait s = (.state (some (answer x)), { s with process := t' }) ∧ tracking x t' := by
  obtain ⟨t', h1, h2⟩ := hP.wait x _ ha
  refine ⟨t', ?_, h2⟩
  show ((W.process.wait s.process).1, { s with process := (W.process.wait s.process).2 }) = _
  rw [h1]

theorem phased_accept (hP : Phased W.process a starts goes c.properties answer good idle asked tracking) (hb : isTrue (W.getenv b!"TRAX_BOUNDED_OVERLAP") = false) {f : Nat}
    (hf : f < q.frames) {x : α} (ho : Accepted W c q f (some (answer x))) (en : Option Region → Option Region) (s : Run (Session σ)) (hx : asked x s.tracker.process)
    (ha : s.tracker.about = a) :
    ∃ s', judge (seqTracker W c q I) (setting c q I) f en s = .ok (some (.tracking, s')) ∧ Fits q a good idle tracking (f + 1) s'.tracker (.tracking x) ∧
      s'.output = s.output ++ [en (some (answer x))] ∧ s'.timings = s.timings ++ [some f] := by
  obtain ⟨t', hw, h2⟩ := phased_wait hP (I := I) (q := q) _ hx
  obtain ⟨o, hov, hthr⟩ := ho
  unfold judge
  rw [hw]
  dsimp only
  rw [phased_overlap hb hf hov, Outcome.bind_ok]
  have hlost : lost (setting c q I) o = false := by
    rw [Bool.eq_false_iff]
    intro h
    unfold lost at h
    rw [Bool.and_eq_true] at h
    exact hthr h
  rw [if_neg (by rw [hlost]; exact Bool.false_ne_true)]
  exact ⟨_, rfl, ⟨h2, ha⟩, rfl, rfl⟩

theorem phased_reject (hP : Phased W.process a starts goes c.properties answer good idle asked tracking) (hb : isTrue (W.getenv b!"TRAX_BOUNDED_OVERLAP") = false) {f : Nat}
    (hf : f < q.frames) {x : α} (ho : Rejected W c q f (some (answer x))) (en : Option Region → Option Region) (s : Run (Session σ)) (hx : asked x s.tracker.process) :
    ∃ s', judge (seqTracker W c q I) (setting c q I) f en s = .ok (some ((Mode.failed c : Mode α).phase, s')) ∧
      Fits q a good idle tracking (f + 1) s'.tracker (Mode.failed c) ∧
      s'.output = s.output ++ [some (.special 2)] ∧ s'.timings = s.timings ++ [none] := by
  obtain ⟨t', hw, h2⟩ := phased_wait hP (I := I) (q := q) _ hx
  obtain ⟨o, hov, hthr⟩ := ho
  unfold judge
  rw [hw]
  dsimp only
  rw [phased_overlap hb hf hov, Outcome.bind_ok]
  have hlost : lost (setting c q I) o = true := by
    unfold lost
    rw [Bool.and_eq_true]
    exact hthr
  rw [if_pos hlost]
  exact phased_failure hP { s with tracker := { s.tracker with process := t' }, trace := s.trace ++ [.wait] } h2

theorem phased_begin (hP : Phased W.process a starts goes c.properties answer good idle asked tracking) {f : Nat} (hf : f < q.frames) {r : Region} {l : FrameImages}
    {after : σ → Prop} (hr : I[f]? = some (some r)) (hl : frameImages W.read (q.rows.getD f []) a.formats a.channels = .ok (.ok l))
    (hx : ∀ t, idle t → ∃ t', W.process.setup l (some r) c.properties t = (true, t') ∧ after t') (s : Run (Session σ)) (hi : idle s.tracker.process) :
    ∃ s', start (seqTracker W c q I) f s = .ok (some s') ∧ after s'.tracker.process ∧ s'.tracker.about = a ∧ s'.output = s.output ∧ s'.timings = s.timings := by
  obtain ⟨t1, a1, a2⟩ := hP.ready _ hi
  obtain ⟨t2, b1, b2⟩ := hP.metadata _ a2
  unfold start
  have e1 : (seqTracker W c q I).ready s.tracker = (true, { s.tracker with process := t1 }) := by
    show ((W.process.ready s.tracker.process).1, { s.tracker with process := (W.process.ready s.tracker.process).2 }) = _
    rw [a1]
  rw [e1]
  dsimp only
  have e2 : (seqTracker W c q I).metadata { s.tracker with process := t1 } = (true, { s.tracker with process := t2, about := a }) := by
    unfold seqTracker sequenceTracker
    dsimp only
    rw [b1]
  rw [e2]
  dsimp only
  rw [phased_load hf hl { s.tracker with process := t2, about := a } rfl, Outcome.bind_ok]
  dsimp only
  obtain ⟨t3, d1, d2⟩ := hx _ b2
  have e3 : (seqTracker W c q I).init f { s.tracker with process := t2, about := a, loaded := l } =
      (true, { s.tracker with process := t3, about := a, loaded := l, image := l }) := by
    show ((W.process.setup l (I[f]?.join) c.properties t2).1,
      ({ s.tracker with process := (W.process.setup l (I[f]?.join) c.properties t2).2, about := a, loaded := l, image := l } : Session σ)) = _
    rw [hr]
    show ((W.process.setup l (some r) c.properties t2).1,
      ({ s.tracker with process := (W.process.setup l (some r) c.properties t2).2, about := a, loaded := l, image := l } : Session σ)) = _
    rw [d1]
  rw [e3]
  exact ⟨_, rfl, d2, rfl, rfl, rfl⟩

theorem phased_go {f : Nat} {l : FrameImages} {before after : σ → Prop} (hx : ∀ t, before t → ∃ t', W.process.frame l t = (true, t') ∧ after t') (s : Session σ)
    (hi : before s.process) :
    ∃ t', (seqTracker W c q I).frame f { s with loaded := l } = (true, { s with loaded := l, process := t' }) ∧ after t' := by
  obtain ⟨t', e1, e2⟩ := hx _ hi
  refine ⟨t', ?_, e2⟩
  show ((W.process.frame l s.process).1, { s with loaded := l, process := (W.process.frame l s.process).2 }) = _
  rw [e1]

/-- The frames of a run. -/
theorem course_all (hP : Phased W.process a starts goes c.properties answer good idle asked tracking) (hb : isTrue (W.getenv b!"TRAX_BOUNDED_OVERLAP") = false)
    (hI : ∀ f, f < q.frames → I[f]? = q.initialization[f]?) {n f : Nat} {final mode : Mode α} {es : List (Option Region)} {ts : List (Option Nat)}
    (h : Course W c q a starts goes answer n final f mode es ts) :
    ∀ s : Run (Session σ), Fits q a good idle tracking f s.tracker mode →
      ∃ s', visitAll (seqTracker W c q I) (setting c q I) (q.frames - f) f mode.phase s = visitAll (seqTracker W c q I) (setting c q I) (q.frames - n) n final.phase s' ∧
        Fits q a good idle tracking n s'.tracker final ∧
        s'.output = s.output ++ es ∧ s'.timings = s.timings ++ ts := by
  induction h with
  | done =>
    intro s hs
    exact ⟨s, rfl, hs, by simp, by simp⟩
  | @stopped f es ts hf _ ih =>
    intro s hs
    rw [show q.frames - f = q.frames - (f + 1) + 1 by omega]
    simp only [visitAll, visit, Mode.phase, andThen_some]
    obtain ⟨s', g1, g2, g3, g4⟩ := ih (note (write s (code 0)) none) hs
    exact ⟨s', g1, g2, by rw [g3]; simp [note, write, code], by rw [g4]; simp [note, write]⟩
  | @pass f k es ts hf _ ih =>
    intro s hs
    rw [show q.frames - f = q.frames - (f + 1) + 1 by omega]
    simp only [visitAll, visit, Mode.phase, andThen_some]
    obtain ⟨s', g1, g2, g3, g4⟩ := ih (note (write s (code 0)) none) (by
      rcases hs with hs | ⟨h1, h2⟩
      · exact Or.inl hs
      · exact Or.inr ⟨by omega, h2⟩)
    exact ⟨s', g1, g2, by rw [g3]; simp [note, write, code], by rw [g4]; simp [note, write]⟩
  | @skip f es ts hf hn _ ih =>
    intro s hs
    rw [show q.frames - f = q.frames - (f + 1) + 1 by omega]
    simp only [visitAll, visit, Mode.phase]
    have : (setting c q I).initialization[f]?.join = none := by
      show I[f]?.join = _
      rw [hI f hf, hn]; rfl
    rw [this]
    simp only [andThen_some]
    obtain ⟨s', g1, g2, g3, g4⟩ := ih (write s (code 0)) (by
      rcases hs with hs | ⟨h1, h2⟩
      · exact Or.inl hs
      · omega)
    exact ⟨s', g1, g2, by rw [g3]; simp [write, code], by rw [g4]; simp [write]⟩
  | @begin f r l x es ts hf hr hl hx ho _ ih =>
    intro s hs
    rw [show q.frames - f = q.frames - (f + 1) + 1 by omega]
    simp only [visitAll, visit, Mode.phase]
    have : (setting c q I).initialization[f]?.join = some r := by
      show I[f]?.join = _
      rw [hI f hf, hr]; rfl
    rw [this]
    dsimp only
    obtain ⟨s1, e1, e2, e3, e4, e5⟩ := phased_begin hP (I := I) hf (by rw [hI f hf, hr]) hl (fun t ht => hP.setup x t l r ht hx) s (by
      rcases hs with hs | ⟨h1, h2⟩
      · exact hs
      · omega)
    rw [e1, andThen_some]
    obtain ⟨s2, g1, g2, g3, g4⟩ := phased_accept hP hb hf ho (I := I) (fun _ => code 1) s1 e2 e3
    rw [g1, andThen_some]
    obtain ⟨s3, k1, k2, k3, k4⟩ := ih s2 g2
    exact ⟨s3, k1, k2, by rw [k3, g3, e4]; simp [code], by rw [k4, g4, e5]; simp⟩
  | @beginFailed f r l x es ts hf hr hl hx ho _ ih =>
    intro s hs
    rw [show q.frames - f = q.frames - (f + 1) + 1 by omega]
    simp only [visitAll, visit, Mode.phase]
    have : (setting c q I).initialization[f]?.join = some r := by
      show I[f]?.join = _
      rw [hI f hf, hr]; rfl
    rw [this]
    dsimp only
    obtain ⟨s1, e1, e2, e3, e4, e5⟩ := phased_begin hP (I := I) hf (by rw [hI f hf, hr]) hl (fun t ht => hP.setup x t l r ht hx) s (by
      rcases hs with hs | ⟨h1, h2⟩
      · exact hs
      · omega)
    rw [e1, andThen_some]
    obtain ⟨s2, g1, g2, g3, g4⟩ := phased_reject hP hb hf ho (I := I) (fun _ => code 1) s1 e2
    rw [g1, andThen_some]
    obtain ⟨s3, k1, k2, k3, k4⟩ := ih s2 g2
    exact ⟨s3, k1, k2, by rw [k3, g3, e4]; simp, by rw [k4, g4, e5]; simp⟩
  | @go f l x y es ts hf hl hx ho _ ih =>
    intro s hs
    rw [show q.frames - f = q.frames - (f + 1) + 1 by omega]
    simp only [visitAll, visit, Mode.phase]
    obtain ⟨hs1, hs2⟩ := hs
    rw [phased_load hf hl s.tracker hs2, Outcome.bind_ok]
    dsimp only
    obtain ⟨t', e1, e2⟩ := phased_go (W := W) (c := c) (q := q) (I := I) (f := f) (fun t ht => hP.frame x y t l ht hx) s.tracker hs1
    rw [e1]
    dsimp only
    obtain ⟨s2, g1, g2, g3, g4⟩ := phased_accept hP hb hf ho (I := I) id
      { s with tracker := { s.tracker with loaded := l, process := t' }, trace := s.trace ++ [.frame f] } e2 hs2
    rw [g1, andThen_some]
    obtain ⟨s3, k1, k2, k3, k4⟩ := ih s2 g2
    exact ⟨s3, k1, k2, by rw [k3, g3]; simp, by rw [k4, g4]; simp⟩
  | @goFailed f l x y es ts hf hl hx ho _ ih =>
    intro s hs
    rw [show q.frames - f = q.frames - (f + 1) + 1 by omega]
    simp only [visitAll, visit, Mode.phase]
    obtain ⟨hs1, hs2⟩ := hs
    rw [phased_load hf hl s.tracker hs2, Outcome.bind_ok]
    dsimp only
    obtain ⟨t', e1, e2⟩ := phased_go (W := W) (c := c) (q := q) (I := I) (f := f) (fun t ht => hP.frame x y t l ht hx) s.tracker hs1
    rw [e1]
    dsimp only
    obtain ⟨s2, g1, g2, g3, g4⟩ := phased_reject hP hb hf ho (I := I) id
      { s with tracker := { s.tracker with loaded := l, process := t' }, trace := s.trace ++ [.frame f] } e2
    rw [g1, andThen_some]
    obtain ⟨s3, k1, k2, k3, k4⟩ := ih s2 g2
    exact ⟨s3, k1, k2, by rw [k3, g3]; simp, by rw [k4, g4]; simp⟩

/-- A run without failures. -/
theorem course_smooth {r : Region} {x : Nat → α} {l : Nat → FrameImages} (hpos : 0 < q.frames) (hr : q.initialization[0]? = some (some r))
    (hl : ∀ f, f < q.frames → frameImages W.read (q.rows.getD f []) a.formats a.channels = .ok (.ok (l f)))
    (hs : starts (l 0) r (x 0)) (hg : ∀ f, f + 1 < q.frames → goes (x f) (l (f + 1)) (x (f + 1))) (ho : ∀ f, f < q.frames → Accepted W c q f (some (answer (x f)))) :
    ∃ final, Course W c q a starts goes answer q.frames final 0 (.idle 0) (some (.special 1) :: (List.range' 1 (q.frames - 1)).map fun k => some (answer (x k))) ((List.range q.frames).map some) := by
  have rest : ∀ n f, f + 1 + n = q.frames → Course W c q a starts goes answer q.frames (.tracking (x (q.frames - 1))) (f + 1) (.tracking (x f)) ((List.range' (f + 1) n).map fun k => some (answer (x k)))
      ((List.range' (f + 1) n).map some) := by
    intro n
    induction n with
    | zero =>
      intro f hf
      rw [show f + 1 = q.frames by omega, show f = q.frames - 1 by omega]
      exact .done
    | succ n ih =>
      intro f hf
      rw [List.range'_succ]
      exact .go (by omega) (hl _ (by omega)) (hg f (by omega)) (ho _ (by omega)) (ih (f + 1) (by omega))
  have e : (List.range q.frames).map some = some 0 :: (List.range' 1 (q.frames - 1)).map some := by
    obtain ⟨n, hn⟩ : ∃ n, q.frames = n + 1 := ⟨q.frames - 1, by omega⟩
    rw [hn, List.range_eq_range', List.range'_succ]
    rfl
  rw [e]
  exact ⟨_, .begin hpos hr (hl 0 hpos) hs (ho 0 hpos) (rest _ 0 (by omega))⟩

end

/-- What is written for the entries of a run. -/
theorem saveTrajectory_each {es : List (Option Region)} {ls : List Str} (h : List.Forall₂ (fun e t => ∃ r : Region, e = some r ∧ r.string = .ok (some t)) es ls) :
    saveTrajectory es = .ok (lines ls) := by
  have ht : ∀ x : Region, Region.getType (some x) ≠ 0 := by
    intro x
    cases x with
    | special => exact (by decide : (1 : UInt32) ≠ 0)
    | rectangle => exact (by decide : (2 : UInt32) ≠ 0)
    | polygon => exact (by decide : (4 : UInt32) ≠ 0)
    | mask => exact (by decide : (8 : UInt32) ≠ 0)
  induction h with
  | nil => rfl
  | @cons e t es ls h _ ih =>
    obtain ⟨r, rfl, hr⟩ := h
    have hone : writeRegion (some r) = .ok (t ++ b!"\n") := by
      unfold writeRegion
      dsimp only
      rw [if_neg (ht r), hr]
      rfl
    rw [saveTrajectory, hone, Outcome.bind_ok, ih]
    simp [Outcome.map, lines]

/-- A whole run. -/
theorem phased_main (W : World σ) (argv : List Str) (c : Opt.Settings) (command : Str) (q : Sequence) {a : About} {starts : FrameImages → Region → α → Prop}
    {goes : α → FrameImages → α → Prop} {answer : α → Region} {good idle : σ → Prop} {asked tracking : α → σ → Prop} {t0 t1 : σ} {b : Bool}
    {es : List (Option Region)} {ts : List (Option Nat)} {ls : List Str} {final : Mode α}
    (hP : Phased W.process a starts goes c.properties answer good idle asked tracking) (hs : Opt.cliStart argv = .ok (.go c command)) (hq : c.query = false)
    (hg : Given W.read c q) (hl : q.frames ≤ q.initialization.length) (hpos : 0 < q.frames)
    (ht : W.start command c.environment c.timeout c.connection c.verbosity = some t0) (hq1 : W.process.query t0 = (some b, t1)) (hidle : idle t1)
    (hb : isTrue (W.getenv b!"TRAX_BOUNDED_OVERLAP") = false) (h : Course W c q a starts goes answer q.frames final 0 (.idle 0) es ts)
    (htext : List.Forall₂ (fun e t => ∃ r : Region, e = some r ∧ r.string = .ok (some t)) es ls) (hw : W.writable c.output = true) :
    ∃ e t, cliMain W argv = .ok e ∧ e.status = 0 ∧ e.tracker = some t ∧ good t ∧
      e.written = (c.output, lines ls) :: (if c.timing ≠ [] ∧ ts ≠ [] ∧ W.writable c.timing = true then [(c.timing, lines (ts.map (timeText W)))] else []) := by
  unfold cliMain
  rw [hs, Outcome.bind_ok]
  dsimp only
  rw [if_neg (by simp [hq]), trackingMode_eq hg, ht]
  dsimp only
  rw [hq1]
  dsimp only
  rw [C80_run_partial _ _ _ (usedInit_length hl)]
  obtain ⟨s, h1, h2, h3, h4⟩ := course_all hP hb (I := usedInit c q) (fun f hf => usedInit_get hg f hf) h
    { tracker := { process := t1, about := ⟨[], [], [], 0, 0⟩, image := {}, loaded := {} }, trace := [], output := [], timings := [] } (Or.inl hidle)
  rw [Nat.sub_self] at h1
  have h1' : supervise (seqTracker W c q (usedInit c q)) (setting c q (usedInit c q)) { process := t1, about := ⟨[], [], [], 0, 0⟩, image := {}, loaded := {} } = .ok (some s) := h1
  rw [h1', Outcome.bind_ok]
  dsimp only
  rw [List.nil_append] at h3 h4
  have hne : ∀ {n f mode}, Course W c q a starts goes answer n final f mode es ts → f < n → es ≠ [] := by
    intro n f mode h hf
    cases h with
    | done => exact absurd hf (Nat.lt_irrefl _)
    | _ => exact List.cons_ne_nil _ _
  have hne := hne h hpos
  unfold saveResults
  rw [h3, h4, if_pos (List.length_pos_iff.mpr hne), saveTrajectory_each htext, writeTimings_eq]
  refine ⟨_, _, rfl, rfl, rfl, fits_good hP h2, ?_⟩
  dsimp only
  rw [writeFile_eq, if_pos hw]
  by_cases ht : ts = []
  · simp [ht]
  · simp [ht]

end Trax.Cli
