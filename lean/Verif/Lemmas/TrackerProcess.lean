import Verif.Model.TrackerProcess

/-!
# Lemmas about the tracker process
-/

namespace Trax.Proc

variable {σ : Type}

/-- No exchange with a tracker. -/
def Quiet (l : List Event) : Prop := ∀ e ∈ l, ∀ x g, e ≠ .exchange x g

theorem Quiet.nil : Quiet [] := by intro e h; cases h
theorem Quiet.append {a b : List Event} (ha : Quiet a) (hb : Quiet b) : Quiet (a ++ b) := by
  intro e h
  rcases List.mem_append.1 h with h | h
  · exact ha e h
  · exact hb e h

/-- How a process can change while it is only looked at. -/
structure Aged (p p' : Process) : Prop where
  gen : p'.gen = p.gen
  running : p'.running = true → p.running = true
  exit : p.exit ≠ none → p'.exit ≠ none

theorem Aged.refl (p : Process) : Aged p p := ⟨rfl, id, id⟩
theorem Aged.trans {p q r : Process} (h : Aged p q) (k : Aged q r) : Aged p r :=
  ⟨k.gen.trans h.gen, fun x => h.running (k.running x), fun x => k.exit (h.exit x)⟩

theorem isAlive_spec (W : World σ) (p : Process) (w : σ) (b : Bool) (st : Option Int) (p' : Process) (w' : σ)
    (h : isAlive W p w = (b, st, p', w')) :
    Aged p p' ∧ (p.exit ≠ none → st ≠ none) ∧ (b = true → p' = p ∧ p.running = true) := by
  unfold isAlive at h
  split at h
  · rename_i hr
    split at h <;> (injection h with h1 h; injection h with h2 h; injection h with h3 h4; subst h1 h2 h3)
    · exact ⟨Aged.refl p, by simp, fun _ => ⟨rfl, hr⟩⟩
    · exact ⟨Aged.refl p, by simp, by simp⟩
    · exact ⟨⟨rfl, by simp, by simp⟩, by simp, by simp⟩
    · exact ⟨⟨rfl, by simp, by simp⟩, by simp, by simp⟩
  · injection h with h1 h; injection h with h2 h; injection h with h3 h4; subst h1 h2 h3
    exact ⟨Aged.refl p, id, by simp⟩

theorem pollLoop_spec (W : World σ) (n : Nat) (p : Process) (w : σ) (p' : Process) (w' : σ) (h : pollLoop W n p w = (p', w')) :
    Aged p p' := by
  induction n generalizing p w with
  | zero => injection h with h1 h2; subst h1; exact Aged.refl p
  | succ n ih =>
    unfold pollLoop at h
    rcases e : isAlive W p w with ⟨b, st, q, v⟩
    have hq := (isAlive_spec W p w b st q v e).1
    rw [e] at h
    cases b with
    | false => injection h with h1 h2; subst h1; exact hq
    | true => exact hq.trans (ih q v h)

theorem signal_spec (W : World σ) (e : Nat → Event) (he : ∀ n, Quiet [e n]) (p : Process) (w : σ) (log : List Event) (p' : Process) (w' : σ) (log' : List Event)
    (h : signal W e p w log = (p', w', log')) : Aged p p' ∧ ∃ l, log' = log ++ l ∧ Quiet l := by
  unfold signal at h
  split at h
  · rcases ha : isAlive W p w with ⟨b, st, q, v⟩
    have hq := (isAlive_spec W p w b st q v ha).1
    rw [ha] at h
    injection h with h1 h; injection h with h2 h3; subst h1 h3
    exact ⟨hq, _, rfl, he _⟩
  · injection h with h1 h; injection h with h2 h3; subst h1 h3
    exact ⟨Aged.refl p, [], by simp, Quiet.nil⟩

theorem quiet_term (n : Nat) : Quiet [.term n] := by intro e h x g; simp at h; simp [h]
theorem quiet_kill (n : Nat) : Quiet [.kill n] := by intro e h x g; simp at h; simp [h]

theorem endProcess_spec (W : World σ) (p : Process) (w : σ) (log : List Event) (st : Option Int) (p' : Process) (w' : σ) (log' : List Event)
    (h : endProcess W p w log = (st, p', w', log')) :
    Aged p p' ∧ (p.exit ≠ none → st ≠ none) ∧ ∃ l, log' = log ++ l ∧ Quiet l := by
  unfold endProcess at h
  rcases e1 : pollLoop W 5 p w with ⟨p1, w1⟩
  have a1 := pollLoop_spec W 5 p w p1 w1 e1
  rw [e1] at h
  dsimp only at h
  rcases e2 : isAlive W p1 w1 with ⟨b2, st2, p2, w2⟩
  obtain ⟨a2, s2, -⟩ := isAlive_spec W p1 w1 b2 st2 p2 w2 e2
  rw [e2] at h
  cases b2 with
  | false =>
    injection h with h1 h; injection h with h2 h; injection h with h3 h4; subst h1 h2 h4
    exact ⟨a1.trans a2, fun x => s2 (a1.exit x), [], by simp, Quiet.nil⟩
  | true =>
    dsimp only at h
    rcases e3 : signal W .term p2 w2 log with ⟨p3, w3, l3⟩
    obtain ⟨a3, q3, r3, k3⟩ := signal_spec W .term quiet_term p2 w2 log p3 w3 l3 e3
    rw [e3] at h
    dsimp only at h
    rcases e4 : pollLoop W 5 p3 w3 with ⟨p4, w4⟩
    have a4 := pollLoop_spec W 5 p3 w3 p4 w4 e4
    rw [e4] at h
    dsimp only at h
    rcases e5 : isAlive W p4 w4 with ⟨b5, st5, p5, w5⟩
    obtain ⟨a5, s5, -⟩ := isAlive_spec W p4 w4 b5 st5 p5 w5 e5
    rw [e5] at h
    have a14 := ((a1.trans a2).trans a3).trans a4
    cases b5 with
    | false =>
      injection h with h1 h; injection h with h2 h; injection h with h3 h4; subst h1 h2 h4
      exact ⟨a14.trans a5, fun x => s5 (a14.exit x), q3, r3, k3⟩
    | true =>
      dsimp only at h
      rcases e6 : signal W .kill p5 w5 l3 with ⟨p6, w6, l6⟩
      obtain ⟨a6, q6, r6, k6⟩ := signal_spec W .kill quiet_kill p5 w5 l3 p6 w6 l6 e6
      rw [e6] at h
      dsimp only at h
      rcases e7 : isAlive W p6 w6 with ⟨b7, st7, p7, w7⟩
      obtain ⟨a7, s7, -⟩ := isAlive_spec W p6 w6 b7 st7 p7 w7 e7
      rw [e7] at h
      injection h with h1 h; injection h with h2 h; injection h with h3 h4; subst h1 h2 h4
      have a16 := (a14.trans a5).trans a6
      exact ⟨a16.trans a7, fun x => s7 (a16.exit x), q3 ++ q6, by rw [r6, r3, List.append_assoc], k3.append k6⟩

/-- How the state can change without a new process and without an exchange. -/
structure Rel (s s' : State σ) : Prop where
  client : s'.client = s.client
  tracking : s'.tracking = s.tracking
  next : s'.next = s.next
  armed : s'.armed = true → s.armed = true
  log : ∃ l, s'.log = s.log ++ l ∧ Quiet l
  process : ∀ p', s'.process = some p' → ∃ p, s.process = some p ∧ Aged p p'

theorem Rel.refl (s : State σ) : Rel s s := ⟨rfl, rfl, rfl, id, ⟨[], by simp, Quiet.nil⟩, fun p h => ⟨p, h, Aged.refl p⟩⟩

theorem Rel.trans {s t u : State σ} (h : Rel s t) (k : Rel t u) : Rel s u := by
  refine ⟨k.client.trans h.client, k.tracking.trans h.tracking, k.next.trans h.next, fun x => h.armed (k.armed x), ?_, ?_⟩
  · obtain ⟨l, e, q⟩ := h.log
    obtain ⟨l', e', q'⟩ := k.log
    exact ⟨l ++ l', by rw [e', e, List.append_assoc], q.append q'⟩
  · intro p h'
    obtain ⟨q, hq, aq⟩ := k.process p h'
    obtain ⟨r, hr, ar⟩ := h.process q hq
    exact ⟨r, hr, ar.trans aq⟩

/-- Only the world changes. -/
theorem Rel.world (s : State σ) (w : σ) : Rel s { s with world := w } :=
  ⟨rfl, rfl, rfl, id, ⟨[], by simp, Quiet.nil⟩, fun p h => ⟨p, h, Aged.refl p⟩⟩

theorem running_rel (W : World σ) (s s' : State σ) (b : Bool) (h : processRunning W s = (b, s')) : Rel s s' ∧
    (b = true → ∃ p, s'.process = some p ∧ p.running = true ∧ s.process = some p) ∧ s'.armed = s.armed := by
  unfold processRunning at h
  split at h
  · injection h with h1 h2; subst h1 h2; exact ⟨Rel.refl s, by simp, rfl⟩
  · rename_i p hp
    rcases e : isAlive W p s.world with ⟨b', st, q, w⟩
    obtain ⟨a, -, k⟩ := isAlive_spec W p s.world b' st q w e
    rw [e] at h
    injection h with h1 h2; subst h1 h2
    refine ⟨⟨rfl, rfl, rfl, id, ⟨[], by simp, Quiet.nil⟩, ?_⟩, ?_, rfl⟩
    · intro p' h'
      injection h' with h'
      subst h'
      exact ⟨p, hp, a⟩
    · intro hb
      obtain ⟨k1, k2⟩ := k hb
      subst k1
      exact ⟨q, rfl, k2, hp⟩

theorem stop_rel (W : World σ) (s s' : State σ) (b : Bool) (h : stopProcess W s = .ok (b, s')) :
    Rel s s' ∧ s'.process = none ∧ s'.armed = false := by
  unfold stopProcess at h
  dsimp only at h
  split at h
  · rename_i hp
    injection h with h; injection h with h1 h2; subst h1 h2
    exact ⟨⟨rfl, rfl, rfl, by simp, ⟨[], by simp, Quiet.nil⟩, fun p h => ⟨p, h, Aged.refl p⟩⟩, hp, rfl⟩
  · rename_i p hp
    rcases e : endProcess W p s.world s.log with ⟨st, p1, w1, l1⟩
    obtain ⟨a, -, l, r, q⟩ := endProcess_spec W p s.world s.log st p1 w1 l1 e
    rw [e] at h
    dsimp only at h
    rcases e' : signal W .kill p1 w1 l1 with ⟨p2, w2, l2⟩
    obtain ⟨a', l', r', q'⟩ := signal_spec W .kill quiet_kill p1 w1 l1 p2 w2 l2 e'
    rw [e'] at h
    dsimp only at h
    cases st with
    | none => cases h
    | some st =>
      injection h with h; injection h with h1 h2; subst h1 h2
      exact ⟨⟨rfl, rfl, rfl, by simp, ⟨l ++ l', by rw [r', r, List.append_assoc], q.append q'⟩, fun p h => by cases h⟩, rfl, rfl⟩

/-- A process that was started has an exit status, whatever happens. -/
def Settled (s : State σ) : Prop := ∀ p, s.process = some p → p.exit ≠ none

theorem Settled.rel {s s' : State σ} (h : Settled s) (r : Rel s s') : Settled s' := by
  intro p hp
  obtain ⟨q, hq, a⟩ := r.process p hp
  exact a.exit (h q hq)

theorem stop_total (W : World σ) (s : State σ) (h : Settled s) : ∃ b s', stopProcess W s = .ok (b, s') := by
  unfold stopProcess
  dsimp only
  rcases hp : s.process with _ | p
  · exact ⟨_, _, rfl⟩
  · dsimp only
    rcases e : endProcess W p s.world s.log with ⟨st, p1, w1, l1⟩
    obtain ⟨-, k, -⟩ := endProcess_spec W p s.world s.log st p1 w1 l1 e
    dsimp only
    rcases e' : signal W .kill p1 w1 l1 with ⟨p2, w2, l2⟩
    dsimp only
    cases st with
    | none => exact absurd rfl (k (h p hp))
    | some st => exact ⟨_, _, rfl⟩

theorem turn_rel (W : World σ) (s s' : State σ) (h : watchdogTurn W s = .ok s') : Rel s s' := by
  unfold watchdogTurn at h
  rcases e : processRunning W s with ⟨b, s1⟩
  obtain ⟨r1, -, -⟩ := running_rel W s s1 b e
  rcases e2 : W.callback s1.world with ⟨c, w⟩
  simp only [e, e2] at h
  have r2 := r1.trans (Rel.world s1 w)
  split at h
  · obtain ⟨⟨b', s2⟩, e3, h⟩ : ∃ x, stopProcess W { s1 with world := w } = .ok x ∧ x.2 = s' := by
      rcases e3 : stopProcess W { s1 with world := w } with x | _ | _
      · rw [e3] at h; injection h with h; exact ⟨x, rfl, h⟩
      · rw [e3] at h; cases h
      · rw [e3] at h; cases h
    dsimp only at h
    subst h
    exact r2.trans (stop_rel W _ _ _ e3).1
  · split at h
    · rcases e4 : W.expired w with ⟨x, w'⟩
      rw [e4] at h
      cases x with
      | false =>
        injection h with h; subst h
        exact r2.trans (Rel.world _ w')
      | true =>
        dsimp only at h
        obtain ⟨⟨b', s2⟩, e3, h⟩ : ∃ x, stopProcess W { s1 with world := w' } = .ok x ∧ x.2 = s' := by
          rcases e3 : stopProcess W { s1 with world := w' } with x | _ | _
          · rw [e3] at h; injection h with h; exact ⟨x, rfl, h⟩
          · rw [e3] at h; cases h
          · rw [e3] at h; cases h
        dsimp only at h
        subst h
        exact (r1.trans (Rel.world s1 w')).trans (stop_rel W _ _ _ e3).1
    · injection h with h; subst h; exact r2

theorem turn_total (W : World σ) (s : State σ) (h : Settled s) : ∃ s', watchdogTurn W s = .ok s' := by
  unfold watchdogTurn
  rcases e : processRunning W s with ⟨b, s1⟩
  obtain ⟨r1, -, -⟩ := running_rel W s s1 b e
  rcases e2 : W.callback s1.world with ⟨c, w⟩
  simp only [e2]
  have h2 : ∀ w, Settled { s1 with world := w } := fun w => h.rel (r1.trans (Rel.world s1 w))
  split
  · obtain ⟨b', s2, e3⟩ := stop_total W _ (h2 w)
    rw [e3]; exact ⟨_, rfl⟩
  · split
    · rcases e4 : W.expired w with ⟨x, w'⟩
      cases x with
      | false => exact ⟨_, rfl⟩
      | true =>
        dsimp only
        obtain ⟨b', s2, e3⟩ := stop_total W _ (h2 w')
        rw [e3]; exact ⟨_, rfl⟩
    · exact ⟨_, rfl⟩

theorem point_rel (W : World σ) (st : Bool) (s s' : State σ) (h : point W st s = .ok s') : Rel s s' := by
  unfold point at h
  rcases e : W.turn st s.world with ⟨b, w⟩
  rw [e] at h
  cases b with
  | false => injection h with h; subst h; exact Rel.world s w
  | true => exact (Rel.world s w).trans (turn_rel W _ _ h)

theorem point_total (W : World σ) (st : Bool) (s : State σ) (h : Settled s) : ∃ s', point W st s = .ok s' := by
  unfold point
  rcases e : W.turn st s.world with ⟨b, w⟩
  cases b with
  | false => exact ⟨_, rfl⟩
  | true => exact turn_total W _ (h.rel (Rel.world s w))

theorem point_quiet (W : World σ) (hq : ∀ w, (W.turn true w).1 = false) (s : State σ) :
    point W true s = .ok { s with world := (W.turn true s.world).2 } := by
  unfold point
  have := hq s.world
  rcases e : W.turn true s.world with ⟨b, w⟩
  rw [e] at this
  dsimp only at this
  subst this
  rfl

/-- What holds between the calls. -/
structure Inv (s : State σ) : Prop where
  settled : Settled s
  client : ∀ p, s.process = some p → p.running = true → ∃ c, s.client = some c ∧ c.gen = p.gen

theorem Inv.rel {s s' : State σ} (h : Inv s) (r : Rel s s') : Inv s' := by
  refine ⟨h.settled.rel r, fun p hp hr => ?_⟩
  obtain ⟨q, hq, a⟩ := r.process p hp
  obtain ⟨c, h1, h2⟩ := h.client q hq (a.running hr)
  exact ⟨c, r.client.trans h1, h2.trans a.gen.symm⟩

theorem Inv.fresh (w : σ) : Inv (State.fresh w) := ⟨fun p h => (by cases h), fun p h => (by cases h)⟩

theorem bind_ok_iff {α β : Type} {x : Outcome α} {f : α → Outcome β} {b : β} (h : x.bind f = .ok b) : ∃ a, x = .ok a ∧ f a = .ok b := by
  rcases x with a | _ | _
  · exact ⟨a, rfl, h⟩
  · cases h
  · cases h

theorem map_ok_iff {α β : Type} {x : Outcome α} {f : α → β} {b : β} (h : x.map f = .ok b) : ∃ a, x = .ok a ∧ f a = b := by
  rcases x with a | _ | _
  · injection h with h; exact ⟨a, rfl, h⟩
  · cases h
  · cases h

/-- A new process: what stays. -/
structure Fresh (s s' : State σ) : Prop where
  tracking : s'.tracking = s.tracking
  log : ∃ l, s'.log = s.log ++ l ∧ Quiet l

theorem Fresh.rel {s t u : State σ} (h : Fresh s t) (k : Rel t u) : Fresh s u := by
  obtain ⟨l, e, q⟩ := h.log
  obtain ⟨l', e', q'⟩ := k.log
  exact ⟨k.tracking.trans h.tracking, l ++ l', by rw [e', e, List.append_assoc], q.append q'⟩

theorem Rel.fresh {s t : State σ} (h : Rel s t) : Fresh s t := ⟨h.tracking, h.log⟩

/-- Only what a new process may change changes. -/
theorem Fresh.set {s t u : State σ} (h : Fresh s t) (h1 : u.tracking = t.tracking) (h2 : u.log = t.log) : Fresh s u :=
  ⟨h1.trans h.tracking, by rw [h2]; exact h.log⟩

theorem Fresh.step {s t t' u : State σ} (h : Fresh s t) (k : Rel t' u) (h1 : t'.tracking = t.tracking) (h2 : t'.log = t.log) : Fresh s u :=
  Fresh.rel (h.set h1 h2) k

theorem start_ok (W : World σ) (limit : Bool) (s s' : State σ) (r : Result) (h : startProcess W limit s = .ok (r, s')) :
    (r = .value false ∧ Rel s s') ∨ (r ≠ .value false ∧ Fresh s s') := by
  unfold startProcess at h
  rcases e : processRunning W s with ⟨b, s1⟩
  obtain ⟨r1, -, -⟩ := running_rel W s s1 b e
  rw [e] at h
  cases b with
  | true => injection h with h; injection h with h1 h2; subst h1 h2; exact .inl ⟨rfl, r1⟩
  | false =>
    dsimp only at h
    obtain ⟨s2, e2, h⟩ := bind_ok_iff h
    have f2 : Fresh s s2 := r1.fresh.step (point_rel W true _ _ e2) rfl rfl
    split at h
    · cases h
    · rename_i p hp
      split at h
      · injection h with h; injection h with h1 h2; subst h1 h2; exact .inr ⟨by simp, f2.set rfl rfl⟩
      · rename_i w _
        obtain ⟨s3, e3, h⟩ := bind_ok_iff h
        have f3 : Fresh s s3 := f2.step (point_rel W true _ _ e3) rfl rfl
        split at h
        · cases h
        · rename_i p3 hp3
          split at h
          · injection h with h; injection h with h1 h2; subst h1 h2; exact .inr ⟨by simp, f3.set rfl rfl⟩
          · obtain ⟨s4, e4, h⟩ := bind_ok_iff h
            have f4 : Fresh s s4 := f3.step (point_rel W true _ _ e4) rfl rfl
            split at h
            · cases h
            · rename_i p4 hp4
              unfold introduce at h
              generalize W.connect s4.world = x at h
              obtain ⟨s6, e6, h⟩ := bind_ok_iff h
              have f6 : Fresh s s6 := f4.step (point_rel W true _ _ e6) rfl rfl
              split at h
              · injection h with h; injection h with h1 h2; subst h1 h2; exact .inr ⟨by simp, f6⟩
              · split at h
                · cases h
                · split at h <;> (injection h with h; injection h with h1 h2; subst h1 h2; exact .inr ⟨by simp, f6.set rfl rfl⟩)

/-- `waitpid` does not fail. -/
def NoError (W : World σ) : Prop := ∀ w, (W.poll w).1 ≠ .error

theorem isAlive_false (W : World σ) (hW : NoError W) (p : Process) (w : σ) (st : Option Int) (p' : Process) (w' : σ)
    (h : isAlive W p w = (false, st, p', w')) : p'.running = false := by
  unfold isAlive at h
  split at h
  · split at h
    · simp at h
    · rename_i v hv
      exact absurd (by rw [hv]) (hW w)
    · injection h with h1 h; injection h with h2 h; injection h with h3 h4; subst h3; rfl
    · injection h with h1 h; injection h with h2 h; injection h with h3 h4; subst h3; rfl
  · rename_i hr
    injection h with h1 h; injection h with h2 h; injection h with h3 h4; subst h3; simpa using hr

/-- Starting a process is safe when the watchdog does not interfere. -/
theorem start_total (W : World σ) (limit : Bool) (hW : NoError W) (hq : ∀ w, (W.turn true w).1 = false) (s : State σ) (hs : Inv s) :
    ∃ r s', startProcess W limit s = .ok (r, s') ∧ Inv s' := by
  unfold startProcess
  rcases e : processRunning W s with ⟨b, s1⟩
  obtain ⟨r1, -, -⟩ := running_rel W s s1 b e
  cases b with
  | true => exact ⟨_, _, rfl, hs.rel r1⟩
  | false =>
    dsimp only
    rw [point_quiet W hq, Outcome.bind_ok]
    dsimp only
    generalize (W.turn true s1.world).2 = w1
    rcases e2 : W.spawn w1 with ⟨b2, w2⟩
    cases b2 with
    | false =>
      refine ⟨_, _, rfl, fun p hp => ?_, fun p hp hr => ?_⟩
      · injection hp with hp; subst hp; simp
      · injection hp with hp; subst hp; simp at hr
    | true =>
      dsimp only
      rw [point_quiet W hq, Outcome.bind_ok]
      dsimp only
      generalize (W.turn true w2).2 = w3
      rcases e3 : isAlive W ⟨s1.next, true, some (-1)⟩ w3 with ⟨b3, st3, p3, w4⟩
      obtain ⟨a3, -, k3⟩ := isAlive_spec W _ _ _ _ _ _ e3
      cases b3 with
      | false =>
        have hf := isAlive_false W hW _ _ _ _ _ e3
        refine ⟨_, _, rfl, fun p hp => ?_, fun p hp hr => ?_⟩
        · injection hp with hp; subst hp; exact a3.exit (by simp)
        · injection hp with hp; subst hp; rw [hf] at hr; cases hr
      | true =>
        obtain ⟨k3, -⟩ := k3 rfl
        subst k3
        dsimp only
        rw [point_quiet W hq, Outcome.bind_ok]
        dsimp only
        generalize (W.turn true w4).2 = w5
        unfold introduce
        generalize W.connect w5 = x
        rcases x with ⟨version, w6⟩
        rw [point_quiet W hq, Outcome.bind_ok]
        dsimp only
        cases version with
        | none =>
          refine ⟨_, _, rfl, fun p hp => ?_, fun p hp hr => ?_⟩
          · injection hp with hp; subst hp; simp
          · injection hp with hp; subst hp; exact ⟨_, rfl, rfl⟩
        | some version =>
          dsimp only
          split
          all_goals
            refine ⟨_, _, rfl, fun p hp => ?_, fun p hp hr => ?_⟩
            · injection hp with hp; subst hp; simp
            · injection hp with hp; subst hp; exact ⟨_, rfl, rfl⟩

theorem ready_ok (W : World σ) (s s' : State σ) (b : Bool) (h : ready W s = .ok (b, s')) :
    Rel s s' ∧ s'.armed = s.armed ∧ (b = true → ∃ c, s'.client = some c ∧ c.established = true) ∧ (s.process = none → b = false) := by
  unfold ready at h
  rcases e : processRunning W s with ⟨b1, s1⟩
  obtain ⟨r1, k1, a1⟩ := running_rel W s s1 b1 e
  rw [e] at h
  cases b1 with
  | false => injection h with h; injection h with h1 h2; subst h1 h2; exact ⟨r1, a1, by simp, by simp⟩
  | true =>
    dsimp only at h
    have hn : s.process ≠ none := by
      obtain ⟨p, -, -, hp⟩ := k1 rfl
      rw [hp]; simp
    rcases e2 : W.alive s1.world with ⟨b2, w2⟩
    split at h
    · cases h
    · rename_i c hc
      simp only [e2] at h
      split at h
      · rename_i he
        injection h with h; injection h with h1 h2; subst h1 h2
        exact ⟨r1.trans (Rel.world s1 w2), a1, fun _ => ⟨c, hc, he⟩, fun x => absurd x hn⟩
      · injection h with h; injection h with h1 h2; subst h1 h2
        exact ⟨r1, a1, by simp, by simp⟩

theorem ready_total (W : World σ) (s : State σ) (hs : Inv s) : ∃ b s', ready W s = .ok (b, s') := by
  unfold ready
  rcases e : processRunning W s with ⟨b1, s1⟩
  obtain ⟨r1, k1, -⟩ := running_rel W s s1 b1 e
  cases b1 with
  | false => exact ⟨_, _, rfl⟩
  | true =>
    obtain ⟨p, hp, hr, -⟩ := k1 rfl
    obtain ⟨c, hc, -⟩ := (hs.rel r1).client p hp hr
    dsimp only
    rw [hc]
    dsimp only
    split
    · exact ⟨_, _, rfl⟩
    · exact ⟨_, _, rfl⟩

/-- What an exchange does. -/
structure Exchanged (W : World σ) (e : Exchange) (good : Int) (s s' : State σ) (r : Result) : Prop where
  client : ∃ c, s.client = some c ∧ s'.client = some c ∧
    ∃ l₁ l₂, s'.log = s.log ++ l₁ ++ [.exchange e c.gen] ++ l₂ ∧ Quiet l₁ ∧ Quiet l₂
  code : ∃ w, r = .value ((W.exchange e w).1 == good) ∧ s'.tracking = some ((W.exchange e w).1 == good) ∧
    ((W.exchange e w).1 = -1 → s'.process = none)
  armed : s'.armed = false
  process : ∀ p', s'.process = some p' → ∃ p, s.process = some p ∧ Aged p p'

theorem exchange_ok (W : World σ) (limit : Bool) (e : Exchange) (good : Int) (s s' : State σ) (r : Result)
    (h : exchange W limit e good s = .ok (r, s')) : Exchanged W e good s s' r := by
  unfold exchange at h
  obtain ⟨s1, e1, h⟩ := bind_ok_iff h
  have r1 := point_rel W false _ _ e1
  split at h
  · cases h
  · rename_i c hc
    unfold conclude at h
    rcases e2 : W.exchange e s1.world with ⟨code, w⟩
    rw [e2] at h
    obtain ⟨s2, e3, h⟩ := bind_ok_iff h
    have r2 := point_rel W false _ _ e3
    obtain ⟨l1, k1, q1⟩ := r1.log
    obtain ⟨l2, k2, q2⟩ := r2.log
    have c1 : s.client = some c := r1.client.symm.trans hc
    have c2 : s2.client = some c := r2.client.trans hc
    have hp : ∀ p', s2.process = some p' → ∃ p, s.process = some p ∧ Aged p p' := by
      intro p' h'
      obtain ⟨p1, h1, a1⟩ := r2.process p' h'
      obtain ⟨p0, h0, a0⟩ := r1.process p1 h1
      exact ⟨p0, h0, a0.trans a1⟩
    dsimp only at k1 k2
    dsimp only at h
    by_cases hcode : code = -1
    · rw [if_pos hcode] at h
      obtain ⟨⟨b, s3⟩, e4, h⟩ := map_ok_iff h
      obtain ⟨r3, n3, a3⟩ := stop_rel W _ _ _ e4
      obtain ⟨l3, k3, q3⟩ := r3.log
      dsimp only at h k3
      injection h with h1 h2
      subst h1 h2
      refine ⟨⟨c, c1, r3.client.trans c2, l1, l2 ++ l3, by rw [k3, k2, k1, List.append_assoc], q1, q2.append q3⟩,
        ⟨s1.world, by rw [e2], by rw [e2]; exact r3.tracking, fun _ => n3⟩, a3, fun p' h' => by rw [n3] at h'; cases h'⟩
    · rw [if_neg hcode] at h
      injection h with h; injection h with h1 h2
      subst h1 h2
      exact ⟨⟨c, c1, c2, l1, l2, by show s2.log = _; rw [k2, k1], q1, q2⟩,
        ⟨s1.world, by rw [e2], by rw [e2], fun x => absurd (by rw [e2] at x; exact x) hcode⟩, rfl, hp⟩

theorem exchange_total (W : World σ) (limit : Bool) (e : Exchange) (good : Int) (s : State σ) (hs : Settled s)
    (hc : ∃ c, s.client = some c) : ∃ r s', exchange W limit e good s = .ok (r, s') := by
  unfold exchange
  obtain ⟨s1, e1⟩ := point_total W false { s with armed := limit } hs
  have r1 := point_rel W false _ _ e1
  rw [e1, Outcome.bind_ok]
  obtain ⟨c, hc⟩ := hc
  have c1 : s1.client = some c := r1.client.trans hc
  rw [c1]
  dsimp only
  unfold conclude
  generalize W.exchange e s1.world = x
  rcases x with ⟨code, w⟩
  dsimp only
  have hs' : Settled { s with armed := limit } := hs
  have hs1 := hs'.rel r1
  obtain ⟨s2, e3⟩ := point_total W false { s1 with world := w, log := s1.log ++ [.exchange e c.gen] } hs1
  have r2 := point_rel W false _ _ e3
  have hs1' : Settled { s1 with world := w, log := s1.log ++ [.exchange e c.gen] } := hs1
  have hs2 := hs1'.rel r2
  rw [e3, Outcome.bind_ok]
  split
  · obtain ⟨b, s3, e4⟩ := stop_total W { s2 with armed := false, tracking := some (code == good) } hs2
    rw [e4]
    exact ⟨_, _, rfl⟩
  · exact ⟨_, _, rfl⟩

end Trax.Proc
