import Verif.Lemmas.TrackerProcess
import Verif.Spec.TrackerProcess

/-!
# Property theorems C84–C88: the tracker process
-/

namespace Trax.Proc
open Trax.Proc.Spec (Ordered Disciplined known answer ended after)

variable {σ : Type}

/-! ## C84: no call is undefined behaviour -/

/-- The calls that look at the flag `tracking`. -/
def Op.looks : Op → Bool
  | .wait | .frame | .tracking => true
  | _ => false

theorem initialize_total (W : World σ) (limit : Bool) (hW : NoError W) (hq : ∀ w, (W.turn true w).1 = false) (s : State σ) (hs : Inv s) :
    ∃ r s', «initialize» W limit s = .ok (r, s') ∧ Inv s' := by
  unfold «initialize»
  obtain ⟨r1, s1, e1, i1⟩ := start_total W limit hW hq s hs
  rw [e1, Outcome.bind_ok]
  cases r1 with
  | thrown => exact ⟨_, _, rfl, i1⟩
  | value b =>
    dsimp only
    obtain ⟨b2, s2, e2⟩ := ready_total W s1 i1
    obtain ⟨r2, -, k2, -⟩ := ready_ok W s1 s2 b2 e2
    have i2 := i1.rel r2
    rw [e2, Outcome.bind_ok]
    cases b2 with
    | false => exact ⟨_, _, rfl, i2⟩
    | true =>
      obtain ⟨c, hc, -⟩ := k2 rfl
      obtain ⟨r3, s3, e3⟩ := exchange_total W limit .init 0 { s2 with tracking := some false } i2.settled ⟨c, hc⟩
      have x3 := exchange_ok W limit .init 0 _ s3 r3 e3
      obtain ⟨c', h1, h2, -⟩ := x3.client
      refine ⟨r3, s3, e3, fun p hp => ?_, fun p hp hr => ?_⟩
      · obtain ⟨q, hq, a⟩ := x3.process p hp
        exact a.exit (i2.settled q hq)
      · obtain ⟨q, hq, a⟩ := x3.process p hp
        obtain ⟨d, d1, d2⟩ := i2.client q hq (a.running hr)
        have : c' = d := by
          have h1' : s2.client = some c' := h1
          rw [d1] at h1'; injection h1' with h1'; exact h1'.symm
        subst this
        exact ⟨c', h2, d2.trans a.gen.symm⟩

theorem go_total (W : World σ) (limit : Bool) (e : Exchange) (good : Int) (s : State σ) (hs : Inv s) (ht : s.tracking ≠ none) :
    ∃ r s', go W limit e good s = .ok (r, s') ∧ Inv s' := by
  unfold go
  obtain ⟨b2, s2, e2⟩ := ready_total W s hs
  obtain ⟨r2, -, k2, -⟩ := ready_ok W s s2 b2 e2
  have i2 := hs.rel r2
  rw [e2, Outcome.bind_ok]
  cases b2 with
  | false => exact ⟨_, _, rfl, i2⟩
  | true =>
    dsimp only
    rw [if_pos rfl]
    rw [← r2.tracking] at ht
    rcases htr : s2.tracking with _ | t
    · exact absurd htr ht
    · cases t with
      | false => exact ⟨_, _, rfl, i2⟩
      | true =>
        dsimp only
        obtain ⟨c, hc, -⟩ := k2 rfl
        obtain ⟨r3, s3, e3⟩ := exchange_total W limit e good s2 i2.settled ⟨c, hc⟩
        have x3 := exchange_ok W limit e good _ s3 r3 e3
        obtain ⟨c', h1, h2, -⟩ := x3.client
        refine ⟨r3, s3, e3, fun p hp => ?_, fun p hp hr => ?_⟩
        · obtain ⟨q, hq, a⟩ := x3.process p hp
          exact a.exit (i2.settled q hq)
        · obtain ⟨q, hq, a⟩ := x3.process p hp
          obtain ⟨d, d1, d2⟩ := i2.client q hq (a.running hr)
          have : c' = d := by rw [d1] at h1; injection h1 with h1; exact h1.symm
          subst this
          exact ⟨c', h2, d2.trans a.gen.symm⟩

theorem step_total (W : World σ) (limit : Bool) (hW : NoError W) (hq : ∀ w, (W.turn true w).1 = false) (s : State σ) (hs : Inv s)
    (o : Op) (ho : o.looks = true → s.tracking ≠ none) : ∃ r s', step W limit s o = .ok (r, s') ∧ Inv s' := by
  cases o with
  | query => exact start_total W limit hW hq s hs
  | init => exact initialize_total W limit hW hq s hs
  | wait => exact go_total W limit .wait 5 s hs (ho rfl)
  | frame => exact go_total W limit .frame 0 s hs (ho rfl)
  | ready =>
    obtain ⟨b, s', e⟩ := ready_total W s hs
    exact ⟨.value b, s', by simp [step, e, Outcome.map], hs.rel (ready_ok W s s' b e).1⟩
  | tracking =>
    obtain ⟨b, s', e⟩ := ready_total W s hs
    have r := (ready_ok W s s' b e).1
    have ht := ho rfl
    rw [← r.tracking] at ht
    unfold step Proc.tracking
    dsimp only
    rw [e, Outcome.bind_ok]
    cases b with
    | false => exact ⟨_, _, rfl, hs.rel r⟩
    | true =>
      dsimp only
      rw [if_pos rfl]
      rcases htr : s'.tracking with _ | t
      · exact absurd htr ht
      · exact ⟨_, _, rfl, hs.rel r⟩
  | reset =>
    unfold step Proc.reset
    dsimp only
    obtain ⟨b, s', e⟩ := stop_total W s hs.settled
    rw [e, Outcome.bind_ok]
    exact start_total W limit hW hq s' (hs.rel (stop_rel W s s' b e).1)
  | turn =>
    obtain ⟨s', e⟩ := turn_total W s hs.settled
    exact ⟨.value true, s', by simp [step, e, Outcome.map], hs.rel (turn_rel W s s' e)⟩

/-- What is left of the flag after a call. -/
theorem step_flag (W : World σ) (limit : Bool) (s s' : State σ) (o : Op) (r : Result) (h : step W limit s o = .ok (r, s')) :
    s'.tracking = none → s.tracking = none ∧ ∀ b, (o, r) ≠ (.init, .value b) := by
  have hstart : ∀ (s : State σ) r s', startProcess W limit s = .ok (r, s') → s'.tracking = s.tracking := by
    intro s r s' h
    rcases start_ok W limit s s' r h with ⟨-, k⟩ | ⟨-, k⟩
    · exact k.tracking
    · exact k.tracking
  have hgo : ∀ e good, go W limit e good s = .ok (r, s') → s'.tracking = none → s.tracking = none := by
    intro e good h hn
    unfold go at h
    obtain ⟨⟨b, s1⟩, e1, h⟩ := bind_ok_iff h
    have r1 := (ready_ok W s s1 b e1).1
    dsimp only at h
    split at h
    · split at h
      · cases h
      · injection h with h; injection h with h1 h2; subst h2; exact r1.tracking.symm.trans hn
      · obtain ⟨w, -, ht, -⟩ := (exchange_ok W limit e good s1 s' r h).code
        rw [ht] at hn; cases hn
    · injection h with h; injection h with h1 h2; subst h2; exact r1.tracking.symm.trans hn
  intro hn
  cases o with
  | query => exact ⟨(hstart s r s' h).symm.trans hn, by simp⟩
  | init =>
    simp only [step] at h
    unfold «initialize» at h
    obtain ⟨⟨r1, s1⟩, e1, h⟩ := bind_ok_iff h
    have t1 := hstart s r1 s1 e1
    cases r1 with
    | thrown =>
      injection h with h; injection h with h1 h2; subst h1 h2
      exact ⟨t1.symm.trans hn, by simp⟩
    | value b =>
      dsimp only at h
      obtain ⟨⟨b2, s2⟩, e2, h⟩ := bind_ok_iff h
      have r2 := (ready_ok W s1 s2 b2 e2).1
      dsimp only at h
      split at h
      · obtain ⟨w, -, ht, -⟩ := (exchange_ok W limit .init 0 _ s' r h).code
        rw [ht] at hn; cases hn
      · injection h with h; injection h with h1 h2; subst h1 h2
        exact ⟨(r2.tracking.trans t1).symm.trans hn, by simp⟩
  | wait => exact ⟨hgo _ _ h hn, by simp⟩
  | frame => exact ⟨hgo _ _ h hn, by simp⟩
  | ready =>
    obtain ⟨⟨b, s1⟩, e1, h⟩ := map_ok_iff h
    injection h with h1 h2
    subst h2
    exact ⟨(ready_ok W s s1 b e1).1.tracking.symm.trans hn, by simp⟩
  | tracking =>
    simp only [step] at h
    unfold Proc.tracking at h
    obtain ⟨⟨b, s1⟩, e1, h⟩ := bind_ok_iff h
    have r1 := (ready_ok W s s1 b e1).1
    dsimp only at h
    split at h
    · split at h
      · cases h
      · injection h with h; injection h with h1 h2; subst h2; exact ⟨r1.tracking.symm.trans hn, by simp⟩
    · injection h with h; injection h with h1 h2; subst h2; exact ⟨r1.tracking.symm.trans hn, by simp⟩
  | reset =>
    simp only [step] at h
    unfold Proc.reset at h
    obtain ⟨⟨b, s1⟩, e1, h⟩ := bind_ok_iff h
    exact ⟨((hstart s1 r s' h).trans (stop_rel W s s1 b e1).1.tracking).symm.trans hn, by simp⟩
  | turn =>
    obtain ⟨s1, e1, h⟩ := map_ok_iff h
    injection h with h1 h2
    subst h2
    exact ⟨(turn_rel W s s1 e1).tracking.symm.trans hn, by simp⟩

theorem history_stuck (W : World σ) (limit : Bool) (hW : NoError W) (hq : ∀ w, (W.turn true w).1 = false) (ops : List Op) (s : State σ)
    (hs : Inv s) (h : ∀ x, history W limit ops s ≠ .ok x) :
    s.tracking = none ∧ ∃ before o after rs s', ops = before ++ o :: after ∧ o.looks = true ∧ history W limit before s = .ok (rs, s') ∧
      ∀ b, (Op.init, Result.value b) ∉ rs := by
  induction ops generalizing s with
  | nil => exact absurd rfl (h _)
  | cons o rest ih =>
    by_cases ho : o.looks = true ∧ s.tracking = none
    · exact ⟨ho.2, [], o, rest, [], s, rfl, ho.1, rfl, by simp⟩
    · obtain ⟨r, s1, e1, i1⟩ := step_total W limit hW hq s hs o (fun hl hn => ho ⟨hl, hn⟩)
      obtain ⟨hn, before, o', after, rs, s', e2, e3, e4, e5⟩ := ih s1 i1 (by
        intro x hx
        refine h ((o, r) :: x.1, x.2) ?_
        rw [history, e1, Outcome.bind_ok]; dsimp only; rw [hx]
        rfl)
      obtain ⟨k1, k2⟩ := step_flag W limit s s1 o r e1 hn
      refine ⟨k1, o :: before, o', after, (o, r) :: rs, s', by rw [e2]; rfl, e3, ?_, ?_⟩
      · rw [history, e1, Outcome.bind_ok]; dsimp only; rw [e4]; rfl
      · intro b hb
        rcases List.mem_cons.1 hb with hb | hb
        · exact k2 b hb.symm
        · exact e5 b hb

/-- **C84** (partial): if the watchdog takes no turn while a process is being started and `waitpid` does not fail, the only way to
undefined behaviour is to wait, to send a frame or to ask whether the tracker is tracking before any initialization was
completed: a flag is read that was never set. Missing: turns of the watchdog during the start
(`C84_watchdog_false`), and the flag (`C84_flag_false`). -/
theorem C84_only_cause_partial (W : World σ) (limit : Bool) (hW : NoError W) (hq : ∀ w, (W.turn true w).1 = false) (w : σ) (ops : List Op)
    (h : ∀ x, history W limit ops (.fresh w) ≠ .ok x) :
    ∃ before o after rs s, ops = before ++ o :: after ∧ (o = .wait ∨ o = .frame ∨ o = .tracking) ∧
      history W limit before (.fresh w) = .ok (rs, s) ∧ ∀ b, (Op.init, Result.value b) ∉ rs := by
  obtain ⟨-, before, o, after, rs, s, e1, e2, e3, e4⟩ := history_stuck W limit hW hq ops _ (Inv.fresh w) h
  refine ⟨before, o, after, rs, s, e1, ?_, e3, e4⟩
  cases o <;> simp [Op.looks] at e2 ⊢

/-- A world for the examples: the tracker is a list of answers to `waitpid` (`running` when they are used up), it introduces itself
with the given version, every exchange gives the given code, and the watchdog takes its turns at the start as told. -/
def demo (version : Option Int) (code : Exchange → Int) (turns : Bool) : World (List Poll) where
  spawn w := (true, w)
  poll w := match w with | [] => (.running, []) | a :: rest => (a, rest)
  connect w := (version, w)
  alive w := (true, w)
  exchange e w := (code e, w)
  callback w := (false, w)
  expired w := (true, w)
  turn b w := (b && turns, w)

/-- The codes of a tracker that does what it should. -/
def good : Exchange → Int
  | .wait => 5
  | _ => 0

/-- The hypotheses of `C84_only_cause_partial` are met by a tracker that runs. -/
example : (∀ w, ((demo (some 4) good false).turn true w).1 = false) ∧
    ∃ s, history (demo (some 4) good false) true [.init, .wait, .frame, .wait, .reset, .init, .frame] (.fresh []) =
      .ok ([(.init, .value true), (.wait, .value true), (.frame, .value true), (.wait, .value true), (.reset, .value true),
        (.init, .value true), (.frame, .value true)], s) :=
  ⟨fun _ => rfl, _, rfl⟩

/-- **C84** fails as stated: a program that asks the tracker to introduce itself and then waits for a state makes the library
read a flag that was never set. -/
theorem C84_flag_false : history (demo (some 4) good false) true [.query, .wait] (.fresh []) = .ub := rfl

/-- **C84** fails as stated: the tracker ends at once, the watchdog notices and deletes the process, and the call
that is starting it uses it afterwards. -/
theorem C84_watchdog_false : history (demo (some 4) good true) true [.query] (.fresh [.exited 1]) = .ub := rfl

/-- Without the turn of the watchdog the same tracker is reported with an exception. -/
example : ∃ s, history (demo (some 4) good false) true [.query] (.fresh [.exited 1]) = .ok ([(.query, .thrown)], s) := ⟨_, rfl⟩

/-! ## C85: a tracker is given a target before it is given frames -/

theorem ordered_quiet {log l : List Event} (h : Ordered log) (hl : Quiet l) : Ordered (log ++ l) := by
  intro before e g after heq hne
  rw [List.append_eq_append_iff] at heq
  rcases heq with ⟨a, h1, h2⟩ | ⟨a, h1, h2⟩
  · exact absurd rfl (hl (.exchange e g) (by rw [h2]; simp) e g)
  · cases a with
    | nil =>
      exact absurd rfl (hl (.exchange e g) (by simp only [List.nil_append] at h2; rw [← h2]; simp) e g)
    | cons x a =>
      injection h2 with h2 h3
      subst h2
      exact h before e g a h1 hne

theorem ordered_exchange {log : List Event} (h : Ordered log) (e : Exchange) (g : Nat) (he : e ≠ .init → .exchange .init g ∈ log) :
    Ordered (log ++ [.exchange e g]) := by
  intro before e' g' after heq hne
  rw [List.append_eq_append_iff] at heq
  rcases heq with ⟨a, h1, h2⟩ | ⟨a, h1, h2⟩
  · cases a with
    | nil =>
      injection h2 with h2 h3
      injection h2 with h4 h5
      subst h4 h5
      rw [h1, List.append_nil]
      exact he hne
    | cons x a =>
      injection h2 with h2 h3
      cases a <;> cases h3
  · cases a with
    | nil =>
      injection h2 with h2 h3
      injection h2 with h4 h5
      subst h4 h5
      simp only [List.append_nil] at h1
      rw [← h1]
      exact he hne
    | cons x a =>
      injection h2 with h2 h3
      subst h2
      exact h before e' g' a h1 hne

/-- The state while the history is disciplined. -/
structure Keeps (b : Bool) (s : State σ) : Prop where
  ordered : Ordered s.log
  target : b = true → s.tracking = some true → ∃ c, s.client = some c ∧ .exchange .init c.gen ∈ s.log

theorem Keeps.rel {b : Bool} {s s' : State σ} (h : Keeps b s) (r : Rel s s') : Keeps b s' := by
  obtain ⟨l, e, q⟩ := r.log
  refine ⟨by rw [e]; exact ordered_quiet h.ordered q, fun hb ht => ?_⟩
  obtain ⟨c, h1, h2⟩ := h.target hb (r.tracking.symm.trans ht)
  exact ⟨c, r.client.trans h1, by rw [e]; exact List.mem_append_left _ h2⟩

theorem Keeps.fresh {b : Bool} {s s' : State σ} (h : Keeps b s) (r : Fresh s s') : Keeps false s' := by
  obtain ⟨l, e, q⟩ := r.log
  exact ⟨by rw [e]; exact ordered_quiet h.ordered q, by simp⟩

theorem Keeps.exchanged {W : World σ} {e : Exchange} {code : Int} {s s' : State σ} {r : Result} (h : Ordered s.log)
    (x : Exchanged W e code s s' r) (he : e ≠ .init → ∃ c, s.client = some c ∧ .exchange .init c.gen ∈ s.log) : Keeps true s' := by
  obtain ⟨c, c1, c2, l1, l2, k, q1, q2⟩ := x.client
  have hin : e ≠ .init → .exchange .init c.gen ∈ s.log ++ l1 := by
    intro hne
    obtain ⟨d, d1, d2⟩ := he hne
    rw [c1] at d1
    injection d1 with d1
    subst d1
    exact List.mem_append_left _ d2
  refine ⟨by rw [k]; exact ordered_quiet (ordered_exchange (ordered_quiet h q1) e c.gen hin) q2, fun _ _ => ⟨c, c2, ?_⟩⟩
  rw [k]
  by_cases hne : e = .init
  · subst hne; simp
  · exact List.mem_append_left _ (List.mem_append_left _ (hin hne))

theorem Keeps.start {W : World σ} {limit : Bool} {b : Bool} {s s' : State σ} {r : Result} (h : Keeps b s)
    (e : startProcess W limit s = .ok (r, s')) : Keeps (b && (r == .value false)) s' := by
  rcases start_ok W limit s s' r e with ⟨k1, k2⟩ | ⟨k1, k2⟩
  · subst k1
    have : (b && (Result.value false == Result.value false)) = b := by cases b <;> rfl
    rw [this]
    exact h.rel k2
  · have : (b && (r == .value false)) = false := by
      have : (r == Result.value false) = false := by simpa using k1
      rw [this]; cases b <;> rfl
    rw [this]
    exact h.fresh k2

theorem Keeps.weaken {b : Bool} {s : State σ} (h : Keeps b s) : Keeps false s := ⟨h.ordered, by simp⟩

theorem Keeps.go {W : World σ} {limit : Bool} {e : Exchange} {code : Int} {s s' : State σ} {r : Result} (h : Keeps true s)
    (hx : go W limit e code s = .ok (r, s')) : Keeps true s' := by
  unfold Proc.go at hx
  obtain ⟨⟨b, s1⟩, e1, hx⟩ := bind_ok_iff hx
  have k1 := h.rel (ready_ok W s s1 b e1).1
  dsimp only at hx
  split at hx
  · split at hx
    · cases hx
    · injection hx with hx; injection hx with h1 h2; subst h2; exact k1
    · rename_i ht
      exact Keeps.exchanged k1.ordered (exchange_ok W limit e code s1 s' r hx) (fun _ => k1.target rfl ht)
  · injection hx with hx; injection hx with h1 h2; subst h2; exact k1

theorem Keeps.step {W : World σ} {limit : Bool} {b : Bool} {s s' : State σ} {o : Op} {r : Result} (h : Keeps b s)
    (hx : step W limit s o = .ok (r, s')) (hd : o = .wait ∨ o = .frame → b = true) : Keeps (known b (o, r)) s' := by
  cases o with
  | query =>
    have k := h.start hx
    rcases r with v | _
    · cases v
      · cases b <;> exact k
      · cases b <;> exact k
    · cases b <;> exact k
  | init =>
    simp only [Proc.step] at hx
    unfold «initialize» at hx
    obtain ⟨⟨r1, s1⟩, e1, hx⟩ := bind_ok_iff hx
    have k1 := (h.start e1).weaken
    cases r1 with
    | thrown =>
      injection hx with hx; injection hx with h1 h2; subst h1 h2
      exact k1
    | value v =>
      dsimp only at hx
      obtain ⟨⟨b2, s2⟩, e2, hx⟩ := bind_ok_iff hx
      have k2 := k1.rel (ready_ok W s1 s2 b2 e2).1
      dsimp only at hx
      split at hx
      · have x := exchange_ok W limit .init 0 { s2 with tracking := some false } s' r hx
        have k3 := Keeps.exchanged (s := { s2 with tracking := some false }) k2.ordered x (by simp)
        obtain ⟨w, hr, -⟩ := x.code
        subst hr
        exact k3
      · injection hx with hx; injection hx with h1 h2; subst h1 h2
        exact k2
  | wait =>
    cases hd (.inl rfl)
    have := h.go hx
    cases r <;> exact this
  | frame =>
    cases hd (.inr rfl)
    have := h.go hx
    cases r <;> exact this
  | ready =>
    obtain ⟨⟨v, s1⟩, e1, hx⟩ := map_ok_iff hx
    injection hx with h1 h2
    subst h2
    have := h.rel (ready_ok W s s1 v e1).1
    cases r <;> exact this
  | tracking =>
    simp only [Proc.step] at hx
    unfold Proc.tracking at hx
    obtain ⟨⟨v, s1⟩, e1, hx⟩ := bind_ok_iff hx
    have k := h.rel (ready_ok W s s1 v e1).1
    dsimp only at hx
    have : s' = s1 := by
      split at hx
      · split at hx
        · cases hx
        · injection hx with hx; injection hx with h1 h2; exact h2.symm
      · injection hx with hx; injection hx with h1 h2; exact h2.symm
    subst this
    cases r <;> exact k
  | reset =>
    simp only [Proc.step] at hx
    unfold Proc.reset at hx
    obtain ⟨⟨v, s1⟩, e1, hx⟩ := bind_ok_iff hx
    have := ((h.rel (stop_rel W s s1 v e1).1).start hx).weaken
    cases r <;> exact this
  | turn =>
    obtain ⟨s1, e1, hx⟩ := map_ok_iff hx
    injection hx with h1 h2
    subst h2
    have := h.rel (turn_rel W s s1 e1)
    cases r <;> exact this

theorem Keeps.history {W : World σ} {limit : Bool} {b : Bool} {ops : List Op} {s s' : State σ} {rs : List (Op × Result)} (h : Keeps b s)
    (hx : history W limit ops s = .ok (rs, s')) (hd : Disciplined b rs) : Ordered s'.log := by
  induction ops generalizing s b rs with
  | nil => injection hx with hx; injection hx with h1 h2; subst h2; exact h.ordered
  | cons o rest ih =>
    rw [Proc.history] at hx
    obtain ⟨⟨r, s1⟩, e1, hx⟩ := bind_ok_iff hx
    dsimp only at hx
    obtain ⟨⟨rs', s2⟩, e2, hx⟩ := map_ok_iff hx
    injection hx with h1 h2
    subst h1 h2
    exact ih (h.step e1 hd.1) e2 hd.2

/-- **C85** (partial): whatever the tracker and the watchdog do, and whatever fails in between: if the program initializes the tracker
after each call that started a process, before it sends frames or waits, then every frame and every wait goes to a tracker process that was
given a target before. Missing: the library checks this order itself, but the check does not notice a new
process (`C85_reset_false`). -/
theorem C85_order_partial (W : World σ) (limit : Bool) (w : σ) (ops : List Op) (rs : List (Op × Result)) (s : State σ)
    (h : history W limit ops (.fresh w) = .ok (rs, s)) (hd : Disciplined false rs) : Ordered s.log :=
  Keeps.history (b := false) ⟨fun before e g after he => by simp [State.fresh] at he, by simp⟩ h hd

/-- A disciplined history with two processes. -/
example : ∃ rs s, history (demo (some 4) good false) true [.query, .init, .wait, .frame, .wait, .reset, .init, .wait] (.fresh []) = .ok (rs, s) ∧
    Disciplined false rs ∧ .exchange .wait 1 ∈ s.log := by
  refine ⟨_, _, rfl, ?_, ?_⟩
  · simp [Disciplined, known]
  · decide +kernel

/-- **C85** fails as stated: after `reset` the library lets the program wait for a state of a tracker that was never initialized. -/
theorem C85_reset_false : ∃ rs s, history (demo (some 4) good false) true [.init, .reset, .wait] (.fresh []) = .ok (rs, s) ∧ ¬ Ordered s.log := by
  refine ⟨_, _, rfl, fun h => ?_⟩
  have h0 := h ([.exchange .init 0, .term 0, .kill 0, .kill 0]) .wait 1 [] (by decide +kernel) (by decide)
  revert h0
  decide +kernel

/-! ## C86: a tracker with an unsupported version is refused -/

/-- **C86** (partial): where no process is running, a process that starts, keeps running and introduces itself is accepted if and only if its
version is at most 4, and `initialize` with a tracker of a higher version throws without an exchange. Missing: a refused tracker keeps
running, and the next call uses it (`C86_retry_false`). -/
theorem C86_first_partial (W : World σ) (limit : Bool) (s : State σ) (version : Int) (hs : s.process = none)
    (hq : ∀ w, (W.turn true w).1 = false) (hspawn : ∀ w, (W.spawn w).1 = true) (hpoll : ∀ w, (W.poll w).1 = .running)
    (hconnect : ∀ w, (W.connect w).1 = some version) :
    (∃ s', startProcess W limit s = .ok (if version ≤ 4 then .value true else .thrown, s')) ∧
    (version > 4 → ∃ s', «initialize» W limit s = .ok (.thrown, s') ∧ s'.log = s.log) := by
  have key : ∃ s', startProcess W limit s = .ok (if version ≤ 4 then .value true else .thrown, s') ∧ s'.log = s.log := by
    unfold startProcess processRunning
    rw [hs]
    dsimp only
    rw [point_quiet W hq, Outcome.bind_ok]
    dsimp only
    generalize (W.turn true s.world).2 = w1
    have h2 := hspawn w1
    rcases e2 : W.spawn w1 with ⟨b2, w2⟩
    rw [e2] at h2
    dsimp only at h2
    subst h2
    dsimp only
    rw [point_quiet W hq, Outcome.bind_ok]
    dsimp only
    generalize (W.turn true w2).2 = w3
    have h3 := hpoll w3
    rcases e3 : W.poll w3 with ⟨b3, w4⟩
    rw [e3] at h3
    dsimp only at h3
    subst h3
    have ea : isAlive W ⟨s.next, true, some (-1)⟩ w3 = (true, some 0, ⟨s.next, true, some (-1)⟩, w4) := by
      unfold isAlive
      rw [if_pos rfl, e3]
    rw [ea]
    dsimp only
    rw [point_quiet W hq, Outcome.bind_ok]
    dsimp only
    generalize (W.turn true w4).2 = w5
    have h5 := hconnect w5
    generalize W.connect w5 = x at h5
    rcases x with ⟨v, w6⟩
    dsimp only at h5
    subst h5
    unfold introduce
    rw [point_quiet W hq, Outcome.bind_ok]
    dsimp only
    by_cases hv : version ≤ 4
    · rw [if_neg (by omega), if_pos hv]; exact ⟨_, rfl, rfl⟩
    · rw [if_pos (by omega), if_neg hv]; exact ⟨_, rfl, rfl⟩
  refine ⟨?_, fun hv => ?_⟩
  · obtain ⟨s', e, -⟩ := key; exact ⟨s', e⟩
  · obtain ⟨s', e, hl⟩ := key
    rw [if_neg (by omega)] at e
    refine ⟨s', ?_, hl⟩
    unfold «initialize»
    rw [e]
    rfl

/-- The hypotheses of `C86_first_partial` are met by a tracker of version 5. -/
example : (∀ w, ((demo (some 5) good false).turn true w).1 = false) ∧
    (∃ s, history (demo (some 5) good false) true [.init] (.fresh []) = .ok ([(.init, .thrown)], s)) ∧
    (∃ s, history (demo (some 3) good false) true [.init] (.fresh []) = .ok ([(.init, .value true)], s)) :=
  ⟨fun _ => rfl, ⟨_, rfl⟩, ⟨_, rfl⟩⟩

/-- **C86** fails as stated: the tracker of version 5 is refused with an exception, but it is running now, and the next initialization
is sent to it. -/
theorem C86_retry_false : ∃ s, history (demo (some 5) good false) true [.query, .init] (.fresh []) =
    .ok ([(.query, .thrown), (.init, .value true)], s) ∧ .exchange .init 0 ∈ s.log :=
  ⟨_, rfl, by decide +kernel⟩

/-! ## C87: what is left after an exchange -/

/-- The exchange of a call and the code that stands for success. -/
def Op.exchange? : Op → Option (Exchange × Int)
  | .init => some (.init, 0)
  | .wait => some (.wait, 5)
  | .frame => some (.frame, 0)
  | _ => none

theorem step_exchange (W : World σ) (limit : Bool) (s s' : State σ) (o : Op) (e : Exchange) (good : Int) (b : Bool) (ho : o.exchange? = some (e, good))
    (h : step W limit s o = .ok (.value b, s')) : ∃ s₁, Exchanged W e good s₁ s' (.value b) := by
  have hgo : go W limit e good s = .ok (.value b, s') → ∃ s₁, Exchanged W e good s₁ s' (.value b) := by
    intro h
    unfold go at h
    obtain ⟨⟨b1, s1⟩, e1, h⟩ := bind_ok_iff h
    dsimp only at h
    split at h
    · split at h
      · cases h
      · injection h with h; injection h with h1 h2; cases h1
      · exact ⟨s1, exchange_ok W limit e good s1 s' _ h⟩
    · injection h with h; injection h with h1 h2; cases h1
  cases o with
  | init =>
    injection ho with ho; injection ho with h1 h2; subst h1 h2
    simp only [step] at h
    unfold «initialize» at h
    obtain ⟨⟨r1, s1⟩, e1, h⟩ := bind_ok_iff h
    cases r1 with
    | thrown => injection h with h; injection h with h1 h2; cases h1
    | value v =>
      dsimp only at h
      obtain ⟨⟨b2, s2⟩, e2, h⟩ := bind_ok_iff h
      dsimp only at h
      split at h
      · exact ⟨_, exchange_ok W limit .init 0 _ s' _ h⟩
      · injection h with h; injection h with h1 h2; cases h1
  | wait => injection ho with ho; injection ho with h1 h2; subst h1 h2; exact hgo h
  | frame => injection ho with ho; injection ho with h1 h2; subst h1 h2; exact hgo h
  | query => cases ho
  | ready => cases ho
  | tracking => cases ho
  | reset => cases ho
  | turn => cases ho

/-- **C87** (partial, the calls): an initialization, a wait or a frame that returns gives `true` exactly for the code of success (`TRAX_OK`, and
`TRAX_STATE` for a wait); the watchdog is not armed afterwards; the tracker counts as tracking only if the result was `true`; and after the code
`TRAX_ERROR` there is no process and the tracker is not ready. -/
theorem C87_calls_partial (W : World σ) (limit : Bool) (s s' : State σ) (o : Op) (e : Exchange) (good : Int) (b : Bool)
    (ho : (o, e, good) ∈ [(.init, .init, 0), (.wait, .wait, 5), (.frame, .frame, 0)])
    (h : step W limit s o = .ok (.value b, s')) :
    ∃ w, (b = true ↔ (W.exchange e w).1 = good) ∧ s'.armed = false ∧
      (∀ t, step W limit s' .tracking = .ok (.value true, t) → b = true) ∧
      ((W.exchange e w).1 = -1 → s'.process = none ∧ step W limit s' .ready = .ok (.value false, s')) := by
  have ho' : o.exchange? = some (e, good) := by
    simp only [List.mem_cons, Prod.mk.injEq, List.not_mem_nil, or_false] at ho
    rcases ho with ⟨rfl, rfl, rfl⟩ | ⟨rfl, rfl, rfl⟩ | ⟨rfl, rfl, rfl⟩ <;> rfl
  obtain ⟨s1, x⟩ := step_exchange W limit s s' o e good b ho' h
  obtain ⟨w, k1, k2, k3⟩ := x.code
  injection k1 with k1
  refine ⟨w, by rw [k1]; simp, x.armed, ?_, ?_⟩
  · intro t ht
    simp only [step] at ht
    unfold Proc.tracking at ht
    obtain ⟨⟨b2, s2⟩, e2, ht⟩ := bind_ok_iff ht
    have r2 := (ready_ok W s' s2 b2 e2).1
    dsimp only at ht
    split at ht
    · rw [r2.tracking, k2] at ht
      injection ht with ht; injection ht with h1 h2; injection h1 with h1
      rw [k1, h1]
    · injection ht with ht; injection ht with h1 h2; cases h1
  · intro hc
    have hp := k3 hc
    refine ⟨hp, ?_⟩
    simp only [step]
    unfold Proc.ready processRunning
    rw [hp]
    rfl

/-- A tracker whose exchanges fail: the process is stopped. -/
example : ∃ s, history (demo (some 4) (fun _ => -1) false) true [.init, .ready, .tracking] (.fresh []) =
    .ok ([(.init, .value false), (.ready, .value false), (.tracking, .value false)], s) ∧ s.process = none := ⟨_, rfl, rfl⟩

/-- The watchdog is armed only if there is no established connection. -/
def Calm (s : State σ) : Prop := s.armed = true → ∀ c, s.client = some c → c.established = false

theorem Calm.rel {s s' : State σ} (h : Calm s) (r : Rel s s') : Calm s' := fun ha c hc => h (r.armed ha) c (r.client.symm.trans hc)

theorem Calm.start {W : World σ} {limit : Bool} {s s' : State σ} {r : Result} (h : Calm s) (hx : startProcess W limit s = .ok (r, s')) :
    Calm s' := by
  unfold startProcess at hx
  rcases e : processRunning W s with ⟨b, s1⟩
  obtain ⟨r1, -, -⟩ := running_rel W s s1 b e
  rw [e] at hx
  cases b with
  | true => injection hx with hx; injection hx with h1 h2; subst h2; exact h.rel r1
  | false =>
    dsimp only at hx
    obtain ⟨s2, e2, hx⟩ := bind_ok_iff hx
    have c2 : s2.client = none := (point_rel W true _ _ e2).client
    split at hx
    · cases hx
    · rename_i p hp
      split at hx
      · injection hx with hx; injection hx with h1 h2; subst h2
        intro _ c hc
        cases c2.symm.trans hc
      · rename_i w _
        obtain ⟨s3, e3, hx⟩ := bind_ok_iff hx
        have c3 : s3.client = none := (point_rel W true _ _ e3).client.trans c2
        split at hx
        · cases hx
        · rename_i p3 hp3
          split at hx
          · injection hx with hx; injection hx with h1 h2; subst h2
            intro _ c hc
            cases c3.symm.trans hc
          · obtain ⟨s4, e4, hx⟩ := bind_ok_iff hx
            split at hx
            · cases hx
            · rename_i p4 hp4
              unfold introduce at hx
              generalize W.connect s4.world = x at hx
              obtain ⟨s6, e6, hx⟩ := bind_ok_iff hx
              have c6 := (point_rel W true _ _ e6).client
              split at hx
              · rename_i hv
                injection hx with hx; injection hx with h1 h2; subst h2
                intro _ c hc
                rw [hc] at c6
                injection c6 with c6
                subst c6
                dsimp only
                rw [hv]
                rfl
              · split at hx
                · cases hx
                · split at hx <;> (injection hx with hx; injection hx with h1 h2; subst h2; exact fun ha => by cases ha)

theorem Calm.go {W : World σ} {limit : Bool} {e : Exchange} {code : Int} {s s' : State σ} {r : Result} (h : Calm s)
    (hx : Proc.go W limit e code s = .ok (r, s')) : Calm s' := by
  unfold Proc.go at hx
  obtain ⟨⟨b, s1⟩, e1, hx⟩ := bind_ok_iff hx
  have k1 := h.rel (ready_ok W s s1 b e1).1
  dsimp only at hx
  split at hx
  · split at hx
    · cases hx
    · injection hx with hx; injection hx with h1 h2; subst h2; exact k1
    · intro ha
      rw [(exchange_ok W limit e code s1 s' r hx).armed] at ha
      cases ha
  · injection hx with hx; injection hx with h1 h2; subst h2; exact k1

theorem Calm.step {W : World σ} {limit : Bool} {s s' : State σ} {o : Op} {r : Result} (h : Calm s) (hx : step W limit s o = .ok (r, s')) :
    Calm s' := by
  cases o with
  | query => exact h.start hx
  | init =>
    simp only [Proc.step] at hx
    unfold «initialize» at hx
    obtain ⟨⟨r1, s1⟩, e1, hx⟩ := bind_ok_iff hx
    have k1 := h.start e1
    cases r1 with
    | thrown => injection hx with hx; injection hx with h1 h2; subst h2; exact k1
    | value v =>
      dsimp only at hx
      obtain ⟨⟨b2, s2⟩, e2, hx⟩ := bind_ok_iff hx
      have k2 := k1.rel (ready_ok W s1 s2 b2 e2).1
      dsimp only at hx
      split at hx
      · intro ha
        rw [(exchange_ok W limit .init 0 _ s' r hx).armed] at ha
        cases ha
      · injection hx with hx; injection hx with h1 h2; subst h2; exact k2
  | wait => exact h.go hx
  | frame => exact h.go hx
  | ready =>
    obtain ⟨⟨v, s1⟩, e1, hx⟩ := map_ok_iff hx
    injection hx with h1 h2
    subst h2
    exact h.rel (ready_ok W s s1 v e1).1
  | tracking =>
    simp only [Proc.step] at hx
    unfold Proc.tracking at hx
    obtain ⟨⟨v, s1⟩, e1, hx⟩ := bind_ok_iff hx
    have k := h.rel (ready_ok W s s1 v e1).1
    dsimp only at hx
    have : s' = s1 := by
      split at hx
      · split at hx
        · cases hx
        · injection hx with hx; injection hx with h1 h2; exact h2.symm
      · injection hx with hx; injection hx with h1 h2; exact h2.symm
    subst this
    exact k
  | reset =>
    simp only [Proc.step] at hx
    unfold Proc.reset at hx
    obtain ⟨⟨v, s1⟩, e1, hx⟩ := bind_ok_iff hx
    exact (h.rel (stop_rel W s s1 v e1).1).start hx
  | turn =>
    obtain ⟨s1, e1, hx⟩ := map_ok_iff hx
    injection hx with h1 h2
    subst h2
    exact h.rel (turn_rel W s s1 e1)

/-- **C87** (partial, the watchdog): after any history of calls the watchdog is armed only if no connection to a tracker is established.
Missing: it should not be armed at all between calls (`C87_armed_false`). -/
theorem C87_watchdog_partial (W : World σ) (limit : Bool) (w : σ) (ops : List Op) (rs : List (Op × Result)) (s : State σ)
    (h : history W limit ops (.fresh w) = .ok (rs, s)) (ha : s.armed = true) (c : Client) (hc : s.client = some c) :
    c.established = false := by
  have key : ∀ (ops : List Op) (s s' : State σ) rs, Calm s → history W limit ops s = .ok (rs, s') → Calm s' := by
    intro ops
    induction ops with
    | nil => intro s s' rs k hx; injection hx with hx; injection hx with h1 h2; subst h2; exact k
    | cons o rest ih =>
      intro s s' rs k hx
      rw [history] at hx
      obtain ⟨⟨r, s1⟩, e1, hx⟩ := bind_ok_iff hx
      dsimp only at hx
      obtain ⟨⟨rs', s2⟩, e2, hx⟩ := map_ok_iff hx
      injection hx with h1 h2
      subst h2
      exact ih s1 s2 rs' (k.step e1) e2
  exact key ops _ s rs (fun ha => by cases ha) h ha c hc

/-- **C87** fails as stated: when the tracker does not introduce itself, the call throws and leaves the watchdog armed. -/
theorem C87_armed_false : ∃ s, history (demo none good false) true [.query] (.fresh []) = .ok ([(.query, .thrown)], s) ∧ s.armed = true :=
  ⟨_, rfl, rfl⟩

/-! ## C88: how a tracker is stopped -/

/-- The process after the news that it has ended. -/
def Process.dead (p : Process) (x : Int) : Process := { p with running := false, exit := some x }

theorem after_add (W : World σ) (m n : Nat) (w : σ) : after W n (after W m w) = after W (m + n) w := by
  induction m generalizing w with
  | zero => simp [after]
  | succ m ih =>
    rw [after, ih, show m + 1 + n = (m + n) + 1 by omega, after]

theorem answer_after (W : World σ) (m n : Nat) (w : σ) : answer W n (after W m w) = answer W (m + n) w := by
  unfold answer
  rw [after_add]

theorem isAlive_runs (W : World σ) (p : Process) (w : σ) (hp : p.running = true) (h : answer W 0 w = .running) :
    isAlive W p w = (true, some 0, p, after W 1 w) := by
  unfold isAlive
  rw [if_pos hp]
  unfold answer at h
  simp only [after] at h ⊢
  rcases e : W.poll w with ⟨a, v⟩
  rw [e] at h
  dsimp only at h
  subst h
  rfl

theorem isAlive_ends (W : World σ) (p : Process) (w : σ) (hp : p.running = true) (x : Int) (h : ended (answer W 0 w) = some x) :
    isAlive W p w = (false, some x, p.dead x, after W 1 w) := by
  unfold isAlive
  rw [if_pos hp]
  unfold answer at h
  simp only [after] at h ⊢
  rcases e : W.poll w with ⟨a, v⟩
  rw [e] at h
  dsimp only at h
  cases a with
  | running => cases h
  | error => cases h
  | exited c => injection h with h; subst h; rfl
  | signalled c => injection h with h; subst h; rfl

theorem isAlive_dead (W : World σ) (p : Process) (x : Int) (w : σ) : isAlive W (p.dead x) w = (false, some x, p.dead x, w) := by
  unfold isAlive
  rw [if_neg (by simp [Process.dead])]
  rfl

theorem pollLoop_runs (W : World σ) (k : Nat) (p : Process) (w : σ) (hp : p.running = true) (h : ∀ i, i < k → answer W i w = .running) :
    pollLoop W k p w = (p, after W k w) := by
  induction k generalizing w with
  | zero => rfl
  | succ k ih =>
    unfold pollLoop
    rw [isAlive_runs W p w hp (h 0 (by omega))]
    dsimp only
    rw [ih (after W 1 w) (fun i hi => by rw [answer_after]; exact h _ (by omega)), after_add, Nat.add_comm]

theorem pollLoop_dead (W : World σ) (k : Nat) (p : Process) (x : Int) (w : σ) : pollLoop W k (p.dead x) w = (p.dead x, w) := by
  cases k with
  | zero => rfl
  | succ k =>
    unfold pollLoop
    rw [isAlive_dead]

theorem pollLoop_ends (W : World σ) (k n : Nat) (hn : n < k) (p : Process) (w : σ) (hp : p.running = true) (x : Int)
    (h : ∀ i, i < n → answer W i w = .running) (hx : ended (answer W n w) = some x) :
    pollLoop W k p w = (p.dead x, after W (n + 1) w) := by
  induction k generalizing w n with
  | zero => omega
  | succ k ih =>
    unfold pollLoop
    cases n with
    | zero => rw [isAlive_ends W p w hp x hx]
    | succ n =>
      rw [isAlive_runs W p w hp (h 0 (by omega))]
      dsimp only
      rw [ih n (by omega) (after W 1 w) (fun i hi => by rw [answer_after]; exact h _ (by omega)) (by rw [answer_after, Nat.add_comm]; exact hx),
        after_add, show 1 + (n + 1) = n + 1 + 1 by omega]

theorem signal_dead (W : World σ) (e : Nat → Event) (p : Process) (x : Int) (w : σ) (log : List Event) :
    signal W e (p.dead x) w log = (p.dead x, w, log) := by
  unfold signal
  rw [if_neg (by simp [Process.dead])]

theorem signal_runs (W : World σ) (e : Nat → Event) (p : Process) (w : σ) (log : List Event) (hp : p.running = true) (h : answer W 0 w = .running) :
    signal W e p w log = (p, after W 1 w, log ++ [e p.gen]) := by
  unfold signal
  rw [if_pos hp, isAlive_runs W p w hp h]

theorem signal_ends (W : World σ) (e : Nat → Event) (p : Process) (w : σ) (log : List Event) (hp : p.running = true) (x : Int)
    (h : ended (answer W 0 w) = some x) : signal W e p w log = (p.dead x, after W 1 w, log ++ [e p.gen]) := by
  unfold signal
  rw [if_pos hp, isAlive_ends W p w hp x h]
  rfl

theorem endProcess_ends (W : World σ) (n : Nat) (p : Process) (w : σ) (log : List Event) (hp : p.running = true) (x : Int)
    (h : ∀ i, i < n → answer W i w = .running) (hx : ended (answer W n w) = some x) (hn : n ≤ 14) :
    ∃ v, endProcess W p w log = (some x, p.dead x, v,
      log ++ if n ≤ 5 then [] else if n ≤ 12 then [.term p.gen] else [.term p.gen, .kill p.gen]) := by
  have hA : ∀ m i, m + i < n → answer W i (after W m w) = .running := fun m i hi => by rw [answer_after]; exact h _ hi
  have hX : ∀ m i, m + i = n → ended (answer W i (after W m w)) = some x := fun m i hi => by rw [answer_after, hi]; exact hx
  unfold endProcess
  by_cases h1 : n < 5
  · rw [pollLoop_ends W 5 n h1 p w hp x h hx]
    dsimp only
    rw [isAlive_dead, if_pos (by omega)]
    exact ⟨_, by rw [List.append_nil]⟩
  rw [pollLoop_runs W 5 p w hp (fun i hi => h i (by omega))]
  dsimp only
  by_cases h2 : n = 5
  · rw [isAlive_ends W p _ hp x (hX 5 0 (by omega)), if_pos (by omega)]
    exact ⟨_, by rw [List.append_nil]⟩
  rw [isAlive_runs W p _ hp (hA 5 0 (by omega))]
  dsimp only
  rw [after_add]
  by_cases h3 : n = 6
  · rw [signal_ends W .term p _ log hp x (hX 6 0 (by omega))]
    dsimp only
    rw [pollLoop_dead]
    dsimp only
    rw [isAlive_dead, if_neg (by omega), if_pos (by omega)]
    exact ⟨_, rfl⟩
  rw [signal_runs W .term p _ log hp (hA 6 0 (by omega))]
  dsimp only
  rw [after_add]
  by_cases h4 : n < 12
  · rw [pollLoop_ends W 5 (n - 7) (by omega) p _ hp x (fun i hi => hA 7 i (by omega)) (hX 7 _ (by omega))]
    dsimp only
    rw [isAlive_dead, if_neg (by omega), if_pos (by omega)]
    exact ⟨_, rfl⟩
  rw [pollLoop_runs W 5 p _ hp (fun i hi => hA 7 i (by omega))]
  dsimp only
  rw [after_add]
  by_cases h5 : n = 12
  · rw [isAlive_ends W p _ hp x (hX 12 0 (by omega)), if_neg (by omega), if_pos (by omega)]
    exact ⟨_, rfl⟩
  rw [isAlive_runs W p _ hp (hA 12 0 (by omega))]
  dsimp only
  rw [after_add]
  by_cases h6 : n = 13
  · rw [signal_ends W .kill p _ _ hp x (hX 13 0 (by omega))]
    dsimp only
    rw [isAlive_dead, if_neg (by omega), if_neg (by omega)]
    exact ⟨_, by rw [List.append_assoc]; rfl⟩
  rw [signal_runs W .kill p _ _ hp (hA 13 0 (by omega))]
  dsimp only
  rw [after_add, isAlive_ends W p _ hp x (hX 14 0 (by omega)), if_neg (by omega), if_neg (by omega)]
  exact ⟨_, by rw [List.append_assoc]; rfl⟩

/-- **C88** (partial): the operating system is asked up to fifteen times whether the tracker still runs. If the first answer that it has
ended is answer number `n` (counted from 0), then the tracker gets no signal for `n ≤ 5`, only `SIGTERM` for `n ≤ 12`, and
`SIGTERM` and then `SIGKILL` for `n` 13 or 14; the result says whether the exit status was 0, and there is no process
afterwards. Missing: a tracker that outlives `SIGKILL` is reported as one that ended normally (`C88_stuck_false`). -/
theorem C88_escalation_partial (W : World σ) (s : State σ) (p : Process) (n : Nat) (x : Int) (hs : s.process = some p) (hp : p.running = true)
    (h : ∀ i, i < n → answer W i s.world = .running) (hx : ended (answer W n s.world) = some x) (hn : n ≤ 14) :
    ∃ s', stopProcess W s = .ok (decide (x = 0), s') ∧ s'.process = none ∧ s'.armed = false ∧
      s'.log = s.log ++ if n ≤ 5 then [] else if n ≤ 12 then [.term p.gen] else [.term p.gen, .kill p.gen] := by
  unfold stopProcess
  dsimp only
  rw [hs]
  dsimp only
  obtain ⟨v, e⟩ := endProcess_ends W n p s.world s.log hp x h hx hn
  rw [e]
  dsimp only
  rw [signal_dead]
  refine ⟨_, rfl, rfl, rfl, rfl⟩

/-- A tracker that ends with status 3 at the eighth question. -/
example : ∃ s p, history (demo (some 4) good false) true [.init] (.fresh (List.replicate 10 .running ++ [.exited 3])) = .ok ([(.init, .value true)], s) ∧
    s.process = some p ∧ p.running = true ∧ (∀ i, i < 8 → answer (demo (some 4) good false) i s.world = .running) ∧
    ended (answer (demo (some 4) good false) 8 s.world) = some 3 := by
  refine ⟨_, _, rfl, rfl, rfl, ?_, by decide +kernel⟩
  decide +kernel

/-- **C88** fails as stated: a tracker that still runs after `SIGTERM` and `SIGKILL` is given up, and reported as one that ended
normally. -/
theorem C88_stuck_false : ∃ s s', history (demo (some 4) good false) true [.init] (.fresh []) = .ok ([(.init, .value true)], s) ∧
    stopProcess (demo (some 4) good false) s = .ok (true, s') ∧ s'.process = none ∧
    s'.log = [.exchange .init 0, .term 0, .kill 0, .kill 0] :=
  ⟨_, _, rfl, rfl, rfl, rfl⟩

end Trax.Proc
