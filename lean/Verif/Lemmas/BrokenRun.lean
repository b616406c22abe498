import Verif.Lemmas.LoopRun
import Verif.Props.LoopRun

/-!
# Lemmas on trackers that end in the middle of a run
-/

namespace Trax
open Spec Handle
open Region (bind_eq_ok map_eq_ok)

/-! ## The client -/

/-- The codes with which a client ends a call of `wait`. After a message that ends the session the client is not alive. -/
theorem clientWaitLoop_codes (env : Env) (k : Nat) : ∀ (i : Nat) (acc : ObjList) (ret : Int) (props : Option Properties) (h : Handle) (w : WaitResult),
    ret ∈ [TRAX_ERROR, TRAX_HELLO, TRAX_INITIALIZE, TRAX_FRAME, TRAX_STATE] → clientWaitLoop env i acc ret props h k = .ok w →
    w.ret ∈ [TRAX_ERROR, TRAX_HELLO, TRAX_INITIALIZE, TRAX_FRAME, TRAX_STATE] ∨ (w.ret = TRAX_QUIT ∧ w.handle.isAlive = false) := by
  induction k with
  | zero =>
    intro i acc ret props h w hret hw
    rw [clientWaitLoop] at hw
    cases hw
    exact .inl hret
  | succ k ih =>
    intro i acc ret props h w hret hw
    rw [clientWaitLoop] at hw
    obtain ⟨msg, stream⟩ := h.stream.read
    dsimp only at hw
    split at hw
    · cases hw
      exact .inl (by simp)
    · split at hw
      · obtain ⟨parsed, hp, hw⟩ := bind_eq_ok hw
        split at hw
        · cases hw
          exact .inl (by simp)
        · obtain ⟨acc', ha, hw⟩ := bind_eq_ok hw
          split at hw
          · cases hw
          · exact ih _ _ _ _ _ _ (by simp) hw
      · cases hw
        exact .inl (by simp)
    · split at hw
      · cases hw
        exact .inl (by simp)
      · cases hw
        exact .inr ⟨rfl, by simp [Handle.isAlive, Handle.alive]⟩
    · rename_i t h1 h2 _
      exact ih _ _ _ _ _ _ (by cases t <;> first | exact absurd rfl h1 | exact absurd rfl h2 | decide) hw

theorem clientWaitRegion_codes {env : Env} {h : Handle} {r : Option Region} {props : Properties} {w : Cpp.Waited} (hw : Cpp.clientWaitRegion env (some h) r props = .ok w) :
    ∃ h', w.handle = some h' ∧ (w.ret ∈ [TRAX_ERROR, TRAX_HELLO, TRAX_INITIALIZE, TRAX_FRAME, TRAX_STATE] ∨ (w.ret = TRAX_QUIT ∧ h'.isAlive = false)) := by
  unfold Cpp.clientWaitRegion at hw
  dsimp only at hw
  obtain ⟨v, hv, hw⟩ := bind_eq_ok hw
  have hcodes : v.ret ∈ [TRAX_ERROR, TRAX_HELLO, TRAX_INITIALIZE, TRAX_FRAME, TRAX_STATE] ∨ (v.ret = TRAX_QUIT ∧ v.handle.isAlive = false) := by
    unfold clientWait at hv
    split at hv
    · cases hv
    · split at hv
      · cases hv
        exact .inl (by simp)
      · exact clientWaitLoop_codes env _ _ _ _ _ _ _ (by simp) hv
  unfold Cpp.takeObject at hw
  dsimp only at hw
  split at hw
  · cases hw
    exact ⟨_, rfl, hcodes⟩
  · split at hw
    · obtain ⟨u, -, hw⟩ := map_eq_ok hw
      subst hw
      exact ⟨_, rfl, .inl (by simp)⟩
    · obtain ⟨x, -, hw⟩ := bind_eq_ok hw
      obtain ⟨u, -, hw⟩ := map_eq_ok hw
      subst hw
      exact ⟨_, rfl, hcodes⟩

/-- The end of the input, after other output. -/
theorem clientWaitRegion_eof (env : Env) (h : Handle) {noise : Str} (hs : h.server = false) (ha : h.isAlive = true) (ho : h.objects = 1) (hn : Noise noise)
    (hin : h.stream.input = bytes noise) :
    ∃ w, Cpp.clientWaitRegion env (some h) none Properties.create = .ok w ∧ w.ret ≠ TRAX_STATE ∧ (h.stream.mtype = some .state → w.ret = TRAX_ERROR) := by
  unfold Cpp.clientWaitRegion
  dsimp only
  rw [clientWait_loop _ _ _ hs ha, ho, clientWaitLoop]
  have e : h.stream = { h.stream with input := bytes noise ++ [] } := by rw [List.append_nil, ← hin]
  have hread := Stream.read_eof { h.stream with input := [] } rfl
  have hread' : h.stream.read.1.mtype = h.stream.mtype ∧ h.stream.read.1.args = [] ∧ h.stream.read.1.props = Properties.create := by
    rw [e, read_noise _ hn]
    exact ⟨hread.1, hread.2.1, hread.2.2.1⟩
  generalize h.stream.read = x at hread' ⊢
  obtain ⟨⟨mt, args, props, log, rest⟩, st⟩ := x
  obtain ⟨h1, h2, h3⟩ := hread'
  dsimp only at h1 h2 h3 ⊢
  subst h1 h2 h3
  cases hmt : h.stream.mtype with
  | none => exact ⟨_, rfl, (by show ¬ ((_ : Int) = _); first | exact (by decide : ¬ ((-1 : Int) = 5)) | exact (by decide : ¬ ((4 : Int) = 5)) | exact (by decide : ¬ ((1 : Int) = 5)) | exact (by decide : ¬ ((2 : Int) = 5)) | exact (by decide : ¬ ((3 : Int) = 5))), fun h => nomatch h⟩
  | some t =>
    cases t with
    | state => exact ⟨_, rfl, (by show ¬ ((_ : Int) = _); first | exact (by decide : ¬ ((-1 : Int) = 5)) | exact (by decide : ¬ ((4 : Int) = 5)) | exact (by decide : ¬ ((1 : Int) = 5)) | exact (by decide : ¬ ((2 : Int) = 5)) | exact (by decide : ¬ ((3 : Int) = 5))), fun _ => rfl⟩
    | quit => exact ⟨_, rfl, (by show ¬ ((_ : Int) = _); first | exact (by decide : ¬ ((-1 : Int) = 5)) | exact (by decide : ¬ ((4 : Int) = 5)) | exact (by decide : ¬ ((1 : Int) = 5)) | exact (by decide : ¬ ((2 : Int) = 5)) | exact (by decide : ¬ ((3 : Int) = 5))), fun h => nomatch h⟩
    | hello => exact ⟨_, rfl, (by show ¬ ((_ : Int) = _); first | exact (by decide : ¬ ((-1 : Int) = 5)) | exact (by decide : ¬ ((4 : Int) = 5)) | exact (by decide : ¬ ((1 : Int) = 5)) | exact (by decide : ¬ ((2 : Int) = 5)) | exact (by decide : ¬ ((3 : Int) = 5))), fun h => nomatch h⟩
    | «initialize» => exact ⟨_, rfl, (by show ¬ ((_ : Int) = _); first | exact (by decide : ¬ ((-1 : Int) = 5)) | exact (by decide : ¬ ((4 : Int) = 5)) | exact (by decide : ¬ ((1 : Int) = 5)) | exact (by decide : ¬ ((2 : Int) = 5)) | exact (by decide : ¬ ((3 : Int) = 5))), fun h => nomatch h⟩
    | frame => exact ⟨_, rfl, (by show ¬ ((_ : Int) = _); first | exact (by decide : ¬ ((-1 : Int) = 5)) | exact (by decide : ¬ ((4 : Int) = 5)) | exact (by decide : ¬ ((1 : Int) = 5)) | exact (by decide : ¬ ((2 : Int) = 5)) | exact (by decide : ¬ ((3 : Int) = 5))), fun h => nomatch h⟩

/-- The end of the session, after other output. -/
theorem clientWaitRegion_quit (env : Env) (h : Handle) {noise : Str} (hs : h.server = false) (ha : h.isAlive = true) (ho : h.objects = 1) (hn : Noise noise)
    (hin : h.stream.input = bytes noise ++ bytes (wire .quit [] Properties.create.enumerate)) :
    ∃ w, Cpp.clientWaitRegion env (some h) none Properties.create = .ok w ∧ w.ret = TRAX_QUIT := by
  unfold Cpp.clientWaitRegion
  dsimp only
  rw [clientWait_loop _ _ _ hs ha, ho, clientWaitLoop]
  have e : h.stream = { h.stream with input := bytes noise ++ (bytes (wire .quit [] Properties.create.enumerate) ++ []) } := by rw [List.append_nil, ← hin]
  have hread := Stream.read_wire { h.stream with input := bytes (wire .quit [] Properties.create.enumerate) ++ [] } .quit [] Properties.create SendableProps.create.wf
    (deliverable_args SendableProps.create (by simp)) [] rfl
  have hread' : h.stream.read.1.mtype = some .quit ∧ h.stream.read.1.args = [] := by
    rw [e, read_noise _ hn, hread]
    exact ⟨rfl, rfl⟩
  generalize h.stream.read = x at hread' ⊢
  obtain ⟨⟨mt, args, props, log, rest⟩, st⟩ := x
  obtain ⟨h1, h2⟩ := hread'
  dsimp only at h1 h2 ⊢
  subst h1 h2
  exact ⟨_, rfl, rfl⟩

/-- A request to go on leaves the type of the last message. -/
theorem clientFrameImages_mtype {env : Env} {h h' : Handle} {images : ImageList} {ret : Int} (e : Cpp.clientFrameImages env (some h) images none = .ok (ret, some h')) :
    h'.stream.mtype = h.stream.mtype := by
  unfold Cpp.clientFrameImages at e
  dsimp only at e
  obtain ⟨⟨r, h1⟩, e1, e2⟩ := map_eq_ok e
  cases e2
  unfold clientFrame at e1
  split at e1
  · cases e1
  · dsimp only at e1
    split at e1
    · cases e1
      rfl
    · split at e1
      · split at e1
        · cases e1
          rfl
        · rw [Option.getD_none, sendObjects, Outcome.bind_ok] at e1
          obtain ⟨args, -, e3⟩ := map_eq_ok e1
          cases args <;> cases e3 <;> rfl
      · split at e1
        · cases e1
          rfl
        · obtain ⟨args, -, e3⟩ := map_eq_ok e1
          cases args <;> cases e3 <;> rfl

namespace Link
variable {π : Type} {P : Peer π} {env : Env} {out : Writer} {turns : Nat → Bool}

/-! ## What the calls leave as it is -/

theorem poll_some (w : State π) : ∃ x, (world P env out turns).poll w = (x, w) := ⟨_, rfl⟩

theorem isAlive_world (p : Proc.Process) (w : State π) : (Proc.isAlive (world P env out turns) p w).2.2.2 = w := by
  unfold Proc.isAlive
  obtain ⟨x, hx⟩ := poll_some (P := P) (env := env) (out := out) (turns := turns) w
  rw [hx]
  split
  · cases x <;> rfl
  · rfl

/-- A process that has been started has an exit status. -/
theorem isAlive_exit {p : Proc.Process} (hp : p.exit ≠ none) (w : State π) :
    (Proc.isAlive (world P env out turns) p w).2.2.1.exit ≠ none ∧ (Proc.isAlive (world P env out turns) p w).2.1 ≠ none := by
  unfold Proc.isAlive
  obtain ⟨x, hx⟩ := poll_some (P := P) (env := env) (out := out) (turns := turns) w
  rw [hx]
  split
  · cases x <;> simp [hp]
  · exact ⟨hp, hp⟩

theorem pollLoop_world (n : Nat) : ∀ (p : Proc.Process) (w : State π), (Proc.pollLoop (world P env out turns) n p w).2 = w ∧
    (p.exit ≠ none → (Proc.pollLoop (world P env out turns) n p w).1.exit ≠ none) := by
  induction n with
  | zero => intro p w; exact ⟨rfl, id⟩
  | succ n ih =>
    intro p w
    have h1 := isAlive_world (P := P) (env := env) (out := out) (turns := turns) p w
    have h2 := fun hp => (isAlive_exit (P := P) (env := env) (out := out) (turns := turns) (p := p) hp w).1
    unfold Proc.pollLoop
    rcases e : Proc.isAlive (world P env out turns) p w with ⟨b, st, p', w'⟩
    rw [e] at h1 h2
    dsimp only at h1 h2
    subst h1
    cases b
    · exact ⟨rfl, h2⟩
    · exact ⟨(ih p' w').1, fun hp => (ih p' w').2 (h2 hp)⟩

theorem signal_world (e : Nat → Proc.Event) (p : Proc.Process) (w : State π) (log : List Proc.Event) : (Proc.signal (world P env out turns) e p w log).2.1 = w ∧
    (p.exit ≠ none → (Proc.signal (world P env out turns) e p w log).1.exit ≠ none) := by
  have h1 := isAlive_world (P := P) (env := env) (out := out) (turns := turns) p w
  have h2 := fun hp => (isAlive_exit (P := P) (env := env) (out := out) (turns := turns) (p := p) hp w).1
  unfold Proc.signal
  split
  · rcases e' : Proc.isAlive (world P env out turns) p w with ⟨b, st, p', w'⟩
    rw [e'] at h1 h2
    exact ⟨h1, h2⟩
  · exact ⟨rfl, id⟩

theorem endProcess_world (p : Proc.Process) (w : State π) (log : List Proc.Event) : (Proc.endProcess (world P env out turns) p w log).2.2.1 = w ∧
    (p.exit ≠ none → (Proc.endProcess (world P env out turns) p w log).1 ≠ none) := by
  unfold Proc.endProcess
  have a := pollLoop_world (P := P) (env := env) (out := out) (turns := turns) 5 p w
  generalize Proc.pollLoop (world P env out turns) 5 p w = x at a ⊢
  obtain ⟨p1, w1⟩ := x
  obtain ⟨a1, a2⟩ := a
  dsimp only at a1 a2 ⊢
  subst a1
  have b1 := isAlive_world (P := P) (env := env) (out := out) (turns := turns) p1 w1
  have b2 := fun hp => isAlive_exit (P := P) (env := env) (out := out) (turns := turns) (p := p1) hp w1
  generalize Proc.isAlive (world P env out turns) p1 w1 = x at b1 b2 ⊢
  obtain ⟨x1, st1, p2, w2⟩ := x
  dsimp only at b1 b2
  subst b1
  cases x1
  · exact ⟨rfl, fun hp => (b2 (a2 hp)).2⟩
  dsimp only
  have c := signal_world (P := P) (env := env) (out := out) (turns := turns) .term p2 w2 log
  generalize Proc.signal (world P env out turns) .term p2 w2 log = x at c ⊢
  obtain ⟨p3, w3, log3⟩ := x
  obtain ⟨c1, c2⟩ := c
  dsimp only at c1 c2 ⊢
  subst c1
  have d := pollLoop_world (P := P) (env := env) (out := out) (turns := turns) 5 p3 w3
  generalize Proc.pollLoop (world P env out turns) 5 p3 w3 = x at d ⊢
  obtain ⟨p4, w4⟩ := x
  obtain ⟨d1, d2⟩ := d
  dsimp only at d1 d2 ⊢
  subst d1
  have e1 := isAlive_world (P := P) (env := env) (out := out) (turns := turns) p4 w4
  have e2 := fun hp => isAlive_exit (P := P) (env := env) (out := out) (turns := turns) (p := p4) hp w4
  generalize Proc.isAlive (world P env out turns) p4 w4 = x at e1 e2 ⊢
  obtain ⟨x5, st5, p5, w5⟩ := x
  dsimp only at e1 e2
  subst e1
  cases x5
  · exact ⟨rfl, fun hp => (e2 (d2 (c2 (b2 (a2 hp)).1))).2⟩
  dsimp only
  have f := signal_world (P := P) (env := env) (out := out) (turns := turns) .kill p5 w5 log3
  generalize Proc.signal (world P env out turns) .kill p5 w5 log3 = x at f ⊢
  obtain ⟨p6, w6, log6⟩ := x
  obtain ⟨f1, f2⟩ := f
  dsimp only at f1 f2 ⊢
  subst f1
  have g1 := isAlive_world (P := P) (env := env) (out := out) (turns := turns) p6 w6
  have g2 := fun hp => isAlive_exit (P := P) (env := env) (out := out) (turns := turns) (p := p6) hp w6
  generalize Proc.isAlive (world P env out turns) p6 w6 = x at g1 g2 ⊢
  obtain ⟨x7, st7, p7, w7⟩ := x
  exact ⟨g1, fun hp => (g2 (f2 (e2 (d2 (c2 (b2 (a2 hp)).1))).1)).2⟩

/-- Stopping a process leaves none. -/
theorem stop_world {s s' : Proc.State (State π)} {b : Bool} (h : Proc.stopProcess (world P env out turns) s = .ok (b, s')) :
    s'.process = none ∧ s'.world = s.world ∧ s'.client = s.client := by
  unfold Proc.stopProcess at h
  dsimp only at h
  split at h
  · cases h
    exact ⟨by assumption, rfl, rfl⟩
  · rename_i p hp
    have a := (endProcess_world (P := P) (env := env) (out := out) (turns := turns) p s.world s.log).1
    generalize Proc.endProcess (world P env out turns) p s.world s.log = x at a h
    obtain ⟨status, p1, w1, log1⟩ := x
    rw [show w1 = s.world from a] at h
    dsimp only at h
    have c := (signal_world (P := P) (env := env) (out := out) (turns := turns) .kill p1 s.world log1).1
    generalize Proc.signal (world P env out turns) .kill p1 s.world log1 = x at c h
    obtain ⟨p2, w2, log2⟩ := x
    rw [show w2 = s.world from c] at h
    dsimp only at h
    split at h
    · cases h
    · cases h
      exact ⟨rfl, rfl, rfl⟩

theorem stop_started {s : Proc.State (State π)} (hs : ∀ p, s.process = some p → p.exit ≠ none) :
    ∃ b s', Proc.stopProcess (world P env out turns) s = .ok (b, s') := by
  unfold Proc.stopProcess
  dsimp only
  split
  · exact ⟨_, _, rfl⟩
  · rename_i p hp
    have a := (endProcess_world (P := P) (env := env) (out := out) (turns := turns) p s.world s.log).2 (hs p hp)
    generalize Proc.endProcess (world P env out turns) p s.world s.log = x at a ⊢
    obtain ⟨status, p1, w1, log1⟩ := x
    dsimp only at a ⊢
    rcases Proc.signal (world P env out turns) .kill p1 w1 log1 with ⟨p2, w2, log2⟩
    cases status with
    | none => exact absurd rfl a
    | some st => exact ⟨_, _, rfl⟩

theorem running_world (s : Proc.State (State π)) : (Proc.processRunning (world P env out turns) s).2.world = s.world ∧
    (Proc.processRunning (world P env out turns) s).2.client = s.client ∧ (Proc.processRunning (world P env out turns) s).2.tracking = s.tracking ∧
    (s.process = none → (Proc.processRunning (world P env out turns) s).1 = false ∧ (Proc.processRunning (world P env out turns) s).2.process = none) ∧
    ((∀ p, s.process = some p → p.exit ≠ none) → ∀ p, (Proc.processRunning (world P env out turns) s).2.process = some p → p.exit ≠ none) := by
  unfold Proc.processRunning
  split
  · rename_i hp
    exact ⟨rfl, rfl, rfl, fun _ => ⟨rfl, hp⟩, fun h => h⟩
  · rename_i p hp
    have h1 := isAlive_world (P := P) (env := env) (out := out) (turns := turns) p s.world
    have h2 := fun h => (isAlive_exit (P := P) (env := env) (out := out) (turns := turns) (p := p) h s.world).1
    generalize Proc.isAlive (world P env out turns) p s.world = x at h1 h2 ⊢
    obtain ⟨b, st, p', w'⟩ := x
    refine ⟨h1, rfl, rfl, fun h => absurd (hp.symm.trans h) (by simp), fun h q hq => ?_⟩
    cases hq
    exact h2 (h p hp)

/-- A turn of the watchdog. -/
theorem watchdog_eq (s : Proc.State (State π)) : Proc.watchdogTurn (world P env out turns) s =
    if (Proc.processRunning (world P env out turns) s).1 = true then .ok (Proc.processRunning (world P env out turns) s).2
    else (Proc.stopProcess (world P env out turns) (Proc.processRunning (world P env out turns) s).2).map (·.2) := by
  unfold Proc.watchdogTurn
  generalize Proc.processRunning (world P env out turns) s = x
  obtain ⟨running, w, pr, c, t, a, n, l⟩ := x
  cases running <;> cases a <;> rfl

/-- It changes nothing at the two ends of the connection. -/
theorem turn_world {s s' : Proc.State (State π)} (h : Proc.watchdogTurn (world P env out turns) s = .ok s') :
    s'.world = s.world ∧ s'.client = s.client := by
  have a := running_world (P := P) (env := env) (out := out) (turns := turns) s
  rw [watchdog_eq] at h
  split at h
  · cases h
    exact ⟨a.1, a.2.1⟩
  · obtain ⟨x, hx, hx2⟩ := map_eq_ok h
    subst hx2
    obtain ⟨-, b1, b2⟩ := stop_world (b := x.1) (s' := x.2) hx
    exact ⟨b1.trans a.1, b2.trans a.2.1⟩

theorem point_world {starting : Bool} {s s' : Proc.State (State π)} (h : Proc.point (world P env out turns) starting s = .ok s') :
    (∃ m, s'.world = { s.world with moment := m }) ∧ s'.client = s.client := by
  unfold Proc.point at h
  have ht : ∃ b m, (world P env out turns).turn starting s.world = (b, { s.world with moment := m }) := by
    cases starting
    · exact ⟨_, _, rfl⟩
    · exact ⟨false, s.world.moment, rfl⟩
  obtain ⟨b, m, ht⟩ := ht
  rw [ht] at h
  cases b
  · cases h
    exact ⟨⟨m, rfl⟩, rfl⟩
  · obtain ⟨h1, h2⟩ := turn_world h
    exact ⟨⟨m, h1⟩, h2⟩

/-- A turn of the watchdog on a process that has been started has an end. -/
theorem point_started {starting : Bool} {s : Proc.State (State π)} (hs : ∀ p, s.process = some p → p.exit ≠ none) :
    ∃ s', Proc.point (world P env out turns) starting s = .ok s' ∧ ∀ p, s'.process = some p → p.exit ≠ none := by
  unfold Proc.point
  have ht : ∃ b m, (world P env out turns).turn starting s.world = (b, { s.world with moment := m }) := by
    cases starting
    · exact ⟨_, _, rfl⟩
    · exact ⟨false, s.world.moment, rfl⟩
  obtain ⟨b, m, ht⟩ := ht
  rw [ht]
  cases b
  · exact ⟨_, rfl, hs⟩
  dsimp only
  have a := (running_world (P := P) (env := env) (out := out) (turns := turns) { s with world := { s.world with moment := m } }).2.2.2.2 hs
  rw [watchdog_eq]
  split
  · exact ⟨_, rfl, a⟩
  · obtain ⟨b, s2, e⟩ := stop_started (P := P) (env := env) (out := out) (turns := turns) a
    rw [e]
    refine ⟨s2, rfl, fun p hp => ?_⟩
    rw [(stop_world e).1] at hp
    cases hp

/-- Without a process, or with a client that is not alive, there is nothing ready. -/
theorem ready_down {s : Proc.State (State π)} (h : s.process = none ∨ ∃ c, s.world.client = some c ∧ c.isAlive = false) (limit : Bool) :
    ((process (world P env out turns) limit).ready s).1 = false := by
  show ((method (world P env out turns) limit .ready s).1.getD false) = false
  unfold method Proc.step
  dsimp only
  unfold Proc.ready
  have a := running_world (P := P) (env := env) (out := out) (turns := turns) s
  generalize Proc.processRunning (world P env out turns) s = x at a ⊢
  obtain ⟨running, s1⟩ := x
  obtain ⟨a1, a2, -, a3, -⟩ := a
  dsimp only at a1 a2 a3
  cases running
  · rfl
  dsimp only
  rcases h with h | ⟨c, h1, h2⟩
  · exact absurd (a3 h).1 (by simp)
  cases hc : s1.client with
  | none => rfl
  | some c1 =>
    have : (world P env out turns).alive s1.world = (false, s1.world) := by
      show ((match s1.world.client with | none => false | some c => c.isAlive), s1.world) = _
      rw [a1, h1]
      dsimp only
      rw [h2]
    obtain ⟨g, est⟩ := c1
    cases est
    · rfl
    · show (some ((world P env out turns).alive s1.world).1).getD false = false
      rw [this]
      rfl

/-- After an exchange that ends with an error there is no process. -/
theorem conclude_error {e : Proc.Exchange} {good : Int} {c : Proc.Client} {w : State π} {s s' : Proc.State (State π)} {r : Proc.Result}
    (h : Proc.conclude (world P env out turns) e good c (-1, w) s = .ok (r, s')) : s'.process = none := by
  unfold Proc.conclude at h
  obtain ⟨s1, -, h⟩ := bind_eq_ok h
  dsimp only at h
  rw [if_pos rfl] at h
  obtain ⟨x, hx, hx2⟩ := map_eq_ok h
  have := (stop_world (b := x.1) (s' := x.2) hx).1
  cases hx2
  exact this

theorem conclude_world {e : Proc.Exchange} {good ret : Int} {c : Proc.Client} {w : State π} {s s' : Proc.State (State π)} {r : Proc.Result}
    (h : Proc.conclude (world P env out turns) e good c (ret, w) s = .ok (r, s')) : (∃ m, s'.world = { w with moment := m }) ∧ r = .value (ret == good) := by
  unfold Proc.conclude at h
  obtain ⟨s1, hs1, h⟩ := bind_eq_ok h
  obtain ⟨⟨m, a1⟩, a2⟩ := point_world hs1
  dsimp only at h
  split at h
  · obtain ⟨x, hx, hx2⟩ := map_eq_ok h
    have := (stop_world (b := x.1) (s' := x.2) hx).2.1
    cases hx2
    exact ⟨⟨m, this.trans a1⟩, rfl⟩
  · cases h
    exact ⟨⟨m, a1⟩, rfl⟩

/-! ## A tracker that ends -/

/-- A tracker that ends after a request: it says so, or what the client reads is an error, or the operating system tells about it in time. -/
structure Fails {α : Type} (P : Peer π) (env : Env) (props : Properties) (lastStart : Cli.FrameImages → Region → Prop) (lastGo : α → Cli.FrameImages → Prop)
    (idle : Handle → π → Prop) (tracking : α → Handle → π → Prop) (doomed : Handle → Nat → π → Prop) : Prop where
  setup : ∀ c p images r, idle c p → lastStart images r → ∃ c', Cpp.clientInitializeRegion env (some c) (imageList images) (some r) (some props) = .ok (TRAX_OK, some c') ∧
    doomed c' c.stream.out.sent.length p
  frame : ∀ x c p images, tracking x c p → lastGo x images → ∃ c', Cpp.clientFrameImages env (some c) (imageList images) none = .ok (TRAX_OK, some c') ∧
    doomed c' c.stream.out.sent.length p
  alive : ∀ c n p, doomed c n p → c.isAlive = true
  up : ∀ c n p, doomed c n p → Up P p
  wait : ∀ c n p, doomed c n p → ∃ p' text w, P.respond (c.stream.out.sent.drop n) p = .ok (p', text) ∧
    Cpp.clientWaitRegion env (some { c with stream := { c.stream with input := c.stream.input ++ bytes text } }) none Properties.create = .ok w ∧
    (w.ret = TRAX_QUIT ∨ w.ret = TRAX_ERROR ∨ (w.ret ≠ TRAX_STATE ∧ ∀ k, P.polled p' k ≠ .running))

/-- A process of which the operating system says that it does not run. -/
theorem running_down {s : Proc.State (State π)} {p : π} (hp : s.world.peer = some p) (hd : ∀ k, P.polled p k ≠ .running) :
    (Proc.processRunning (world P env out turns) s).1 = false := by
  unfold Proc.processRunning
  split
  · rfl
  · rename_i pr _
    have : (Proc.isAlive (world P env out turns) pr s.world).1 = false := by
      unfold Proc.isAlive
      rw [poll_world, hp]
      dsimp only
      split
      · have := hd s.world.moment
        cases h : P.polled p s.world.moment with
        | running => exact absurd h this
        | exited code => rfl
        | signalled sig => rfl
        | error => rfl
      · rfl
    generalize Proc.isAlive (world P env out turns) pr s.world = x at this ⊢
    obtain ⟨b, st, p', w'⟩ := x
    exact this

theorem ready_gone {s : Proc.State (State π)} {p : π} (hp : s.world.peer = some p) (hd : ∀ k, P.polled p k ≠ .running) (limit : Bool) :
    ((process (world P env out turns) limit).ready s).1 = false := by
  show ((method (world P env out turns) limit .ready s).1.getD false) = false
  unfold method Proc.step
  dsimp only
  unfold Proc.ready
  have := running_down (P := P) (env := env) (out := out) (turns := turns) hp hd
  generalize Proc.processRunning (world P env out turns) s = x at this ⊢
  obtain ⟨b, s1⟩ := x
  dsimp only at this
  subst this
  rfl

theorem exchange_eq {σ : Type} {W : Proc.World σ} {limit : Bool} {e : Proc.Exchange} {good : Int} {s s1 : Proc.State σ} {c : Proc.Client}
    (h : Proc.point W false { s with armed := limit } = .ok s1) (hc : s1.client = some c) :
    Proc.exchange W limit e good s = Proc.conclude W e good c (W.exchange e s1.world) s1 := by
  unfold Proc.exchange
  rw [h, Outcome.bind_ok, hc]

/-- The wait for a tracker that has ended. -/
theorem wait_doomed {α : Type} {props : Properties} {lastStart : Cli.FrameImages → Region → Prop} {lastGo : α → Cli.FrameImages → Prop}
    {idle : Handle → π → Prop} {tracking : α → Handle → π → Prop} {doomed : Handle → Nat → π → Prop} (H : Fails P env props lastStart lastGo idle tracking doomed) (limit : Bool)
    {s : Proc.State (State π)} (h : Phase P doomed (· = some true) s) :
    ∃ s', (process (world P env out turns) limit).wait s = (.no, s') ∧ ((process (world P env out turns) limit).ready s').1 = false := by
  obtain ⟨h1, ⟨c, p, h2, h3, h5⟩, h6, h7⟩ := h
  obtain ⟨p', text, w, e1, e2, e3⟩ := H.wait c _ p h5
  obtain ⟨c', e4, e5⟩ := clientWaitRegion_codes e2
  have hready := ready_up (P := P) (env := env) (out := out) (turns := turns) h1 (c := c) h2 (H.alive c _ p h5)
  have hne : w.ret ≠ 5 := by
    rcases e3 with e3 | e3 | ⟨e3, -⟩
    · rw [e3]; decide
    · rw [e3]; decide
    · exact e3
  have hx : ∀ m, (world P env out turns).exchange .wait { s.world with moment := m } =
      (w.ret, { s.world with moment := m, client := some c', peer := some p', passed := c.stream.out.sent.length, answer := w.region }) := by
    intro m
    show State.waits P env _ = _
    unfold State.waits
    dsimp only
    rw [h2, h3]
    dsimp only
    rw [e1]
    dsimp only
    have : Cpp.clientWaitRegion env (some { c with stream := { c.stream with input := c.stream.input ++ text.map InEv.byte } }) none Properties.create = .ok w := e2
    rw [this]
    dsimp only
    rw [e4]
  obtain ⟨g, g', ee, pp, k1, k2, k3, k4⟩ := h1
  obtain ⟨m, hm⟩ := point_up (P := P) (env := env) (out := out) (turns := turns) (s := { s with armed := limit }) ⟨g, g', ee, pp, k1, k2, k3, k4⟩
  let W' : State π := { s.world with moment := m, client := some c', peer := some p', passed := c.stream.out.sent.length, answer := w.region }
  let s1 : Proc.State (State π) := { s with armed := limit, world := { s.world with moment := m } }
  have hs1 : ∀ p, ({ s1 with world := W', log := s1.log ++ [.exchange .wait g'] } : Proc.State (State π)).process = some p → p.exit ≠ none := by
    intro p hp
    have : s.process = some p := hp
    rw [k1] at this
    cases this
    exact Option.some_ne_none _
  obtain ⟨s2, q1, q2⟩ := point_started (P := P) (env := env) (out := out) (turns := turns) (starting := false) hs1
  obtain ⟨⟨m2, r1⟩, r2⟩ := point_world q1
  have hstep : ∃ s3, Proc.step (world P env out turns) limit s .wait = .ok (.value false, s3) ∧ (s3.process = none ∨ w.ret ≠ -1) ∧ s3.world = { W' with moment := m2 } := by
    have hconc : ∃ s3, Proc.conclude (world P env out turns) .wait 5 ⟨g', true⟩ (w.ret, W') s1 = .ok (.value false, s3) ∧ (s3.process = none ∨ w.ret ≠ -1) ∧
        s3.world = { W' with moment := m2 } := by
      unfold Proc.conclude
      have q1' : Proc.point (world P env out turns) false { s1 with world := W', log := s1.log ++ [.exchange .wait g'] } = .ok s2 := q1
      rw [q1', Outcome.bind_ok]
      dsimp only
      have hb : (w.ret == 5) = false := beq_false_of_ne hne
      rw [hb]
      by_cases hr : w.ret = -1
      · rw [if_pos hr]
        obtain ⟨b, s3, t1⟩ := stop_started (P := P) (env := env) (out := out) (turns := turns) (s := { s2 with armed := false, tracking := some false }) q2
        obtain ⟨t2, t3, -⟩ := stop_world t1
        rw [t1]
        exact ⟨s3, rfl, .inl t2, t3.trans r1⟩
      · rw [if_neg hr]
        exact ⟨_, rfl, .inr hr, r1⟩
    obtain ⟨s3, u1, u2⟩ := hconc
    refine ⟨s3, ?_, u2⟩
    unfold Proc.step
    dsimp only
    unfold Proc.go
    rw [hready, Outcome.bind_ok]
    dsimp only
    rw [if_pos rfl, h6]
    dsimp only
    have hs1 : s1.client = some ⟨g', true⟩ := k2
    have hx' : (world P env out turns).exchange .wait s1.world = (w.ret, W') := hx m
    rw [exchange_eq (s1 := s1) hm hs1, hx']
    exact u1
  obtain ⟨s3, u1, u2, u3⟩ := hstep
  refine ⟨s3, ?_, ?_⟩
  · show (match method (world P env out turns) limit .wait s with
      | (some true, s) => (Cli.Answer.state s.world.answer, s)
      | (some false, s) => (.no, s)
      | (none, s) => (.thrown, s)) = _
    unfold method
    rw [u1]
  · have hgone : (∀ k, P.polled p' k ≠ .running) → ((process (world P env out turns) limit).ready s3).1 = false := fun hd =>
      ready_gone (by rw [u3]) hd limit
    rcases e3 with e3 | e3 | ⟨-, e3⟩
    · refine ready_down (.inr ⟨c', by rw [u3], ?_⟩) limit
      rcases e5 with e5 | e5
      · rw [e3] at e5
        exact absurd e5 (by decide)
      · exact e5.2
    · rcases u2 with u2 | u2
      · exact ready_down (.inl u2) limit
      · exact absurd e3 u2
    · exact hgone e3

end Link

namespace Cli
open Trax.Cli.Spec
variable {σ α : Type}

/-- A tracker process that ends after a request. -/
structure Ends (P : Process σ) (lastStart : FrameImages → Region → Prop) (lastGo : α → FrameImages → Prop) (props : Properties)
    (idle : σ → Prop) (tracking : α → σ → Prop) (doomed : σ → Prop) : Prop where
  setup : ∀ t images r, idle t → lastStart images r → ∃ t', P.setup images (some r) props t = (true, t') ∧ doomed t'
  frame : ∀ x t images, tracking x t → lastGo x images → (P.frame images t).1 = false ∨ ∃ t', P.frame images t = (true, t') ∧ doomed t'
  wait : ∀ t, doomed t → (P.wait t).1 = .thrown ∨ ∃ t', P.wait t = (.no, t') ∧ (P.ready t').1 = false

theorem judge_ends {W : World σ} {c : Opt.Settings} {q : Sequence} {I : List (Option Region)} {lastStart : FrameImages → Region → Prop} {lastGo : α → FrameImages → Prop}
    {idle : σ → Prop} {tracking : α → σ → Prop} {doomed : σ → Prop} (hE : Ends W.process lastStart lastGo c.properties idle tracking doomed) (f : Nat)
    (en : Option Region → Option Region) (s : Run (Session σ)) (hd : doomed s.tracker.process) : judge (seqTracker W c q I) (setting c q I) f en s = .ok none := by
  rcases hE.wait _ hd with h | ⟨t', h1, h2⟩
  · have e : ∃ t, (seqTracker W c q I).wait s.tracker = (.thrown, t) := by
      refine ⟨{ s.tracker with process := (W.process.wait s.tracker.process).2 }, ?_⟩
      show ((W.process.wait s.tracker.process).1, { s.tracker with process := (W.process.wait s.tracker.process).2 }) = _
      rw [h]
    obtain ⟨t, e⟩ := e
    unfold judge
    rw [e]
  have e : (seqTracker W c q I).wait s.tracker = (.no, { s.tracker with process := t' }) := by
    show ((W.process.wait s.tracker.process).1, { s.tracker with process := (W.process.wait s.tracker.process).2 }) = _
    rw [h1]
  have e2 : (seqTracker W c q I).ready { s.tracker with process := t' } = (false, { s.tracker with process := (W.process.ready t').2 }) := by
    show ((W.process.ready t').1, { s.tracker with process := (W.process.ready t').2 }) = _
    rw [h2]
  unfold judge
  rw [e]
  dsimp only
  rw [e2]

/-- A run that does not come to its end. -/
theorem broken_main (W : World σ) (argv : List Str) (c : Opt.Settings) (command : Str) (q : Sequence) {a : About} {starts : FrameImages → Region → α → Prop}
    {goes : α → FrameImages → α → Prop} {answer : α → Region} {good idle : σ → Prop} {asked tracking : α → σ → Prop} {t0 t1 : σ} {b : Bool}
    {es : List (Option Region)} {ts : List (Option Nat)} {n : Nat} {final : Mode α} {lastStart : FrameImages → Region → Prop} {lastGo : α → FrameImages → Prop} {doomed : σ → Prop}
    (hP : Phased W.process a starts goes c.properties answer good idle asked tracking) (hE : Ends W.process lastStart lastGo c.properties idle tracking doomed)
    (hs : Opt.cliStart argv = .ok (.go c command)) (hq : c.query = false)
    (hg : Given W.read c q) (hl : q.frames ≤ q.initialization.length)
    (ht : W.start command c.environment c.timeout c.connection c.verbosity = some t0) (hq1 : W.process.query t0 = (some b, t1)) (hidle : idle t1)
    (hb : isTrue (W.getenv b!"TRAX_BOUNDED_OVERLAP") = false) (h : Course W c q a starts goes answer n final 0 (.idle 0) es ts) (hn : n < q.frames)
    {l : FrameImages} (hload : frameImages W.read (q.rows.getD n []) a.formats a.channels = .ok (.ok l))
    (hlast : (final = .idle 0 ∧ ∃ r, q.initialization[n]? = some (some r) ∧ lastStart l r) ∨ ∃ x, final = .tracking x ∧ lastGo x l) :
    cliMain W argv = .ok (failed W) := by
  unfold cliMain
  rw [hs, Outcome.bind_ok]
  dsimp only
  rw [if_neg (by simp [hq]), trackingMode_eq hg, ht]
  dsimp only
  rw [hq1]
  dsimp only
  rw [C80_run_partial _ _ _ (usedInit_length hl)]
  obtain ⟨s, h1, h2, h3, h4⟩ := course_all hP hb (I := usedInit c q) (fun f hf => usedInit_get hg f hf) h
    { tracker := { process := t1, about := ⟨[], [], [], 0, 0⟩, image := {}, loaded := {} }, trace := [], output := [], timings := [] } (Or.inl hidle)
  have h1' : supervise (seqTracker W c q (usedInit c q)) (setting c q (usedInit c q)) { process := t1, about := ⟨[], [], [], 0, 0⟩, image := {}, loaded := {} } =
      visitAll (seqTracker W c q (usedInit c q)) (setting c q (usedInit c q)) (q.frames - n) n final.phase s := h1
  have hend : visitAll (seqTracker W c q (usedInit c q)) (setting c q (usedInit c q)) (q.frames - n) n final.phase s = .ok none := by
    rw [show q.frames - n = q.frames - (n + 1) + 1 by omega]
    rcases hlast with ⟨rfl, r, hr, hst⟩ | ⟨x, rfl, hgo⟩
    · simp only [visitAll, visit, Mode.phase]
      have : (setting c q (usedInit c q)).initialization[n]?.join = some r := by
        show (usedInit c q)[n]?.join = _
        rw [usedInit_get hg n hn, hr]; rfl
      rw [this]
      dsimp only
      obtain ⟨s1, e1, e2, -⟩ := phased_begin hP (I := usedInit c q) hn (by rw [usedInit_get hg n hn, hr]) hload (fun t ht => hE.setup t l r ht hst) s (by
        rcases h2 with h2 | ⟨h2, -⟩
        · exact h2
        · omega)
      rw [e1, andThen_some, judge_ends hE n _ s1 e2]
      rfl
    · simp only [visitAll, visit, Mode.phase]
      obtain ⟨hs1, hs2⟩ := h2
      rw [phased_load hn hload s.tracker hs2, Outcome.bind_ok]
      dsimp only
      rcases hE.frame x _ l hs1 hgo with hbad | hgood
      · have e : ∃ t, (seqTracker W c q (usedInit c q)).frame n { s.tracker with loaded := l } = (false, t) := by
          refine ⟨{ s.tracker with loaded := l, process := (W.process.frame l s.tracker.process).2 }, ?_⟩
          show ((W.process.frame l s.tracker.process).1, { s.tracker with loaded := l, process := (W.process.frame l s.tracker.process).2 }) = _
          rw [hbad]
        obtain ⟨t, e⟩ := e
        rw [e]
        rfl
      obtain ⟨t', e1, e2⟩ := hgood
      replace e1 : (seqTracker W c q (usedInit c q)).frame n { s.tracker with loaded := l } = (true, { s.tracker with loaded := l, process := t' }) := by
        show ((W.process.frame l s.tracker.process).1, { s.tracker with loaded := l, process := (W.process.frame l s.tracker.process).2 }) = _
        rw [e1]
      rw [e1]
      dsimp only
      rw [judge_ends hE n _ { s with tracker := { s.tracker with loaded := l, process := t' }, trace := s.trace ++ [.frame n] } e2]
      rfl
  rw [h1', hend]
  rfl

end Cli

namespace Link
variable {π : Type}

/-- The tracker process of a tracker that ends. -/
theorem ends_fails {α : Type} {P : Peer π} {env : Env} {out : Writer} {turns : Nat → Bool} {props : Properties} {lastStart : Cli.FrameImages → Region → Prop}
    {lastGo : α → Cli.FrameImages → Prop} {idle : Handle → π → Prop} {tracking : α → Handle → π → Prop} {doomed : Handle → Nat → π → Prop}
    (H : Fails P env props lastStart lastGo idle tracking doomed) (hi : ∀ c p, idle c p → c.isAlive = true ∧ Up P p) (ht : ∀ x c p, tracking x c p → c.isAlive = true ∧ Up P p)
    (limit : Bool) :
    Cli.Ends (process (world P env out turns) limit) lastStart lastGo props (Phase P (settled idle) (fun _ => True)) (fun x => Phase P (settled (tracking x)) (· = some true))
      (Phase P doomed (· = some true)) where
  setup := fun _ images r h hl => setup_to limit (fun c p h => (hi c p h).1) (fun c p h => (hi c p h).2) (fun c p hc => H.setup c p images r hc hl) h
  frame := fun x _ images h hl => .inr (frame_to limit (fun c p h => (ht x c p h).1) (fun c p h => (ht x c p h).2) (fun c p hc => H.frame x c p images hc hl) h)
  wait := fun _ h => .inr (wait_doomed H limit h)

end Link

namespace Loop
open Link Cli.Spec
variable {τ : Type}

/-- The last step of a program, and what the operating system tells about it. -/
def Last (report : Nat → Proc.Poll) (first : Bool) (x : Step τ) : Prop :=
  Noise x.before ∧ (x.fate = .leaves ∨ (x.fate = .crashes ∧ (first = true → ∀ k, report k ≠ .running)))

section
variable (senv env : Env) (T : Tracker τ) (shared : Bool) (m : Metadata) (junk : UInt32) (stream : Stream) (report : Nat → Proc.Poll) (out : Writer) (kvs : List (Str × Str))

/-- An initialization that is not answered. -/
def LastStart (images : Cli.FrameImages) (r : Region) : Prop :=
  ∃ x, Last report true x ∧ Sendable r ∧ ∃ r₀ ti ri l, Region.toSend env.legacy env.fresh r m.regions = .ok r₀ ∧ Comes r₀ ti ri ∧ Sends m l images ∧ T.init ri l (Properties.ofPairs kvs) = x

/-- An update that is not answered. -/
def LastGo (x : Step τ × Region) (images : Cli.FrameImages) : Prop :=
  ∃ y, Last report false y ∧ ∃ l, Sends m l images ∧ T.update x.1.state l (Properties.ofPairs []) = y

/-- After a request that is not answered. -/
def Doomed (c : Handle) (n : Nat) (p : Option (Program τ)) : Prop :=
  ∃ x first, Last report first x ∧ Requested senv T m x c n p ∧ (first = false → c.stream.mtype = some .state)

theorem fails_last (hch : m.channels &&& 7 = m.channels) (hk : SendablePairs kvs) :
    Fails (peer senv T shared m junk stream report) env (Properties.ofPairs kvs) (LastStart env T m report kvs) (LastGo T m report) (Idle m) (Tracking m)
      (Doomed senv T m report) where
  setup := by
    rintro c p images r hp ⟨x, hx, hr, h⟩
    obtain ⟨c', e1, e2⟩ := setup_requested senv env T m kvs hch hk hp hr h
    exact ⟨c', e1, x, true, hx, e2, fun h => nomatch h⟩
  frame := by
    rintro x c p images hp ⟨y, hy, h⟩
    obtain ⟨c', e1, e2⟩ := frame_requested senv env T m hch hp h
    refine ⟨c', e1, y, false, hy, e2, fun _ => ?_⟩
    rw [clientFrameImages_mtype e1]
    obtain ⟨s, -, -, h⟩ := hp
    exact h
  alive := by rintro c n p ⟨x, first, -, ⟨s, tracker, start, l, props, -, h, -⟩, -⟩; exact h.client.2.1
  up := by rintro c n p ⟨x, first, -, ⟨s, tracker, start, l, props, rfl, -⟩, -⟩ k; rfl
  wait := by
    rintro c n p ⟨x, first, ⟨hb, hfate⟩, ⟨s, tracker, start, l, props, rfl, h, hn, hreq, hcase⟩, hm⟩
    obtain ⟨noise, n1, n2⟩ := h.noise
    obtain ⟨before, hbe⟩ : ∃ b, b = if shared then x.before else [] := ⟨_, rfl⟩
    have hb' : Noise before := by rw [hbe]; exact .ite shared hb
    rcases hfate with hfate | ⟨hfate, hlate⟩
    · have e1 := respond_leaves (T := T) (shared := shared) (m := m) (junk := junk) (stream := stream) (report := report)
        (s := s) h.server.1 h.server.2.1 h.server.2.2.2.1 h.server.2.2.2.2 hfate hreq hcase
      rw [← hbe] at e1
      obtain ⟨w, w1, w2⟩ := clientWaitRegion_quit env { c with stream := { c.stream with input := c.stream.input ++ bytes (before ++ wire .quit [] Properties.create.enumerate) } }
        (noise := noise ++ before) h.client.1 h.client.2.1 h.client.2.2.2.1 (n1.append hb') (by
          show c.stream.input ++ _ = _
          rw [n2]
          simp only [bytes_append', List.append_assoc])
      exact ⟨_, _, w, e1, w1, .inl w2⟩
    · have e1 := respond_crashes (T := T) (shared := shared) (m := m) (junk := junk) (stream := stream) (report := report)
        (s := s) h.server.1 h.server.2.1 h.server.2.2.2.2 hfate hreq hcase
      rw [← hbe] at e1
      obtain ⟨w, w1, w2, w3⟩ := clientWaitRegion_eof env { c with stream := { c.stream with input := c.stream.input ++ bytes before } }
        (noise := noise ++ before) h.client.1 h.client.2.1 h.client.2.2.2.1 (n1.append hb') (by
          show c.stream.input ++ _ = _
          rw [n2]
          simp only [bytes_append'])
      refine ⟨_, _, w, e1, w1, .inr ?_⟩
      cases first with
      | false => exact .inl (w3 (hm rfl))
      | true => exact .inr ⟨w2, hlate rfl⟩

end

end Loop

end Trax
