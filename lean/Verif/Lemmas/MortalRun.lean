import Verif.Lemmas.BrokenRun
import Verif.Model.MortalTracker

/-!
# Lemmas on runs with trackers that end between two requests
-/

namespace Trax
open Spec Handle

namespace Link
variable {π : Type}

section
variable {P : Peer π} {env : Env} {out : Writer} {turns : Nat → Bool}

theorem wait_method (W : Proc.World (State π)) (limit : Bool) (s : Proc.State (State π)) : (process W limit).wait s = match method W limit .wait s with
    | (some true, s) => (.state s.world.answer, s)
    | (some false, s) => (.no, s)
    | (none, s) => (.thrown, s) := by
  unfold process
  dsimp only
  rcases method W limit .wait s with ⟨_ | _ | _, _⟩ <;> rfl

/-- An exchange with a process that was started, whether it runs or not. -/
theorem exchange_started {s : Proc.State (State π)} (limit : Bool) {e : Proc.Exchange} {good ret : Int} {c : Proc.Client} {next : Nat → State π}
    (hs : ∀ p, s.process = some p → p.exit ≠ none) (hc : s.client = some c)
    (hx : ∀ m, (world P env out turns).exchange e { s.world with moment := m } = (ret, next m)) :
    ∃ s' m m', Proc.exchange (world P env out turns) limit e good s = .ok (.value (ret == good), s') ∧ s'.world = { next m with moment := m' } ∧
      (ret = -1 → s'.process = none) ∧ (∀ p, s'.process = some p → p.exit ≠ none) ∧ s'.client = some c ∧ (ret ≠ -1 → s'.tracking = some (ret == good)) := by
  obtain ⟨s1, a1, a2⟩ := point_started (P := P) (env := env) (out := out) (turns := turns) (starting := false) (s := { s with armed := limit }) hs
  obtain ⟨⟨m, a3⟩, a4⟩ := point_world a1
  have a5 : s1.client = some c := a4.trans hc
  have a6 : (world P env out turns).exchange e s1.world = (ret, next m) := by rw [a3]; exact hx m
  obtain ⟨s2, b1, b2⟩ := point_started (P := P) (env := env) (out := out) (turns := turns) (starting := false)
    (s := { s1 with world := next m, log := s1.log ++ [.exchange e c.gen] }) a2
  obtain ⟨⟨m', b3⟩, b4⟩ := point_world b1
  rw [exchange_eq a1 a5, a6]
  unfold Proc.conclude
  dsimp only
  rw [b1, Outcome.bind_ok]
  by_cases hr : ret = -1
  · rw [if_pos hr]
    obtain ⟨b, s3, t1⟩ := stop_started (P := P) (env := env) (out := out) (turns := turns) (s := { s2 with armed := false, tracking := some (ret == good) }) b2
    obtain ⟨t2, t3, t4⟩ := stop_world t1
    rw [t1]
    exact ⟨s3, m, m', rfl, t3.trans b3, fun _ => t2, (fun p hp => by rw [t2] at hp; cases hp), t4.trans (b4.trans a5), fun h => absurd hr h⟩
  · rw [if_neg hr]
    exact ⟨_, m, m', rfl, b3, fun h => absurd h hr, b2, b4.trans a5, fun _ => rfl⟩

/-- A call on a process that was started, whether it runs or not. -/
theorem go_started {s : Proc.State (State π)} (limit : Bool) {e : Proc.Exchange} {good ret : Int} {g : Nat} {h : Handle} {next : Nat → State π}
    (hs : ∀ p, s.process = some p → p.exit ≠ none) (hc : s.client = some ⟨g, true⟩) (hh : s.world.client = some h) (ha : h.isAlive = true) (ht : s.tracking = some true)
    (hx : ∀ m, (world P env out turns).exchange e { s.world with moment := m } = (ret, next m)) :
    (∃ s', Proc.go (world P env out turns) limit e good s = .ok (.thrown, s')) ∨
    ∃ s' m m', Proc.go (world P env out turns) limit e good s = .ok (.value (ret == good), s') ∧ s'.world = { next m with moment := m' } ∧
      (ret = -1 → s'.process = none) ∧ (∀ p, s'.process = some p → p.exit ≠ none) ∧ s'.client = some ⟨g, true⟩ ∧ (ret ≠ -1 → s'.tracking = some (ret == good)) := by
  unfold Proc.go Proc.ready
  have a := running_world (P := P) (env := env) (out := out) (turns := turns) s
  generalize Proc.processRunning (world P env out turns) s = x at a ⊢
  obtain ⟨running, s1⟩ := x
  obtain ⟨a1, a2, a3, -, a5⟩ := a
  dsimp only at a1 a2 a3 a5
  cases running
  · exact .inl ⟨s1, rfl⟩
  right
  have hal : (world P env out turns).alive s1.world = (true, s1.world) := by
    show ((match s1.world.client with | none => false | some c => c.isAlive), s1.world) = _
    rw [a1, hh]
    dsimp only
    rw [ha]
  obtain ⟨w1, p1, c1, t1, ar1, n1, l1⟩ := s1
  dsimp only at a1 a2 a3 a5 hal
  rw [hc] at a2
  rw [ht] at a3
  subst a2 a3
  have hr : (match (world P env out turns).alive w1 with | (b, w) => Outcome.ok (b, (⟨w, p1, some ⟨g, true⟩, some true, ar1, n1, l1⟩ : Proc.State (State π)))) =
      .ok (true, ⟨w1, p1, some ⟨g, true⟩, some true, ar1, n1, l1⟩) := by rw [hal]
  refine Exists.imp (fun s' => Exists.imp fun m => Exists.imp fun m' h => ⟨(congrArg (Outcome.bind · _) hr).trans h.1, h.2⟩)
    (exchange_started (s := ⟨w1, p1, some ⟨g, true⟩, some true, ar1, n1, l1⟩) limit (a5 hs) rfl (by intro m; rw [← hx m, ← a1]))

end

/-- What is known of the program of a tracker that has not ended. -/
def held (rel : Handle → π → Prop) (c : Handle) (p : Option π) : Prop := ∃ q, p = some q ∧ rel c q

def heldAt (rel : Handle → Nat → π → Prop) (c : Handle) (n : Nat) (p : Option π) : Prop := ∃ q, p = some q ∧ rel c n q

theorem Phase.imp {P : Peer π} {rel rel' : Handle → Nat → π → Prop} {track : Option Bool → Prop} {s : Proc.State (State π)} (h : Phase P rel track s)
    (hi : ∀ c n p, rel c n p → rel' c n p) : Phase P rel' track s :=
  ⟨h.runs, (by obtain ⟨c, p, h1, h2, h3⟩ := h.ends; exact ⟨c, p, h1, h2, hi _ _ _ h3⟩), h.tracking, h.sound⟩

/-- The process has ended after an answer. -/
structure Gone (tracking : Handle → π → Prop) (s : Proc.State (State (Option π))) : Prop where
  ends : ∃ c p, s.world.client = some c ∧ s.world.peer = some none ∧ s.world.passed = c.stream.out.sent.length ∧ tracking c p
  started : ∀ p, s.process = some p → p.exit ≠ none
  client : ∃ g, s.client = some ⟨g, true⟩
  tracking : s.tracking = some true
  sound : s.world.broken = false

/-- Another request has been made. -/
structure Departed (env : Env) (s : Proc.State (State (Option π))) : Prop where
  ends : ∃ c w, s.world.client = some c ∧ c.isAlive = true ∧ s.world.peer = some none ∧ Cpp.clientWaitRegion env (some c) none Properties.create = .ok w ∧ w.ret = TRAX_ERROR
  started : ∀ p, s.process = some p → p.exit ≠ none
  client : ∃ g, s.client = some ⟨g, true⟩
  tracking : s.tracking = some true

/-- What a client does that gets no answer. -/
def Unanswered {α : Type} (env : Env) (shown : Cli.FrameImages → Prop) (tracking : α → Handle → π → Prop) : Prop :=
  ∀ x c p images, tracking x c p → shown images → ∃ c' w, Cpp.clientFrameImages env (some c) (imageList images) none = .ok (TRAX_OK, some c') ∧ c'.isAlive = true ∧
    Cpp.clientWaitRegion env (some c') none Properties.create = .ok w ∧ w.ret = TRAX_ERROR

section
variable {α : Type} {P : Peer π} {env : Env} {out : Writer} {turns : Nat → Bool} {a : Cli.About} {starts : Cli.FrameImages → Region → α → Prop}
  {goes : α → Cli.FrameImages → α → Prop} {props : Properties} {answer : α → Region} {idle : Handle → π → Prop} {tracking : α → Handle → π → Prop}
  {asked : α → Handle → Nat → π → Prop} {gone : π → Bool} {dead : α → Bool} {report : Nat → Proc.Poll}
  (H : Serves P env out a starts goes props answer idle tracking asked) (hdead : ∀ x c p, tracking x c p → gone p = dead x) (limit : Bool)

include H hdead

/-- As long as it lives it does what the tracker does. -/
theorem serves_live : Serves (mortal P gone report) env out a (fun i r x => starts i r x ∧ dead x = false) (fun x i y => goes x i y ∧ dead y = false) props answer (held idle)
    (fun x => held (tracking x)) (fun x c n p => heldAt (asked x) c n p ∧ dead x = false) where
  start := by
    obtain ⟨p, news, c, h1, h2, h3, h4, h5⟩ := H.start
    refine ⟨some p, news, c, ?_, h2, h3, h4, p, rfl, h5⟩
    show P.start.map _ = _
    rw [h1]
    rfl
  about := by rintro c _ ⟨p, rfl, h⟩; exact H.about c p h
  alive := ⟨by rintro c _ ⟨p, rfl, h⟩; exact H.alive.1 c p h, by rintro x c _ ⟨p, rfl, h⟩; exact H.alive.2.1 x c p h, by rintro x c n _ ⟨⟨p, rfl, h⟩, -⟩; exact H.alive.2.2 x c n p h⟩
  up := ⟨by rintro c _ ⟨p, rfl, h⟩; exact H.up.1 c p h, by rintro x c _ ⟨p, rfl, h⟩; exact H.up.2.1 x c p h, by rintro x c n _ ⟨⟨p, rfl, h⟩, -⟩; exact H.up.2.2 x c n p h⟩
  setup := by
    rintro x c _ images r ⟨p, rfl, h⟩ ⟨hi, hd⟩
    obtain ⟨c', e1, e2⟩ := H.setup x c p images r h hi
    exact ⟨c', e1, ⟨p, rfl, e2⟩, hd⟩
  frame := by
    rintro x y c _ images ⟨p, rfl, h⟩ ⟨hi, hd⟩
    obtain ⟨c', e1, e2⟩ := H.frame x y c p images h hi
    exact ⟨c', e1, ⟨p, rfl, e2⟩, hd⟩
  wait := by
    rintro x c n _ ⟨⟨p, rfl, h⟩, hd⟩
    obtain ⟨p', text, w, c', e1, e2, e3, e4, e5, e6, e7⟩ := H.wait x c n p h
    refine ⟨some p', text, w, c', ?_, e2, e3, e4, e5, e6, p', rfl, e7⟩
    show (P.respond _ p).map _ = _
    rw [e1]
    show Outcome.ok _ = _
    dsimp only
    rw [hdead x c' p' e7, hd]
    rfl

/-- The answer after which the process ends. -/
theorem wait_dead {x : α} (hx : dead x = true) {s : Proc.State (State (Option π))} (h : Phase (mortal P gone report) (heldAt (asked x)) (· = some true) s) :
    ∃ s', (process (world (mortal P gone report) env out turns) limit).wait s = (.state (some (answer x)), s') ∧ Gone (tracking x) s' := by
  obtain ⟨h1, ⟨c, _, h2, h3, p, rfl, h5⟩, h6, h7⟩ := h
  obtain ⟨p', text, w, c', e1, e2, e3, e4, e5, e6, e7⟩ := H.wait x c _ p h5
  have hready := ready_up (P := mortal P gone report) (env := env) (out := out) (turns := turns) h1 (c := c) h2 (H.alive.2.2 x c _ p h5)
  have hrespond : (mortal P gone report).respond (c.stream.out.sent.drop s.world.passed) (some p) = .ok (none, text) := by
    show (P.respond _ p).map _ = _
    rw [e1]
    show Outcome.ok _ = _
    dsimp only
    rw [hdead x c' p' e7, hx]
    rfl
  obtain ⟨g, g', ee, pp, k1, k2, k3, k4⟩ := h1
  obtain ⟨s', m, m', q1, q2, q3, q4, q5, q6⟩ := exchange_started (P := mortal P gone report) (env := env) (out := out) (turns := turns) (s := s) limit (e := .wait) (good := 5) (ret := 5)
    (c := ⟨g', true⟩) (next := fun m => { s.world with moment := m, client := some c', peer := some none, passed := c.stream.out.sent.length, answer := some (answer x) })
    (by intro p hp; rw [k1] at hp; cases hp; exact Option.some_ne_none _) k2 (by
      intro m
      show State.waits (mortal P gone report) env _ = _
      unfold State.waits
      dsimp only
      rw [h2, h3]
      dsimp only
      rw [hrespond]
      dsimp only
      have : Cpp.clientWaitRegion env (some { c with stream := { c.stream with input := c.stream.input ++ text.map InEv.byte } }) none Properties.create = .ok w := e2
      rw [this]
      dsimp only
      rw [e3, e4, e5])
  have hstep : Proc.step (world (mortal P gone report) env out turns) limit s .wait = .ok (.value true, s') := by
    unfold Proc.step
    dsimp only
    unfold Proc.go
    rw [hready, Outcome.bind_ok]
    dsimp only
    rw [if_pos rfl, h6]
    exact q1
  refine ⟨s', ?_, ⟨c', p', by rw [q2], by rw [q2], by rw [q2, e6], e7⟩, q4, ⟨g', q5⟩, q6 (by decide), by rw [q2]; exact h7⟩
  rw [wait_method]
  unfold method
  rw [hstep]
  dsimp only
  rw [q2]

/-- Another process is started in place of one that has ended. -/
theorem reset_gone {x : α} {s : Proc.State (State (Option π))} (h : Gone (tracking x) s) :
    ∃ s', (process (world (mortal P gone report) env out turns) limit).reset s = (true, s') ∧ Phase (mortal P gone report) (settled (held idle)) (fun _ => True) s' := by
  obtain ⟨b, s1, e1⟩ := stop_started (P := mortal P gone report) (env := env) (out := out) (turns := turns) h.started
  obtain ⟨e2, e3, -⟩ := stop_world e1
  obtain ⟨s', g1, g2⟩ := start_new (turns := turns) (serves_live (report := report) H hdead) limit (s := s1) e2 (by rw [e3]; exact h.sound)
  refine ⟨s', ?_, g2⟩
  show ((method (world (mortal P gone report) env out turns) limit .reset _).1.getD false, (method (world (mortal P gone report) env out turns) limit .reset _).2) = _
  unfold method
  dsimp only [Proc.step]
  unfold Proc.reset
  rw [e1, Outcome.bind_ok]
  dsimp only
  rw [g1]
  rfl

/-- The calls of `traxclient` go through the phases. -/
theorem phased_mortal : Cli.Phased (process (world (mortal P gone report) env out turns) limit) a starts (fun x i y => dead x = false ∧ goes x i y) props answer (fun s => s.world.broken = false)
    (Phase (mortal P gone report) (settled (held idle)) (fun _ => True)) (fun x => Phase (mortal P gone report) (heldAt (asked x)) (· = some true))
    (fun x s => (dead x = false ∧ Phase (mortal P gone report) (settled (held (tracking x))) (· = some true) s) ∨ (dead x = true ∧ Gone (tracking x) s)) := by
  have L := serves_live (report := report) H hdead
  have S := phased_static (turns := turns) L limit
  refine ⟨⟨S.sound.1, ?_⟩, S.ready, S.metadata, ?_, ?_, ?_, ?_⟩
  · rintro x t (⟨-, h⟩ | ⟨-, h⟩)
    · exact h.sound
    · exact h.sound
  · intro x t images r h hi
    refine setup_to limit L.alive.1 L.up.1 ?_ h
    rintro c _ ⟨p, rfl, h⟩
    obtain ⟨c', e1, e2⟩ := H.setup x c p images r h hi
    exact ⟨c', e1, p, rfl, e2⟩
  · intro x t h
    cases hx : dead x with
    | true =>
      obtain ⟨t', e1, e2⟩ := wait_dead H hdead limit hx h
      exact ⟨t', e1, .inr ⟨rfl, e2⟩⟩
    | false =>
      obtain ⟨t', e1, e2⟩ := wait_asked (turns := turns) L limit (h.imp fun _ _ _ h => ⟨h, hx⟩)
      exact ⟨t', e1, .inl ⟨rfl, e2⟩⟩
  · rintro x y t images (⟨-, h⟩ | ⟨hx, -⟩) ⟨hx', hi⟩
    · refine frame_to limit (L.alive.2.1 x) (L.up.2.1 x) ?_ h
      rintro c _ ⟨p, rfl, h⟩
      obtain ⟨c', e1, e2⟩ := H.frame x y c p images h hi
      exact ⟨c', e1, p, rfl, e2⟩
    · rw [hx] at hx'
      cases hx'
  · rintro x t (⟨hx, h⟩ | ⟨hx, h⟩)
    · exact S.reset x t h
    · obtain ⟨s1, e1, e2⟩ := reset_gone (turns := turns) (report := report) H hdead limit h
      refine ⟨s1, false, s1, e1, ?_, e2⟩
      show (method (world (mortal P gone report) env out turns) limit .query s1) = _
      unfold method Proc.step Proc.startProcess
      dsimp only
      rw [running_up e2.1]

omit H hdead in
/-- A request to a process that has ended. -/
theorem frame_gone {shown : Cli.FrameImages → Prop} (hu : Unanswered env shown tracking) (halive : ∀ x c p, tracking x c p → c.isAlive = true) {x : α} {images : Cli.FrameImages} (hi : shown images) {s : Proc.State (State (Option π))} (h : Gone (tracking x) s) :
    ((process (world (mortal P gone report) env out turns) limit).frame images s).1 = false ∨
      ∃ s', (process (world (mortal P gone report) env out turns) limit).frame images s = (true, s') ∧ Departed env s' := by
  obtain ⟨⟨c, p, h1, h2, h3, h4⟩, h5, ⟨g, h6⟩, h7, -⟩ := h
  obtain ⟨c', w, e1, e2, e3, e4⟩ := hu x c p images h4 hi
  let s₁ : Proc.State (State (Option π)) := { s with world := { s.world with images } }
  show ((method (world (mortal P gone report) env out turns) limit .frame s₁).1.getD false) = false ∨
    ∃ s', ((method (world (mortal P gone report) env out turns) limit .frame s₁).1.getD false, (method (world (mortal P gone report) env out turns) limit .frame s₁).2) = (true, s') ∧ _
  have hstep : Proc.step (world (mortal P gone report) env out turns) limit s₁ .frame = Proc.go (world (mortal P gone report) env out turns) limit .frame 0 s₁ := rfl
  unfold method
  rw [hstep]
  rcases go_started (P := mortal P gone report) (env := env) (out := out) (turns := turns) (s := s₁) limit (e := .frame) (good := 0) (ret := 0) (g := g) (h := c)
    (next := fun m => { s.world with images, moment := m, client := some c' }) h5 h6 h1 (halive x c p h4) h7 (by
      intro m
      show State.after _ (Cpp.clientFrameImages env s.world.client (imageList images) none) = _
      rw [h1, e1]
      rfl) with ⟨s', q⟩ | ⟨s', m, m', q1, q2, q3, q4, q5, q6⟩
  · left
    rw [q]
    rfl
  · right
    rw [q1]
    exact ⟨s', rfl, ⟨c', w, by rw [q2], e2, by rw [q2]; exact h2, e3, e4⟩, q4, ⟨g, q5⟩, q6 (by decide)⟩

omit H hdead in
/-- The wait for its answer. -/
theorem wait_departed {s : Proc.State (State (Option π))} (h : Departed env s) :
    ((process (world (mortal P gone report) env out turns) limit).wait s).1 = .thrown ∨
      ∃ s', (process (world (mortal P gone report) env out turns) limit).wait s = (.no, s') ∧ ((process (world (mortal P gone report) env out turns) limit).ready s').1 = false := by
  obtain ⟨⟨c, w, h1, h2, h3, h4, h5⟩, h6, ⟨g, h7⟩, h8⟩ := h
  obtain ⟨c', e4, -⟩ := clientWaitRegion_codes h4
  have hstep : Proc.step (world (mortal P gone report) env out turns) limit s .wait = Proc.go (world (mortal P gone report) env out turns) limit .wait 5 s := rfl
  rw [wait_method]
  unfold method
  rw [hstep]
  rcases go_started (P := mortal P gone report) (env := env) (out := out) (turns := turns) (s := s) limit (e := .wait) (good := 5) (ret := -1) (g := g) (h := c)
    (next := fun m => { s.world with moment := m, client := some c', peer := some none, passed := c.stream.out.sent.length, answer := w.region }) h6 h7 h1 h2 h8 (by
      intro m
      show State.waits (mortal P gone report) env _ = _
      unfold State.waits
      dsimp only
      rw [h1, h3]
      dsimp only
      have hr : (mortal P gone report).respond (c.stream.out.sent.drop s.world.passed) none = .ok (none, []) := rfl
      rw [hr]
      dsimp only
      rw [List.map_nil, List.append_nil]
      have : Cpp.clientWaitRegion env (some { c with stream := { c.stream with input := c.stream.input } }) none Properties.create = .ok w := h4
      rw [this]
      dsimp only
      rw [e4, h5]) with ⟨s', q⟩ | ⟨s', m, m', q1, q2, q3, q4, q5, q6⟩
  · left
    rw [q]
  · right
    rw [q1]
    exact ⟨s', rfl, ready_down (.inl (q3 rfl)) limit⟩

omit hdead in
/-- A run with a process that has ended does not come to its end. -/
theorem ends_mortal {shown : Cli.FrameImages → Prop} (hu : Unanswered env shown tracking) :
    Cli.Ends (process (world (mortal P gone report) env out turns) limit) (fun _ _ => False) (fun x images => dead x = true ∧ shown images) props
      (Phase (mortal P gone report) (settled (held idle)) (fun _ => True))
      (fun x s => (dead x = false ∧ Phase (mortal P gone report) (settled (held (tracking x))) (· = some true) s) ∨ (dead x = true ∧ Gone (tracking x) s)) (Departed env) where
  setup := fun _ _ _ _ h => h.elim
  frame := by
    rintro x t images (⟨hx, -⟩ | ⟨-, h⟩) ⟨hx', hi⟩
    · rw [hx] at hx'
      cases hx'
    · exact frame_gone limit hu H.alive.2.1 hi h
  wait := fun _ h => wait_departed limit h

end

end Link

namespace Loop
open Link Cli.Spec
variable {τ : Type}

/-- The loop, when nobody answers. -/
theorem unanswered (senv env : Env) (T : Tracker τ) (m : Metadata) (hch : m.channels &&& 7 = m.channels) : Unanswered env (fun images => ∃ l, Sends m l images) (Tracking (τ := τ) m) := by
  rintro x c p images hp ⟨l, hi⟩
  obtain ⟨c', e1, e2⟩ := frame_requested senv env T m hch (y := T.update x.1.state l (Properties.ofPairs [])) hp ⟨l, hi, rfl⟩
  have hm := clientFrameImages_mtype e1
  obtain ⟨s, -, -, ht⟩ := hp
  obtain ⟨s', tracker, start, l', props, -, h, -⟩ := e2
  obtain ⟨noise, n1, n2⟩ := h.noise
  obtain ⟨w, w1, -, w3⟩ := clientWaitRegion_eof env c' h.client.1 h.client.2.1 h.client.2.2.2.1 n1 n2
  exact ⟨c', w, e1, h.client.2.1, w1, w3 (hm.trans ht)⟩

/-- The program that ends is the one that the tracker behind the loop says. -/
theorem over_tracking (m : Metadata) (gone : τ → Bool) : ∀ (x : Step τ × Region) c p, Tracking m x c p → over gone p = gone x.1.state := by
  rintro x c _ ⟨s, rfl, -⟩
  rfl

end Loop

end Trax
