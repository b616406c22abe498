import Verif.Model.TrackerLink
import Verif.Props.Endpoint
import Verif.Props.CliMain

/-!
# Lemmas on a tracker process and its client library, connected
-/

namespace Trax
open Spec Handle
open Region (bind_eq_ok map_eq_ok)

/-! ## A region that goes to and fro -/

theorem readCoord_isFloat {x : Flt} (hx : x.IsFloat) : (Region.readCoord x).IsFloat := by
  cases x with
  | nan => exact hx
  | inf neg => exact hx
  | fin neg m => exact (read_decimal neg m (10 ^ 4) (by decide) (by decide) hx).2

theorem readCoord_ne_nan {x : Flt} (hx : x ≠ .nan) : Region.readCoord x ≠ .nan := by
  cases x with
  | nan => exact absurd rfl hx
  | inf neg => nofun
  | fin neg m => nofun

/-- A region that is written, read and written again has the same text. -/
theorem region_returns {r : Region} (h : Sendable r) (hsp : ∀ code, r ≠ .special code) :
    ∃ t r', r.string = .ok (some t) ∧ Region.parse t = .ok ⟨1, some r', 0⟩ ∧ r'.string = .ok (some t) ∧ Sendable r' ∧
      Arrives r r' ∧ Arrives r' r' ∧ WellFormed r' ∧ (∀ code, r' ≠ .special code) := by
  have hstable : StableRegion r := by
    cases r with
    | special code => exact absurd rfl (hsp code)
    | rectangle x y w h' => exact fun c hc => ⟨h.1 c hc, h.2 c hc⟩
    | polygon ps => exact ⟨h.1, fun p hp => ⟨⟨(h.2.1 p hp).1, (h.2.2 p hp).1⟩, ⟨(h.2.1 p hp).2, (h.2.2 p hp).2⟩⟩⟩
    | mask x y w h' data => exact h
  obtain ⟨t, r', h1, h2, h3, h4⟩ := C37_stable_partial r hstable
  obtain ⟨t₁, r₁, g1, g2, g3, g4⟩ := region_transfer h
  rw [h1] at g1
  cases g1
  rw [h2] at g2
  cases g2
  have hs' : Sendable r' := by
    cases r with
    | special code => exact absurd rfl (hsp code)
    | rectangle x y w h' =>
      obtain ⟨t₂, e1, e2⟩   := Region.parse_rectangle x y w h' h.1 h.2
      rw [h1] at e1
      cases e1
      rw [h2] at e2
      cases e2
      constructor
      · intro c hc
        simp only [List.mem_cons, List.not_mem_nil, or_false] at hc
        rcases hc with rfl | rfl | rfl | rfl <;> exact readCoord_isFloat (h.1 _ (by simp))
      · intro c hc
        simp only [List.mem_cons, List.not_mem_nil, or_false] at hc
        rcases hc with rfl | rfl | rfl | rfl <;> exact readCoord_ne_nan (h.2 _ (by simp))
    | polygon ps =>
      obtain ⟨t₂, e1, e2⟩   := Region.parse_polygon ps h.1 h.2.1 h.2.2
      rw [h1] at e1
      cases e1
      rw [h2] at e2
      cases e2
      refine ⟨by simpa using h.1, ?_, ?_⟩
      · intro p hp
        obtain ⟨q, hq, rfl⟩ := List.mem_map.mp hp
        exact ⟨readCoord_isFloat (h.2.1 q hq).1, readCoord_isFloat (h.2.1 q hq).2⟩
      · intro p hp
        obtain ⟨q, hq, rfl⟩ := List.mem_map.mp hp
        exact ⟨readCoord_ne_nan (h.2.2 q hq).1, readCoord_ne_nan (h.2.2 q hq).2⟩
    | mask x y w h' data =>
      obtain ⟨data', rfl, e1, e2⟩ := g3
      obtain ⟨i1, i2, i3, i4, i5, i6, p, hp, hp0⟩ := h
      refine ⟨i1, i2, i3, i4, by rw [e1]; exact i5, by rw [e1]; exact i6, ?_⟩
      obtain ⟨i, hi, rfl⟩ := List.getElem_of_mem hp
      refine ⟨data'[i]'(by omega), List.getElem_mem _, ?_⟩
      rw [e2 i hi (by omega), if_neg hp0]
      decide
  obtain ⟨t₂, r₂, k1, k2, k3, k4⟩ := region_transfer hs'
  rw [h3] at k1
  cases k1
  rw [h2] at k2
  cases k2
  refine ⟨t, r', h1, h2, h3, hs', g3, k3, g4, ?_⟩
  rintro code rfl
  cases r with
  | special code => exact absurd rfl (hsp code)
  | _ => cases h4

/-! ## The process -/

namespace Link
variable {π : Type}

/-- The operating system says that the process runs. -/
def Up (P : Peer π) (p : π) : Prop := ∀ k, P.polled p k = .running

/-- What a tracker has to do for a run without interruption: `idle`, `asked x` and `tracking x` hold of the client, what it has sent and not passed on, and the
tracker, where `x` is what the tracker does with the last request. `starts` and `goes` tell which requests are made and what comes of them. -/
structure Serves {α : Type} (P : Peer π) (env : Env) (out : Writer) (a : Cli.About) (starts : Cli.FrameImages → Region → α → Prop) (goes : α → Cli.FrameImages → α → Prop)
    (props : Properties) (answer : α → Region) (idle : Handle → π → Prop) (tracking : α → Handle → π → Prop) (asked : α → Handle → Nat → π → Prop) : Prop where
  start : ∃ p news c, P.start = .ok (p, news) ∧ clientSetup ⟨none, bytes news, out⟩ = .ok (some c) ∧ c.version ≤ 4 ∧ c.stream.out.sent = out.sent ∧ idle c p
  about : ∀ c p, idle c p → about c.metadata = a
  alive : (∀ c p, idle c p → c.isAlive = true) ∧ (∀ x c p, tracking x c p → c.isAlive = true) ∧ ∀ x c n p, asked x c n p → c.isAlive = true
  up : (∀ c p, idle c p → Up P p) ∧ (∀ x c p, tracking x c p → Up P p) ∧ ∀ x c n p, asked x c n p → Up P p
  setup : ∀ x c p images r, idle c p → starts images r x → ∃ c', Cpp.clientInitializeRegion env (some c) (imageList images) (some r) (some props) = .ok (TRAX_OK, some c') ∧
    asked x c' c.stream.out.sent.length p
  frame : ∀ x y c p images, tracking x c p → goes x images y → ∃ c', Cpp.clientFrameImages env (some c) (imageList images) none = .ok (TRAX_OK, some c') ∧
    asked y c' c.stream.out.sent.length p
  wait : ∀ x c n p, asked x c n p → ∃ p' text w c', P.respond (c.stream.out.sent.drop n) p = .ok (p', text) ∧
    Cpp.clientWaitRegion env (some { c with stream := { c.stream with input := c.stream.input ++ bytes text } }) none Properties.create = .ok w ∧
    w.ret = TRAX_STATE ∧ w.region = some (answer x) ∧ w.handle = some c' ∧ c'.stream.out.sent = c.stream.out.sent ∧ tracking x c' p'

section
variable {P : Peer π} {env : Env} {out : Writer} {turns : Nat → Bool}

/-- The process runs and the client is connected. -/
def Runs (P : Peer π) (s : Proc.State (State π)) : Prop := ∃ g g' e p, s.process = some ⟨g, true, some e⟩ ∧ s.client = some ⟨g', true⟩ ∧ s.world.peer = some p ∧ Up P p

theorem poll_world (w : State π) : (world P env out turns).poll w = ((match w.peer with | none => .running | some p => P.polled p w.moment), w) := rfl

theorem poll_up {w : State π} {p : π} (hp : w.peer = some p) (hu : Up P p) : (world P env out turns).poll w = (.running, w) := by
  rw [poll_world, hp]
  dsimp only
  rw [hu]

theorem isAlive_up {w : State π} {p : π} (hp : w.peer = some p) (hu : Up P p) (g : Nat) (e : Option Int) :
    Proc.isAlive (world P env out turns) ⟨g, true, e⟩ w = (true, some 0, ⟨g, true, e⟩, w) := by
  unfold Proc.isAlive
  dsimp only
  rw [if_pos rfl, poll_up hp hu]

theorem running_up {s : Proc.State (State π)} (h : Runs P s) : Proc.processRunning (world P env out turns) s = (true, s) := by
  obtain ⟨g, g', e, p, h1, h2, h3, h4⟩ := h
  unfold Proc.processRunning
  rw [h1]
  dsimp only
  rw [isAlive_up h3 h4]
  obtain ⟨w, pr, c, t, a, n, l⟩ := s
  dsimp only at h1
  subst h1
  rfl

theorem point_start (s : Proc.State (State π)) : Proc.point (world P env out turns) true s = .ok s := rfl

theorem point_up {s : Proc.State (State π)} (h : Runs P s) :
    ∃ m, Proc.point (world P env out turns) false s = .ok { s with world := { s.world with moment := m } } := by
  refine ⟨s.world.moment + 1, ?_⟩
  unfold Proc.point
  have ht : (world P env out turns).turn false s.world = (turns s.world.moment, { s.world with moment := s.world.moment + 1 }) := rfl
  rw [ht]
  cases turns s.world.moment with
  | false => rfl
  | true =>
    dsimp only
    unfold Proc.watchdogTurn
    rw [running_up (s := { s with world := { s.world with moment := s.world.moment + 1 } }) (by
      obtain ⟨g, g', e, p, h1, h2, h3, h4⟩ := h
      exact ⟨g, g', e, p, h1, h2, h3, h4⟩)]
    obtain ⟨w, p, c, t, a, n, l⟩ := s
    cases a <;> rfl

theorem ready_up {s : Proc.State (State π)} (h : Runs P s) {c : Handle} (hc : s.world.client = some c) (ha : c.isAlive = true) :
    Proc.ready (world P env out turns) s = .ok (true, s) := by
  unfold Proc.ready
  rw [running_up h]
  obtain ⟨g, g', e, p, h1, h2, -⟩ := h
  obtain ⟨w, pr, c, t, a, n, l⟩ := s
  dsimp only at h1 h2 hc
  subst h1 h2
  have : (world P env out turns).alive w = (true, w) := by
    show ((match w.client with | none => false | some c => c.isAlive), w) = _
    rw [hc]
    dsimp only
    rw [ha]
  show (match (world P env out turns).alive w with | (b, w) => Outcome.ok (b, (⟨w, _, _, _, _, _, _⟩ : Proc.State (State π)))) = _
  rw [this]

/-- An exchange with the result code for success. -/
theorem exchange_up {s : Proc.State (State π)} (h : Runs P s) (limit : Bool) (e : Proc.Exchange) (good : Int) (hg : good ≠ -1) (next : State π → State π)
    (hn : ∀ m, ∃ p, (next { s.world with moment := m }).peer = some p ∧ Up P p)
    (hx : ∀ m, (world P env out turns).exchange e { s.world with moment := m } = (good, next { s.world with moment := m })) :
    ∃ s' m m', Proc.exchange (world P env out turns) limit e good s = .ok (.value true, s') ∧ Runs P s' ∧ s'.tracking = some true ∧
      s'.world = { next { s.world with moment := m } with moment := m' } := by
  obtain ⟨g, g', ee, pp, h1, h2, h3, h4⟩ := h
  obtain ⟨w, p, c, t, a, n, l⟩ := s
  dsimp only at h1 h2 h3 hx hn
  subst h1 h2
  obtain ⟨m, hm⟩ := point_up (P := P) (env := env) (out := out) (turns := turns) (s := ⟨w, some ⟨g, true, some ee⟩, some ⟨g', true⟩, t, limit, n, l⟩) ⟨g, g', ee, pp, rfl, rfl, h3, h4⟩
  obtain ⟨p', hp1, hp2⟩ := hn m
  obtain ⟨m', hm'⟩ := point_up (P := P) (env := env) (out := out) (turns := turns)
    (s := ⟨next { w with moment := m }, some ⟨g, true, some ee⟩, some ⟨g', true⟩, t, limit, n, l ++ [.exchange e g']⟩) ⟨g, g', ee, p', rfl, rfl, hp1, hp2⟩
  unfold Proc.exchange
  dsimp only at hm hm' ⊢
  rw [hm, Outcome.bind_ok]
  dsimp only
  rw [hx]
  unfold Proc.conclude
  dsimp only
  rw [hm', Outcome.bind_ok]
  dsimp only
  rw [if_neg hg, beq_self_eq_true]
  exact ⟨_, m, m', rfl, ⟨g, g', ee, p', rfl, rfl, hp1, hp2⟩, rfl, rfl⟩

end

theorem step_true {W : Proc.World (State π)} {limit : Bool} {op : Proc.Op} {s s' : Proc.State (State π)} {b : Bool} (h : method W limit op s = (some b, s')) :
    Proc.step W limit s op = .ok (.value b, s') := by
  unfold method at h
  split at h
  · cases h; assumption
  · cases h
  · cases h

theorem method_true {W : Proc.World (State π)} {limit : Bool} {op : Proc.Op} {s s' : Proc.State (State π)} {b : Bool} (h : Proc.step W limit s op = .ok (.value b, s')) :
    method W limit op s = (some b, s') := by
  unfold method
  rw [h]

/-- The states of the process between the calls of a run. -/
structure Phase (P : Peer π) (rel : Handle → Nat → π → Prop) (track : Option Bool → Prop) (s : Proc.State (State π)) : Prop where
  runs : Runs P s
  ends : ∃ c p, s.world.client = some c ∧ s.world.peer = some p ∧ rel c s.world.passed p
  tracking : track s.tracking
  sound : s.world.broken = false

/-- Nothing is on the way. -/
def settled (rel : Handle → π → Prop) (c : Handle) (n : Nat) (p : π) : Prop := n = c.stream.out.sent.length ∧ rel c p

/-- A request to begin. -/
theorem setup_to {P : Peer π} {env : Env} {out : Writer} {turns : Nat → Bool} {props : Properties} {idle : Handle → π → Prop} {after : Handle → Nat → π → Prop} (limit : Bool)
    {images : Cli.FrameImages} {r : Region} (ha : ∀ c p, idle c p → c.isAlive = true) (hu : ∀ c p, idle c p → Up P p)
    (hset : ∀ c p, idle c p → ∃ c', Cpp.clientInitializeRegion env (some c) (imageList images) (some r) (some props) = .ok (TRAX_OK, some c') ∧ after c' c.stream.out.sent.length p)
    {s : Proc.State (State π)} (h : Phase P (settled idle) (fun _ => True) s) :
    ∃ s', (process (world P env out turns) limit).setup images (some r) props s = (true, s') ∧ Phase P after (· = some true) s' := by
  obtain ⟨h1, ⟨c, p, h2, h3, h4, h5⟩, h6, h7⟩ := h
  obtain ⟨c', e1, e2⟩ := hset c p h5
  let s₁ : Proc.State (State π) := { s with world := { s.world with images, region := some r, properties := props } }
  have hr : Runs P s₁ := h1
  have hready := ready_up (P := P) (env := env) (out := out) (turns := turns) hr (c := c) h2 (ha c p h5)
  obtain ⟨s', m, m', g1, g2, g3, g4⟩ := exchange_up (P := P) (env := env) (out := out) (turns := turns) (s := { s₁ with tracking := some false }) hr limit .init 0 (by decide)
    (fun w => { w with client := some c' }) (fun _ => ⟨p, h3, hu c p h5⟩) (by
      intro m
      show State.after _ (Cpp.clientInitializeRegion env s.world.client (imageList images) (some r) (some props)) = _
      rw [h2, e1]
      rfl)
  have hstep : Proc.step (world P env out turns) limit s₁ .init = .ok (.value true, s') := by
    unfold Proc.step
    dsimp only
    unfold Proc.initialize Proc.startProcess
    rw [running_up hr]
    dsimp only
    rw [Outcome.bind_ok]
    dsimp only
    rw [hready, Outcome.bind_ok]
    dsimp only
    rw [if_pos rfl]
    exact g1
  refine ⟨s', ?_, g2, ⟨c', p, by rw [g4], by rw [g4]; exact h3, ?_⟩, g3, by rw [g4]; exact h7⟩
  · show ((method (world P env out turns) limit .init s₁).1.getD false, (method (world P env out turns) limit .init s₁).2) = _
    unfold method
    rw [hstep]
    rfl
  · rw [g4]
    show after c' s.world.passed p
    rw [h4]
    exact e2

/-- A request to go on. -/
theorem frame_to {P : Peer π} {env : Env} {out : Writer} {turns : Nat → Bool} {tracking : Handle → π → Prop} {after : Handle → Nat → π → Prop} (limit : Bool)
    {images : Cli.FrameImages} (ha : ∀ c p, tracking c p → c.isAlive = true) (hu : ∀ c p, tracking c p → Up P p)
    (hset : ∀ c p, tracking c p → ∃ c', Cpp.clientFrameImages env (some c) (imageList images) none = .ok (TRAX_OK, some c') ∧ after c' c.stream.out.sent.length p)
    {s : Proc.State (State π)} (h : Phase P (settled tracking) (· = some true) s) :
    ∃ s', (process (world P env out turns) limit).frame images s = (true, s') ∧ Phase P after (· = some true) s' := by
  obtain ⟨h1, ⟨c, p, h2, h3, h4, h5⟩, h6, h7⟩ := h
  obtain ⟨c', e1, e2⟩ := hset c p h5
  let s₁ : Proc.State (State π) := { s with world := { s.world with images } }
  have hr : Runs P s₁ := h1
  have hready := ready_up (P := P) (env := env) (out := out) (turns := turns) hr (c := c) h2 (ha c p h5)
  obtain ⟨s', m, m', g1, g2, g3, g4⟩ := exchange_up (P := P) (env := env) (out := out) (turns := turns) (s := s₁) hr limit .frame 0 (by decide)
    (fun w => { w with client := some c' }) (fun _ => ⟨p, h3, hu c p h5⟩) (by
      intro m
      show State.after _ (Cpp.clientFrameImages env s.world.client (imageList images) none) = _
      rw [h2, e1]
      rfl)
  have hstep : Proc.step (world P env out turns) limit s₁ .frame = .ok (.value true, s') := by
    unfold Proc.step
    dsimp only
    unfold Proc.go
    rw [hready, Outcome.bind_ok]
    dsimp only
    rw [if_pos rfl]
    have : s₁.tracking = some true := h6
    rw [this]
    exact g1
  refine ⟨s', ?_, g2, ⟨c', p, by rw [g4], by rw [g4]; exact h3, ?_⟩, g3, by rw [g4]; exact h7⟩
  · show ((method (world P env out turns) limit .frame s₁).1.getD false, (method (world P env out turns) limit .frame s₁).2) = _
    unfold method
    rw [hstep]
    rfl
  · rw [g4]
    show after c' s.world.passed p
    rw [h4]
    exact e2

section
variable {α : Type} {P : Peer π} {env : Env} {out : Writer} {turns : Nat → Bool} {a : Cli.About} {starts : Cli.FrameImages → Region → α → Prop}
  {goes : α → Cli.FrameImages → α → Prop} {props : Properties} {answer : α → Region} {idle : Handle → π → Prop} {tracking : α → Handle → π → Prop}
  {asked : α → Handle → Nat → π → Prop} (H : Serves P env out a starts goes props answer idle tracking asked) (limit : Bool)

include H

/-- A process that is not there is started, whatever the arguments of the call are. -/
theorem start_keeps {s : Proc.State (State π)} (hs : s.process = none) (hb : s.world.broken = false) :
    ∃ s', Proc.startProcess (world P env out turns) limit s = .ok (.value true, s') ∧ Phase P (settled idle) (fun _ => True) s' ∧
      s'.world.images = s.world.images ∧ s'.world.region = s.world.region ∧ s'.world.properties = s.world.properties := by
  obtain ⟨p, news, c, h1, h2, h3, h4, h5⟩ := H.start
  obtain ⟨w, pr, cl, tr, ar, nx, lg⟩ := s
  dsimp only at hs hb
  subst hs
  have hspawn : (world P env out turns).spawn w = (true, { w with peer := some p, arrived := news }) := by
    show (match P.start with | .ok (p, text) => _ | _ => _) = _
    rw [h1]
  have hconn : (world P env out turns).connect { w with peer := some p, arrived := news } =
      (some c.version, { w with peer := some p, arrived := news, client := some c, passed := out.sent.length }) := by
    show (match clientSetup ⟨none, bytes news, out⟩ with | .ok (some c) => _ | .ok none => _ | _ => _) = _
    rw [h2]
  refine ⟨⟨{ w with peer := some p, arrived := news, client := some c, passed := out.sent.length }, some ⟨nx, true, some (-1)⟩, some ⟨nx, true⟩, tr, false, nx + 1, lg⟩, ?_,
    ⟨⟨_, _, _, _, rfl, rfl, rfl, H.up.1 c p h5⟩, ⟨c, p, rfl, rfl, by rw [h4], h5⟩, trivial, hb⟩, rfl, rfl, rfl⟩
  unfold Proc.startProcess
  have hr : ∀ (w : State π) cl tr ar nx lg, Proc.processRunning (world P env out turns) ⟨w, none, cl, tr, ar, nx, lg⟩ = (false, ⟨w, none, cl, tr, ar, nx, lg⟩) := fun _ _ _ _ _ _ => rfl
  rw [hr]
  dsimp only
  rw [point_start, Outcome.bind_ok]
  dsimp only
  rw [hspawn]
  dsimp only
  rw [point_start, Outcome.bind_ok]
  dsimp only
  rw [isAlive_up rfl (H.up.1 c p h5)]
  dsimp only
  rw [point_start, Outcome.bind_ok]
  dsimp only
  rw [hconn]
  unfold Proc.introduce
  rw [point_start, Outcome.bind_ok]
  dsimp only
  rw [if_neg (by omega)]
  rfl

/-- A process that is not there is started. -/
theorem start_new {s : Proc.State (State π)} (hs : s.process = none) (hb : s.world.broken = false) :
    ∃ s', Proc.startProcess (world P env out turns) limit s = .ok (.value true, s') ∧ Phase P (settled idle) (fun _ => True) s' := by
  obtain ⟨s', h1, h2, -⟩ := start_keeps (turns := turns) H limit hs hb
  exact ⟨s', h1, h2⟩

theorem query_new : ∃ b s', (process (world P env out turns) limit).query (Proc.State.fresh {}) = (some b, s') ∧ Phase P (settled idle) (fun _ => True) s' := by
  obtain ⟨s', h1, h2⟩ := start_new (turns := turns) H limit (s := Proc.State.fresh {}) rfl rfl
  refine ⟨true, s', ?_, h2⟩
  unfold process method
  dsimp only [Proc.step]
  rw [h1]

/-- The process is stopped, and another one is started. -/
theorem reset_tracking {x : α} {s : Proc.State (State π)} (h : Phase P (settled (tracking x)) (· = some true) s) :
    ∃ s', (process (world P env out turns) limit).reset s = (true, s') ∧ Phase P (settled idle) (fun _ => True) s' := by
  obtain ⟨⟨g, g', e, pp, h1, h2, h3, h4⟩, -, -, h7⟩ := h
  obtain ⟨w, pr, cl, tr, ar, nx, lg⟩ := s
  dsimp only at h1 h2 h3 h7
  subst h1 h2
  have hstop : Proc.stopProcess (world P env out turns) ⟨w, some ⟨g, true, some e⟩, some ⟨g', true⟩, tr, ar, nx, lg⟩ =
      .ok (true, ⟨w, none, some ⟨g', true⟩, tr, false, nx, lg ++ [.term g] ++ [.kill g] ++ [.kill g]⟩) := by
    simp only [Proc.stopProcess, Proc.endProcess, Proc.pollLoop, Proc.signal, isAlive_up h3 h4, if_true]
    rfl
  obtain ⟨s', g1, g2⟩ := start_new (turns := turns) H limit (s := ⟨w, none, some ⟨g', true⟩, tr, false, nx, lg ++ [.term g] ++ [.kill g] ++ [.kill g]⟩) rfl h7
  refine ⟨s', ?_, g2⟩
  show ((method (world P env out turns) limit .reset _).1.getD false, (method (world P env out turns) limit .reset _).2) = _
  unfold method
  dsimp only [Proc.step]
  unfold Proc.reset
  rw [hstop, Outcome.bind_ok]
  dsimp only
  rw [g1]
  rfl

theorem ready_idle {s : Proc.State (State π)} (h : Phase P (settled idle) (fun _ => True) s) :
    Proc.step (world P env out turns) limit s .ready = .ok (.value true, s) := by
  obtain ⟨h1, ⟨c, p, h2, h3, h4, h5⟩, h6, h7⟩ := h
  unfold Proc.step
  dsimp only
  rw [ready_up h1 h2 (H.alive.1 c p h5)]
  rfl

theorem setup_idle {s : Proc.State (State π)} (h : Phase P (settled idle) (fun _ => True) s) {images : Cli.FrameImages} {r : Region} {x : α} (hi : starts images r x) :
    ∃ s', (process (world P env out turns) limit).setup images (some r) props s = (true, s') ∧ Phase P (asked x) (· = some true) s' :=
  setup_to limit H.alive.1 H.up.1 (fun c p hc => H.setup x c p images r hc hi) h

/-- The first request, which starts the process. -/
theorem setup_new {s : Proc.State (State π)} (hs : s.process = none) (hb : s.world.broken = false) {images : Cli.FrameImages} {r : Region} {x : α} (hi : starts images r x) :
    ∃ s', (process (world P env out turns) limit).setup images (some r) props s = (true, s') ∧ Phase P (asked x) (· = some true) s' := by
  obtain ⟨s1, h1, h2, h3, h4, h5⟩ := start_keeps (turns := turns) H limit (s := { s with world := { s.world with images, region := some r, properties := props } }) hs hb
  obtain ⟨s', g1, g2⟩ := setup_idle (turns := turns) H limit h2 hi
  refine ⟨s', ?_, g2⟩
  have e : ({ s1 with world := { s1.world with images, region := some r, properties := props } } : Proc.State (State π)) = s1 := by
    obtain ⟨⟨w1, w2, w3, w4, w5, w6, w7, w8, w9, w10⟩, q2, q3, q4, q5, q6, q7⟩ := s1
    dsimp only at h3 h4 h5
    subst h3 h4 h5
    rfl
  have e2 : Proc.step (world P env out turns) limit { s with world := { s.world with images, region := some r, properties := props } } .init =
      Proc.step (world P env out turns) limit s1 .init := by
    have e3 : Proc.startProcess (world P env out turns) limit s1 = .ok (.value false, s1) := by
      unfold Proc.startProcess
      rw [running_up h2.runs]
    unfold Proc.step
    dsimp only
    unfold Proc.initialize
    rw [h1, e3]
    rfl
  have e5 : ∀ t : Proc.State (State π), (process (world P env out turns) limit).setup images (some r) props t =
      (fun r : Option Bool × Proc.State (State π) => (r.1.getD false, r.2))
        (method (world P env out turns) limit .init { t with world := { t.world with images, region := some r, properties := props } }) := fun _ => rfl
  rw [e5, e] at g1
  have g3 : method (world P env out turns) limit .init s1 = (some true, s') := by
    generalize method (world P env out turns) limit .init s1 = o at g1 ⊢
    obtain ⟨b, t⟩ := o
    dsimp only at g1
    obtain ⟨q1, q2⟩ := Prod.mk.inj g1
    rw [q2]
    cases b with
    | none => cases q1
    | some b => rw [show b = true from q1]
  rw [e5, method_true (e2.trans (step_true g3))]
  rfl

theorem frame_tracking {x y : α} {s : Proc.State (State π)} (h : Phase P (settled (tracking x)) (· = some true) s) {images : Cli.FrameImages} (hi : goes x images y) :
    ∃ s', (process (world P env out turns) limit).frame images s = (true, s') ∧ Phase P (asked y) (· = some true) s' :=
  frame_to limit (H.alive.2.1 x) (H.up.2.1 x) (fun c p hc => H.frame x y c p images hc hi) h

theorem wait_asked {x : α} {s : Proc.State (State π)} (h : Phase P (asked x) (· = some true) s) :
    ∃ s', (process (world P env out turns) limit).wait s = (.state (some (answer x)), s') ∧ Phase P (settled (tracking x)) (· = some true) s' := by
  obtain ⟨h1, ⟨c, p, h2, h3, h5⟩, h6, h7⟩ := h
  obtain ⟨p', text, w, c', e1, e2, e3, e4, e5, e6, e7⟩ := H.wait x c _ p h5
  have hready := ready_up (P := P) (env := env) (out := out) (turns := turns) h1 (c := c) h2 (H.alive.2.2 x c _ p h5)
  obtain ⟨s', m, m', g1, g2, g3, g4⟩ := exchange_up (P := P) (env := env) (out := out) (turns := turns) (s := s) h1 limit .wait 5 (by decide)
    (fun v => { v with client := some c', peer := some p', passed := c.stream.out.sent.length, answer := some (answer x) }) (fun _ => ⟨p', rfl, H.up.2.1 x c' p' e7⟩) (by
      intro m
      show State.waits P env _ = _
      unfold State.waits
      dsimp only
      rw [h2, h3]
      dsimp only
      rw [e1]
      dsimp only
      have : Cpp.clientWaitRegion env (some { c with stream := { c.stream with input := c.stream.input ++ text.map InEv.byte } }) none Properties.create = .ok w := e2
      rw [this]
      dsimp only
      rw [e3, e4, e5])
  have hstep : Proc.step (world P env out turns) limit s .wait = .ok (.value true, s') := by
    unfold Proc.step
    dsimp only
    unfold Proc.go
    rw [hready, Outcome.bind_ok]
    dsimp only
    rw [if_pos rfl, h6]
    exact g1
  refine ⟨s', ?_, g2, ⟨c', p', by rw [g4], by rw [g4], by rw [g4, e6], e7⟩, g3, by rw [g4]; exact h7⟩
  show (match method (world P env out turns) limit .wait s with
    | (some true, s) => (Cli.Answer.state s.world.answer, s)
    | (some false, s) => (.no, s)
    | (none, s) => (.thrown, s)) = _
  unfold method
  rw [hstep]
  dsimp only
  rw [g4]

end

end Link

end Trax
