import Verif.Lemmas.BrokenRun
import Verif.Props.LoopRun

/-!
# C154: a tracker that ends the session, and a tracker that crashes
-/

namespace Trax
open Spec Handle Trax.Cli Trax.Cli.Spec

/-- A run that does not come to its end. -/
theorem Loop.run_breaks {τ : Type} (W : World (Proc.State (Link.State (Option (Loop.Program τ))))) (argv : List Str) (c : Opt.Settings) (command : Str) (q : Sequence)
    (n : Nat) (ls ts : List Str) (final : Status τ) (x : Loop.Step τ) (kvs custom : List (Str × Str))
    (T : Loop.Tracker τ) (m : Metadata) (env senv : Env) (shared limit : Bool) (junk : UInt32) (stream : Stream) (report : Nat → Proc.Poll) (out : Writer) (turns : Nat → Bool)
    (hW : W.process = Link.process (Link.world (Loop.peer senv T shared m junk stream report) env out turns) limit)
    (hstart : W.start command c.environment c.timeout c.connection c.verbosity = some (Proc.State.fresh {}))
    (hm : Introducible m custom 4) (hsuit : Suits m) (hin : stream.input = []) (hout : stream.out.Reliable) (hco : out.Reliable)
    (hs : Opt.cliStart argv = .ok (.go c command)) (hq : c.query = false) (hg : Given W.read c q) (hl : q.frames ≤ q.initialization.length)
    (hrows : ∀ row ∈ q.rows, Pictured m.channels row) (hk : c.properties = Properties.ofPairs kvs) (hkv : SendablePairs kvs)
    (hb : isTrue (W.getenv b!"TRAX_BOUNDED_OVERLAP") = false)
    (h : Supervised W c q env m T n final 0 (.waiting 0) ls ts) (hn : n < q.frames) (hx : Due c q env m T n final x) (hbefore : Chatter x.before)
    (hfate : x.fate = .leaves ∨ (x.fate = .crashes ∧ (final = .waiting 0 → ∀ k, report k ≠ .running))) :
    cliMain W argv = .ok (failed W) := by
  have H := Loop.serves_joined senv env T shared m junk stream report out kvs hm (hm.channels).1 hin hout hco hkv
  obtain ⟨b, t1, hq1, hq2⟩ := Link.query_new (turns := turns) H limit
  have hP := Link.phased_static (turns := turns) H limit
  have hE := Link.ends_fails (out := out) (turns := turns) (Loop.fails_last senv env T shared m junk stream report kvs (hm.channels).1 hkv)
    (fun c p h => ⟨H.alive.1 c p h, H.up.1 c p h⟩) (fun x c p h => ⟨H.alive.2.1 x c p h, H.up.2.1 x c p h⟩) limit
  rw [← hk, ← hW] at hP hE
  obtain ⟨last, es, ts', h0, h1, -, -⟩ := Loop.course_supervised hsuit hrows hk h (.idle 0) rfl
  obtain ⟨l, l1, l2⟩ := Loop.images_loaded W.read hsuit (hrows _ (Link.row_mem hn))
  have hnoise : Noise x.before := by
    obtain ⟨ls, h2, h3⟩ := hbefore
    exact ⟨ls, h2, h3⟩
  refine broken_main W argv c command q hP hE hs hq hg hl hstart (by rw [hW]; exact hq1) hq2 hb h1 hn l1 ?_
  have hcases : (final = .waiting 0 ∧ last = .idle 0) ∨ ∃ y : Loop.Step τ × Region, final = .working y.1.state ∧ last = .tracking y := by
    cases final with
    | over => exact hx.elim
    | waiting k =>
      cases k with
      | succ k => exact hx.elim
      | zero =>
        cases last with
        | idle k => exact .inl ⟨rfl, by rw [show k = 0 from h0.symm]⟩
        | tracking y => exact h0.elim
        | stopped => exact h0.elim
    | working u =>
      cases last with
      | idle k => exact h0.elim
      | tracking y => exact .inr ⟨y, by rw [show y.1.state = u from h0], rfl⟩
      | stopped => exact h0.elim
  rcases hcases with ⟨rfl, rfl⟩ | ⟨y, rfl, rfl⟩
  · obtain ⟨r, start, i1, ⟨o1, sent, st, o2, o3, o4, o5⟩, i3⟩ := hx
    rw [hk] at i3
    refine .inl ⟨rfl, r, i1, x, ⟨hnoise, ?_⟩, o1, sent, st, start, _, o2, (Loop.comes o3 o4 o5).1, l2, i3.symm⟩
    rcases hfate with hfate | ⟨h1, h2⟩
    · exact .inl hfate
    · exact .inr ⟨h1, fun _ => h2 rfl⟩
  · refine .inr ⟨y, rfl, x, ⟨hnoise, ?_⟩, _, l2, Eq.symm hx⟩
    rcases hfate with hfate | ⟨h1, h2⟩
    · exact .inl hfate
    · exact .inr ⟨h1, fun h => nomatch h⟩

/-- **C154 does not hold: a tracker that asks to end the session is taken for one that has crashed.** Whenever the tracker leaves its loop with `quit` in place of an answer, be it
to the initialization or to any other frame, after any number of frames and failures, `traxclient` ends with the status of an error and writes no result. -/
theorem C154_quit_false {τ : Type} (W : World (Proc.State (Link.State (Option (Loop.Program τ))))) (argv : List Str) (c : Opt.Settings) (command : Str) (q : Sequence)
    (n : Nat) (ls ts : List Str) (final : Status τ) (x : Loop.Step τ) (kvs custom : List (Str × Str))
    -- the tracker
    (T : Loop.Tracker τ) (m : Metadata) (env senv : Env) (shared limit : Bool) (junk : UInt32) (stream : Stream) (report : Nat → Proc.Poll) (out : Writer) (turns : Nat → Bool)
    (hW : W.process = Link.process (Link.world (Loop.peer senv T shared m junk stream report) env out turns) limit)
    (hstart : W.start command c.environment c.timeout c.connection c.verbosity = some (Proc.State.fresh {}))
    (hm : Introducible m custom 4) (hsuit : Suits m) (hin : stream.input = []) (hout : stream.out.Reliable) (hco : out.Reliable)
    -- the sequence
    (hs : Opt.cliStart argv = .ok (.go c command)) (hq : c.query = false) (hg : Given W.read c q) (hl : q.frames ≤ q.initialization.length)
    (hrows : ∀ row ∈ q.rows, Pictured m.channels row) (hk : c.properties = Properties.ofPairs kvs) (hkv : SendablePairs kvs)
    (hb : isTrue (W.getenv b!"TRAX_BOUNDED_OVERLAP") = false)
    -- the run
    (h : Supervised W c q env m T n final 0 (.waiting 0) ls ts) (hn : n < q.frames) (hx : Due c q env m T n final x) (hbefore : Chatter x.before) (hfate : x.fate = .leaves) :
    ∃ e, cliMain W argv = .ok e ∧ e.status = -1 ∧ e.written = [] :=
  ⟨_, Loop.run_breaks W argv c command q n ls ts final x kvs custom T m env senv shared limit junk stream report out turns hW hstart hm hsuit hin hout hco hs hq hg hl hrows hk hkv hb h hn hx
    hbefore (.inl hfate), rfl, rfl⟩

/-- **C154 for crashes.** When the tracker crashes in place of an answer, `traxclient` ends with the status of an error and writes no result: after any number of frames and failures,
whenever the operating system tells about the crash if the tracker has answered before since it was started, and otherwise if the operating system tells about it at once. Missing from
the full claim: the first request with a late report (C154_crash_false), and what C153 leaves out. -/
theorem C154_crash_partial {τ : Type} (W : World (Proc.State (Link.State (Option (Loop.Program τ))))) (argv : List Str) (c : Opt.Settings) (command : Str) (q : Sequence)
    (n : Nat) (ls ts : List Str) (final : Status τ) (x : Loop.Step τ) (kvs custom : List (Str × Str))
    -- the tracker
    (T : Loop.Tracker τ) (m : Metadata) (env senv : Env) (shared limit : Bool) (junk : UInt32) (stream : Stream) (report : Nat → Proc.Poll) (out : Writer) (turns : Nat → Bool)
    (hW : W.process = Link.process (Link.world (Loop.peer senv T shared m junk stream report) env out turns) limit)
    (hstart : W.start command c.environment c.timeout c.connection c.verbosity = some (Proc.State.fresh {}))
    (hm : Introducible m custom 4) (hsuit : Suits m) (hin : stream.input = []) (hout : stream.out.Reliable) (hco : out.Reliable)
    -- the sequence
    (hs : Opt.cliStart argv = .ok (.go c command)) (hq : c.query = false) (hg : Given W.read c q) (hl : q.frames ≤ q.initialization.length)
    (hrows : ∀ row ∈ q.rows, Pictured m.channels row) (hk : c.properties = Properties.ofPairs kvs) (hkv : SendablePairs kvs)
    (hb : isTrue (W.getenv b!"TRAX_BOUNDED_OVERLAP") = false)
    -- the run
    (h : Supervised W c q env m T n final 0 (.waiting 0) ls ts) (hn : n < q.frames) (hx : Due c q env m T n final x) (hbefore : Chatter x.before) (hfate : x.fate = .crashes)
    (hreport : final = .waiting 0 → ∀ moment, report moment ≠ .running) :
    ∃ e, cliMain W argv = .ok e ∧ e.status = -1 ∧ e.written = [] :=
  ⟨_, Loop.run_breaks W argv c command q n ls ts final x kvs custom T m env senv shared limit junk stream report out turns hW hstart hm hsuit hin hout hco hs hq hg hl hrows hk hkv hb h hn hx
    hbefore (.inr ⟨hfate, hreport⟩), rfl, rfl⟩

/-- **C154 for `ready`.** Whatever the tracker is, `ready` is only true as long as the client has not been told of the end of the session, and has not ended it: so that it cannot tell of an end
that was asked for. -/
theorem C154_ready_false {π : Type} (P : Link.Peer π) (env : Env) (out : Writer) (turns : Nat → Bool) (limit : Bool) (s : Proc.State (Link.State π)) (c : Handle)
    (hc : s.world.client = some c) (hend : c.terminated = true) : ((Link.process (Link.world P env out turns) limit).ready s).1 = false :=
  Link.ready_down (.inr ⟨c, hc, by simp [Handle.isAlive, Handle.alive, hend]⟩) limit

/-! ## Concrete cases -/

namespace Demo

/-- The tracker of C153, which ends in one way or another: in the initialization, or in the second update. -/
def ending (first : Bool) (fate : Loop.Fate) : Loop.Tracker Nat where
  init _ _ _ := { state := 0, region := square 4, before := b!"hello\n", fate := if first then fate else .answers }
  update n _ _ := { state := n + 1, region := square 4, before := b!"frame\n", fate := if n = 1 then fate else .answers }

/-- It, behind `traxclient`. -/
def ended (first : Bool) (fate : Loop.Fate) (report : Nat → Proc.Poll) : World (Proc.State (Link.State (Option (Loop.Program Nat)))) where
  getenv := shrunk.getenv
  read := shrunk.read
  writable := shrunk.writable
  fresh := shrunk.fresh
  clock := shrunk.clock
  start := shrunk.start
  process := Link.process (Link.world (Loop.peer quiet (ending first fate) true declared 0 ⟨none, [], unwritten⟩ report) quiet unwritten (fun n => n % 2 == 0)) true

/-- The operating system tells late that the process was ended by the signal 11. -/
def late : Nat → Proc.Poll := fun moment => if moment < 50 then .running else .signalled 11

end Demo

/-- **C154 does not hold for the first request.** A tracker crashes in its initialization. If the operating system tells about it late, `traxclient` takes it for one that has asked to end the session
(the end of the input gives the last message again, which is the introduction of the tracker): it ends well, and writes a result with a failure in the first frame. -/
theorem C154_crash_false : ∃ (W : World (Proc.State (Link.State (Option (Loop.Program Nat))))) (argv : List Str) (report : Nat → Proc.Poll),
    W.process = Link.process (Link.world (Loop.peer Demo.quiet (Demo.ending true .crashes) true Demo.declared 0 ⟨none, [], Demo.unwritten⟩ report) Demo.quiet Demo.unwritten
      (fun n => n % 2 == 0)) true ∧ (∃ k, ∀ moment, k ≤ moment → report moment = .signalled 11) ∧
    ((cliMain W argv).map fun e => (e.status, e.written)) = .ok (0, [(b!"output.txt", b!"2\n0\n0\n0\n0\n")]) :=
  ⟨Demo.ended true .crashes Demo.late, [b!"traxclient", b!"tracker"], Demo.late, rfl, ⟨50, fun m h => by unfold Demo.late; rw [if_neg (by omega)]⟩, by decide +kernel⟩

/-- The runs of the model itself, with `quit` and with crashes, in the initialization and in an update. -/
example : ((cliMain (Demo.ended true .leaves Demo.late) Demo.supervising).map fun e => (e.status, e.written)) = .ok (-1, []) := by decide +kernel
example : ((cliMain (Demo.ended false .leaves Demo.late) Demo.supervising).map fun e => (e.status, e.written)) = .ok (-1, []) := by decide +kernel
example : ((cliMain (Demo.ended false .crashes Demo.late) Demo.supervising).map fun e => (e.status, e.written)) = .ok (-1, []) := by decide +kernel
example : ((cliMain (Demo.ended true .crashes (fun _ => .signalled 11)) Demo.supervising).map fun e => (e.status, e.written)) = .ok (-1, []) := by decide +kernel

/-- A run up to the second update. -/
theorem Demo.supervised_ending (fate : Loop.Fate) (report : Nat → Proc.Poll) : Supervised (Demo.ended false fate report) Demo.supervision Demo.five Demo.quiet Demo.declared
    (Demo.ending false fate) 2 (.working 1) 0 (.waiting 0) [b!"1", b!"0.0000,0.0000,4.0000,4.0000"] [b!"0", b!"1"] := by
  have sendable : Sendable (Demo.square 4) := by constructor <;> decide +kernel
  have accepted : ∀ f : Nat, f < 5 → Accepted (Demo.ended false fate report) Demo.supervision Demo.five f (some (Demo.square 4)) := by
    intro f hf
    have e : Demo.five.groundtruth[f]?.join = some (Demo.square 4) := by
      match f, hf with
      | 0, _ | 1, _ | 2, _ | 3, _ | 4, _ => rfl
    refine ⟨.fin false (2 ^ 149), ⟨Bounds.none, fun _ => rfl, ?_⟩, fun h => absurd h.2 (by decide +kernel)⟩
    rw [e]
    exact (by decide +kernel : Region.apiOverlap false (fun n => List.replicate n 0) (some (Demo.square 4)) (some (Demo.square 4)) Bounds.none = .ok (.fin false (2 ^ 149)))
  have offered : Offered Demo.quiet Demo.declared (Demo.square 4) (Demo.square 4) :=
    ⟨sendable, Demo.square 4, b!"0.0000,0.0000,4.0000,4.0000", by decide +kernel, sendable, by decide +kernel, by show _ = _; decide +kernel⟩
  have hello : Chatter b!"hello\n" := ⟨[b!"hello"], by simp only [List.mem_singleton, forall_eq]; decide, rfl⟩
  have frame : Chatter b!"frame\n" := ⟨[b!"frame"], by simp only [List.mem_singleton, forall_eq]; decide, rfl⟩
  have nothing : Chatter [] := ⟨[], by simp, rfl⟩
  have text : (Demo.square 4).string = .ok (some b!"0.0000,0.0000,4.0000,4.0000") := by decide +kernel
  have reads : Region.parse b!"0.0000,0.0000,4.0000,4.0000" = .ok ⟨1, some (Demo.square 4), 0⟩ := by decide +kernel
  refine .begin (by decide) rfl offered rfl ⟨rfl, sendable, hello, nothing, text, reads⟩ (accepted 0 (by decide)) ?_
  refine .go (by decide) rfl ⟨rfl, sendable, frame, nothing, text, reads⟩ (accepted 1 (by decide)) ?_
  exact .done

/-- The theorems for the second of the runs above, and for the third. -/
example (fate : Loop.Fate) (h : fate ≠ .answers) : ∃ e, cliMain (Demo.ended false fate Demo.late) Demo.supervising = .ok e ∧ e.status = -1 ∧ e.written = [] := by
  have hm : Introducible Demo.declared [] 4 :=
    ⟨by decide, (by decide : (2 : UInt32) &&& 14 = 2), (by decide : (1 : UInt32) &&& 15 = 1), by decide, fun h => absurd h (by decide), by rintro s (h | h | h) <;> cases h <;> decide, rfl, by decide⟩
  have frame : Chatter b!"frame\n" := ⟨[b!"frame"], by simp only [List.mem_singleton, forall_eq]; decide, rfl⟩
  have rows : ∀ row ∈ Demo.five.rows, Pictured Demo.declared.channels row := by
    intro row hrow
    simp only [Demo.five, List.mem_cons, List.not_mem_nil, or_false] at hrow
    refine ⟨fun _ => ?_, fun h => absurd rfl h, fun h => absurd rfl h⟩
    rcases hrow with rfl | rfl | rfl | rfl | rfl <;> exact ⟨by decide, by decide⟩
  have given : Given Demo.shrunk.read Demo.supervision Demo.five :=
    ⟨⟨b!"a\nb\nc\nd\ne\n", rfl, by decide +kernel⟩, Or.inl ⟨b!"0,0,4,4\n0,0,4,4\n0,0,4,4\n0,0,4,4\n0,0,4,4\n", rfl, by decide +kernel⟩, Or.inl ⟨rfl, rfl⟩⟩
  cases fate with
  | answers => exact absurd rfl h
  | leaves =>
    exact C154_quit_false (Demo.ended false .leaves Demo.late) Demo.supervising Demo.supervision b!" \"tracker\" " Demo.five 2 _ _ _ _ [(b!"a", b!"b")] [] (Demo.ending false .leaves)
      Demo.declared Demo.quiet Demo.quiet true true 0 ⟨none, [], Demo.unwritten⟩ Demo.late Demo.unwritten (fun n => n % 2 == 0) rfl rfl hm (by unfold Suits; decide) rfl (by decide) (by decide)
      (by decide +kernel) rfl given (by decide +kernel) rows rfl (by decide +kernel) rfl (Demo.supervised_ending _ _) (by decide) rfl frame rfl
  | crashes =>
    exact C154_crash_partial (Demo.ended false .crashes Demo.late) Demo.supervising Demo.supervision b!" \"tracker\" " Demo.five 2 _ _ _ _ [(b!"a", b!"b")] [] (Demo.ending false .crashes)
      Demo.declared Demo.quiet Demo.quiet true true 0 ⟨none, [], Demo.unwritten⟩ Demo.late Demo.unwritten (fun n => n % 2 == 0) rfl rfl hm (by unfold Suits; decide) rfl (by decide) (by decide)
      (by decide +kernel) rfl given (by decide +kernel) rows rfl (by decide +kernel) rfl (Demo.supervised_ending _ _) (by decide) rfl frame rfl (fun h => nomatch h)

/-- A session that was ended. -/
example : ∃ s : Proc.State (Link.State Unit), ∃ c, s.world.client = some c ∧ c.terminated = true :=
  ⟨Proc.State.fresh { client := some ⟨false, true, 4, 1, .none, Demo.declared, ⟨some .quit, [], Demo.unwritten⟩⟩ }, _, rfl, rfl⟩

end Trax
