import Verif.Lemmas.MortalRun
import Verif.Props.BrokenRun
import Verif.Spec.MortalRun

/-!
# C167: a tracker whose process ends between two requests
-/

namespace Trax
open Spec Handle Trax.Cli Trax.Cli.Spec

namespace Loop
variable {τ : Type}

/-- An update that is answered comes from a tracker that lives. -/
theorem goes_mortal {T : Tracker τ} {gone : τ → Bool} {m : Metadata} {x : Step τ × Region} {i : FrameImages} {y : Step τ × Region} (h : Goes (Cli.Spec.mortal T gone) m x i y) :
    gone x.1.state = false ∧ Goes T m x i y := by
  obtain ⟨h1, l, h2, h3⟩ := h
  cases hx : gone x.1.state with
  | false =>
    refine ⟨rfl, h1, l, h2, ?_⟩
    rw [← h3]
    show _ = if gone x.1.state then _ else T.update x.1.state l (Properties.ofPairs [])
    rw [hx]
    rfl
  | true =>
    exfalso
    have h4 : y.1.fate = .crashes := by
      rw [← h3]
      show (if gone x.1.state then _ else T.update x.1.state l (Properties.ofPairs [])).fate = _
      rw [hx]
      rfl
    rw [h1.1] at h4
    cases h4

/-- The run goes on in the same way. -/
theorem course_mortal {σ : Type} {W : World σ} {c : Opt.Settings} {q : Sequence} {env : Env} {m : Metadata} {T : Tracker τ} {gone : τ → Bool} {kvs : List (Str × Str)} {n f : Nat}
    {last mode : Mode (Step τ × Region)} {es : List (Option Region)} {ts : List (Option Nat)}
    (h : Course W c q (Link.about m) (Starts env (Cli.Spec.mortal T gone) m kvs) (Goes (Cli.Spec.mortal T gone) m) Prod.snd n last f mode es ts) :
    Course W c q (Link.about m) (Starts env T m kvs) (fun x i y => gone x.1.state = false ∧ Goes T m x i y) Prod.snd n last f mode es ts := by
  induction h with
  | done => exact .done
  | stopped h1 _ ih => exact .stopped h1 ih
  | pass h1 _ ih => exact .pass h1 ih
  | skip h1 h2 _ ih => exact .skip h1 h2 ih
  | begin h1 h2 h3 h4 h5 _ ih => exact .begin h1 h2 h3 h4 h5 ih
  | beginFailed h1 h2 h3 h4 h5 _ ih => exact .beginFailed h1 h2 h3 h4 h5 ih
  | go h1 h2 h3 h4 _ ih => exact .go h1 h2 (goes_mortal h3) h4 ih
  | goFailed h1 h2 h3 h4 _ ih => exact .goFailed h1 h2 (goes_mortal h3) h4 ih

end Loop

/-- **C167 for runs that come to their end.** The process of a tracker can end after any answer. As long as it does not do so with more frames to track, nothing is different from the run of
C153: the result has a line for every frame, and the program ends well. That is also so if the process ends after the answer for the last frame, or after an answer that counts as a failure: then another process is started
in its place as always. It does not matter when the operating system tells that the process has ended, or what the watchdog does. Missing from the full claim: what C153 leaves out. -/
theorem C167_finished_partial {τ : Type} (W : World (Proc.State (Link.State (Option (Option (Loop.Program τ)))))) (argv : List Str) (c : Opt.Settings) (command : Str) (q : Sequence)
    (ls ts : List Str) (final : Status τ) (kvs custom : List (Str × Str))
    -- the tracker, and when its process ends
    (T : Loop.Tracker τ) (gone : τ → Bool) (m : Metadata) (env senv : Env) (shared limit : Bool) (junk : UInt32) (stream : Stream) (report told : Nat → Proc.Poll) (out : Writer) (turns : Nat → Bool)
    (hW : W.process = Link.process (Link.world (Link.mortal (Loop.peer senv T shared m junk stream report) (Loop.over gone) told) env out turns) limit)
    (hstart : W.start command c.environment c.timeout c.connection c.verbosity = some (Proc.State.fresh {}))
    (hm : Introducible m custom 4) (hsuit : Suits m) (hin : stream.input = []) (hout : stream.out.Reliable) (hco : out.Reliable)
    -- the sequence
    (hs : Opt.cliStart argv = .ok (.go c command)) (hq : c.query = false) (hg : Given W.read c q) (hl : q.frames ≤ q.initialization.length) (hpos : 0 < q.frames)
    (hrows : ∀ row ∈ q.rows, Pictured m.channels row) (hk : c.properties = Properties.ofPairs kvs) (hkv : SendablePairs kvs)
    (hb : isTrue (W.getenv b!"TRAX_BOUNDED_OVERLAP") = false) (hw : W.writable c.output = true)
    -- the run
    (h : Supervised W c q env m (Cli.Spec.mortal T gone) q.frames final 0 (.waiting 0) ls ts) :
    ∃ e t, cliMain W argv = .ok e ∧ e.status = 0 ∧ e.tracker = some t ∧ t.world.broken = false ∧
      e.written = (c.output, lines ls) :: (if c.timing ≠ [] ∧ ts ≠ [] ∧ W.writable c.timing = true then [(c.timing, lines ts)] else []) := by
  have H := Loop.serves_joined senv env T shared m junk stream report out kvs hm (hm.channels).1 hin hout hco hkv
  have hdead := Loop.over_tracking (τ := τ) m gone
  obtain ⟨b, t1, hq1, hq2⟩ := Link.query_new (turns := turns) (Link.serves_live (dead := fun x => gone x.1.state) (report := told) H hdead) limit
  have hP := Link.phased_mortal (turns := turns) (dead := fun x => gone x.1.state) (report := told) H hdead limit
  rw [← hk, ← hW] at hP
  obtain ⟨last, es, ts', -, h1, h2, h3⟩ := Loop.course_supervised hsuit hrows hk h (.idle 0) rfl
  obtain ⟨e, t, e1, e2, e3, e4, e5⟩ := phased_main W argv c command q hP hs hq hg hl hpos hstart (by rw [hW]; exact hq1) hq2 hb (Loop.course_mortal h1) h2 hw
  refine ⟨e, t, e1, e2, e3, e4, ?_⟩
  rw [e5, ← h3]
  simp

/-- **C167 for runs that do not.** If the process of the tracker has ended after an answer and there is another frame to track, the program ends with the status of an error and writes no
result: after any number of frames and failures, whenever the operating system tells that the process has ended (be it never), and whatever the watchdog does. Missing from the full claim: what C153 leaves out, and requests that cannot be
written because nobody reads them. -/
theorem C167_died_partial {τ : Type} (W : World (Proc.State (Link.State (Option (Option (Loop.Program τ)))))) (argv : List Str) (c : Opt.Settings) (command : Str) (q : Sequence)
    (n : Nat) (ls ts : List Str) (state : τ) (kvs custom : List (Str × Str))
    -- the tracker, and when its process ends
    (T : Loop.Tracker τ) (gone : τ → Bool) (m : Metadata) (env senv : Env) (shared limit : Bool) (junk : UInt32) (stream : Stream) (report told : Nat → Proc.Poll) (out : Writer) (turns : Nat → Bool)
    (hW : W.process = Link.process (Link.world (Link.mortal (Loop.peer senv T shared m junk stream report) (Loop.over gone) told) env out turns) limit)
    (hstart : W.start command c.environment c.timeout c.connection c.verbosity = some (Proc.State.fresh {}))
    (hm : Introducible m custom 4) (hsuit : Suits m) (hin : stream.input = []) (hout : stream.out.Reliable) (hco : out.Reliable)
    -- the sequence
    (hs : Opt.cliStart argv = .ok (.go c command)) (hq : c.query = false) (hg : Given W.read c q) (hl : q.frames ≤ q.initialization.length)
    (hrows : ∀ row ∈ q.rows, Pictured m.channels row) (hk : c.properties = Properties.ofPairs kvs) (hkv : SendablePairs kvs)
    (hb : isTrue (W.getenv b!"TRAX_BOUNDED_OVERLAP") = false)
    -- the run
    (h : Supervised W c q env m (Cli.Spec.mortal T gone) n (.working state) 0 (.waiting 0) ls ts) (hn : n < q.frames) (hgone : gone state = true) :
    ∃ e, cliMain W argv = .ok e ∧ e.status = -1 ∧ e.written = [] := by
  have H := Loop.serves_joined senv env T shared m junk stream report out kvs hm (hm.channels).1 hin hout hco hkv
  have hdead := Loop.over_tracking (τ := τ) m gone
  obtain ⟨b, t1, hq1, hq2⟩ := Link.query_new (turns := turns) (Link.serves_live (dead := fun x => gone x.1.state) (report := told) H hdead) limit
  have hP := Link.phased_mortal (turns := turns) (dead := fun x => gone x.1.state) (report := told) H hdead limit
  have hE := Link.ends_mortal (turns := turns) (gone := Loop.over gone) (dead := fun x => gone x.1.state) (report := told) H limit (Loop.unanswered senv env T m (hm.channels).1)
  rw [← hk, ← hW] at hP hE
  obtain ⟨last, es, ts', h0, h1, -, -⟩ := Loop.course_supervised hsuit hrows hk h (.idle 0) rfl
  obtain ⟨l, l1, l2⟩ := Loop.images_loaded W.read hsuit (hrows _ (Link.row_mem hn))
  cases last with
  | idle k => exact h0.elim
  | stopped => exact h0.elim
  | tracking y =>
    have hy : gone y.1.state = true := by rw [show y.1.state = state from h0]; exact hgone
    exact ⟨_, broken_main W argv c command q hP hE hs hq hg hl hstart (by rw [hW]; exact hq1) hq2 hb (Loop.course_mortal h1) hn l1 (.inr ⟨y, rfl, hy, _, l2⟩), rfl, rfl⟩

/-- **C167 for the tracker of the project's tests.** It answers `break_time` requests (5 if there is no such property, at least one) with the region that it was initialized with, and ends with a signal. If the sequence has no more
frames than that, the result is complete and the program ends well; otherwise the program ends with the status of an error and writes nothing. -/
theorem C167_countdown_partial (W : World (Proc.State (Link.State (Option (Option (Loop.Program Loop.Countdown)))))) (argv : List Str) (c : Opt.Settings) (command : Str) (q : Sequence)
    (r start y : Region) (text : Str) (time : Int) (kvs custom : List (Str × Str))
    -- the tracker
    (m : Metadata) (env senv : Env) (shared limit : Bool) (junk : UInt32) (stream : Stream) (report : Nat → Proc.Poll) (out : Writer) (turns : Nat → Bool)
    (hW : W.process = Link.process (Link.world (Loop.badPeer senv shared m junk stream report) env out turns) limit)
    (hstart : W.start command c.environment c.timeout c.connection c.verbosity = some (Proc.State.fresh {}))
    (hm : Introducible m custom 4) (hsuit : Suits m) (hin : stream.input = []) (hout : stream.out.Reliable) (hco : out.Reliable)
    -- the sequence
    (hs : Opt.cliStart argv = .ok (.go c command)) (hq : c.query = false) (hg : Given W.read c q) (hl : q.frames ≤ q.initialization.length) (hpos : 0 < q.frames)
    (hr : q.initialization[0]? = some (some r)) (hrows : ∀ row ∈ q.rows, Pictured m.channels row)
    (hk : c.properties = Properties.ofPairs kvs) (hkv : SendablePairs kvs) (htime : (Properties.ofPairs kvs).getInt b!"break_time" 5 = .ok time)
    (hoff : Offered env m r start) (hsend : Sendable start) (htext : start.string = .ok (some text)) (hy : Reads text y)
    -- no failure
    (hb : isTrue (W.getenv b!"TRAX_BOUNDED_OVERLAP") = false) (ho : ∀ f, f < q.frames → Accepted W c q f (some y)) (hw : W.writable c.output = true) :
    ∃ e, cliMain W argv = .ok e ∧
      ((q.frames : Int) ≤ max time 1 → e.status = 0 ∧ e.written = (c.output, lines (b!"1" :: List.replicate (q.frames - 1) text)) ::
        (if c.timing ≠ [] ∧ W.writable c.timing = true then [(c.timing, lines ((List.range q.frames).map W.clock))] else [])) ∧
      (max time 1 < (q.frames : Int) → e.status = -1 ∧ e.written = []) := by
  have nothing : Chatter [] := ⟨[], by simp, rfl⟩
  have rep : ∀ s : Loop.Countdown, Reported ({ state := s, region := start } : Loop.Step Loop.Countdown) text y := fun s => ⟨rfl, hsend, nothing, nothing, htext, hy⟩
  have hinit : Loop.bad.init start (pictures m.channels (q.rows.getD 0 [])) c.properties = { state := ⟨start, time - 1⟩, region := start } := by
    rw [hk]
    show ({ state := ⟨start, (match (Properties.ofPairs kvs).getInt b!"break_time" 5 with | .ok n => n | _ => 5) - 1⟩, region := start } : Loop.Step Loop.Countdown) = _
    rw [htime]
  have hup : ∀ left : Int, 0 < left → ∀ images props, (Cli.Spec.mortal Loop.bad Loop.Countdown.gone).update ⟨start, left⟩ images props = { state := ⟨start, left - 1⟩, region := start } := by
    intro left hleft images props
    unfold Cli.Spec.mortal
    dsimp only
    rw [if_neg (by simp [Loop.Countdown.gone]; omega)]
    rfl
  have rest : ∀ n f, f + 1 + n ≤ q.frames → ((f + n : Nat) : Int) < max time 1 →
      Supervised W c q env m (Cli.Spec.mortal Loop.bad Loop.Countdown.gone) (f + 1 + n) (.working ⟨start, time - 1 - (f + n : Nat)⟩) (f + 1) (.working ⟨start, time - 1 - (f : Nat)⟩)
        (List.replicate n text) ((List.range' (f + 1) n).map W.clock) := by
    intro n
    induction n with
    | zero => intro f hf ht; exact .done
    | succ n ih =>
      intro f hf ht
      rw [List.range'_succ]
      have e := ih (f + 1) (by omega) (by omega)
      rw [show f + 1 + 1 + n = f + 1 + (n + 1) by omega, show f + 1 + n = f + (n + 1) by omega] at e
      refine .go (f := f + 1) (x := { state := ⟨start, time - 1 - ((f + 1 : Nat) : Int)⟩, region := start }) (by omega) ?_ (rep _) (ho _ (by omega)) e
      rw [hup _ (by omega)]
      congr 2
      omega
  have run : ∀ n, n + 1 ≤ q.frames → ((n : Nat) : Int) < max time 1 → Supervised W c q env m (Cli.Spec.mortal Loop.bad Loop.Countdown.gone) (n + 1) (.working ⟨start, time - 1 - (n : Nat)⟩) 0 (.waiting 0)
      (b!"1" :: List.replicate n text) (W.clock 0 :: (List.range' 1 n).map W.clock) := by
    intro n hn ht
    have e := rest n 0 (by omega) (by omega)
    rw [show 0 + 1 + n = n + 1 by omega, show 0 + n = n by omega] at e
    exact .begin (x := { state := ⟨start, time - 1 - ((0 : Nat) : Int)⟩, region := start }) hpos hr hoff (by
      refine Eq.trans ?_ hinit.symm
      congr 2; omega) (rep _) (ho 0 hpos) e
  by_cases hlen : (q.frames : Int) ≤ max time 1
  · have h0 := run (q.frames - 1) (by omega) (by omega)
    rw [show q.frames - 1 + 1 = q.frames by omega] at h0
    obtain ⟨e', t, e1, e2, e3, e4, e5⟩ := C167_finished_partial W argv c command q _ _ _ kvs custom Loop.bad Loop.Countdown.gone m env senv shared limit junk stream report report out turns hW hstart hm
      hsuit hin hout hco hs hq hg hl hpos hrows hk hkv hb hw h0
    refine ⟨e', e1, fun _ => ⟨e2, ?_⟩, fun h => by omega⟩
    have e : (List.range q.frames).map W.clock = W.clock 0 :: (List.range' 1 (q.frames - 1)).map W.clock := by
      obtain ⟨n, hn⟩ : ∃ n, q.frames = n + 1 := ⟨q.frames - 1, by omega⟩
      rw [hn, List.range_eq_range', List.range'_succ]
      rfl
    rw [e5, e]
    simp
  · have h0 := run ((max time 1).toNat - 1) (by omega) (by omega)
    rw [show (max time 1).toNat - 1 + 1 = (max time 1).toNat by omega] at h0
    obtain ⟨e', e1, e2, e3⟩ := C167_died_partial W argv c command q _ _ _ _ kvs custom Loop.bad Loop.Countdown.gone m env senv shared limit junk stream report report out turns hW hstart hm
      hsuit hin hout hco hs hq hg hl hrows hk hkv hb h0 (by omega) (by simp only [Loop.Countdown.gone, decide_eq_true_eq]; omega)
    exact ⟨e', e1, fun h => absurd h hlen, fun _ => ⟨e2, e3⟩⟩

/-! ## A concrete case -/

namespace Demo

/-- The tracker of the tests, behind `traxclient`, with the sequence of C153. -/
def broke : World (Proc.State (Link.State (Option (Option (Loop.Program Loop.Countdown))))) where
  getenv := shrunk.getenv
  read := shrunk.read
  writable := shrunk.writable
  fresh := shrunk.fresh
  clock := shrunk.clock
  start _ _ _ _ _ := some (Proc.State.fresh {})
  process := Link.process (Link.world (Loop.badPeer quiet true declared 0 ⟨none, [], unwritten⟩ late) quiet unwritten (fun n => n % 2 == 0)) true

/-- Its command line, with a value for `break_time`. -/
def breaking (time : Str) : List Str := [b!"traxclient", b!"-f", b!"0.5", b!"-r", b!"1", b!"-p", b!"break_time=" ++ time, b!"tracker"]

/-- What that sets. -/
def breakable (time : Str) : Opt.Settings := { Opt.Settings.initial with threshold := .fin false (2 ^ 148), reinitialize := 1, properties := Properties.ofPairs [(b!"break_time", time)] }

/-- The tracker of C153 that finds smaller and smaller squares, and a process that ends after the first answer that is too small. -/
def fading : World (Proc.State (Link.State (Option (Option (Loop.Program Nat))))) where
  getenv := shrunk.getenv
  read := shrunk.read
  writable := shrunk.writable
  fresh := shrunk.fresh
  clock := shrunk.clock
  start _ _ _ _ _ := some (Proc.State.fresh {})
  process := Link.process (Link.world (Link.mortal (Loop.peer quiet shrinking true declared 0 ⟨none, [], unwritten⟩ (fun _ => .running)) (Loop.over (· == 2)) late) quiet unwritten
    (fun n => n % 2 == 0)) true

end Demo

/-- The runs of the model itself. -/
example : ((cliMain Demo.broke (Demo.breaking b!"5")).map fun e => (e.status, e.written)) =
    .ok (0, [(b!"output.txt", lines (b!"1" :: List.replicate 4 b!"0.0000,0.0000,4.0000,4.0000"))]) := by decide +kernel
example : ((cliMain Demo.broke (Demo.breaking b!"4")).map fun e => (e.status, e.written)) = .ok (-1, []) := by decide +kernel
example : ((cliMain Demo.broke (Demo.breaking b!"0")).map fun e => (e.status, e.written)) = .ok (-1, []) := by decide +kernel
example : ((cliMain Demo.fading Demo.supervising).map fun e => (e.status, e.written)) =
    .ok (0, [(b!"output.txt", lines Demo.recorded), (b!"times.txt", lines Demo.times)]) := by decide +kernel

/-- The theorem for the first three of them. -/
example (time : Str) (h : time = b!"5" ∨ time = b!"4" ∨ time = b!"0") : ∃ e, cliMain Demo.broke (Demo.breaking time) = .ok e ∧
    (time = b!"5" → e.status = 0) ∧ (time ≠ b!"5" → e.status = -1) := by
  have hm : Introducible Demo.declared [] 4 :=
    ⟨by decide, (by decide : (2 : UInt32) &&& 14 = 2), (by decide : (1 : UInt32) &&& 15 = 1), by decide, fun h => absurd h (by decide), by rintro s (h | h | h) <;> cases h <;> decide, rfl, by decide⟩
  have rows : ∀ row ∈ Demo.five.rows, Pictured Demo.declared.channels row := by
    intro row hrow
    simp only [Demo.five, List.mem_cons, List.not_mem_nil, or_false] at hrow
    refine ⟨fun _ => ?_, fun h => absurd rfl h, fun h => absurd rfl h⟩
    rcases hrow with rfl | rfl | rfl | rfl | rfl <;> exact ⟨by decide, by decide⟩
  have sendable : Sendable (Demo.square 4) := by constructor <;> decide +kernel
  have offered : Offered Demo.quiet Demo.declared (Demo.square 4) (Demo.square 4) :=
    ⟨sendable, Demo.square 4, b!"0.0000,0.0000,4.0000,4.0000", by decide +kernel, sendable, by decide +kernel, by show _ = _; decide +kernel⟩
  have accepted : ∀ (time : Str) (f : Nat), f < 5 → Accepted Demo.broke (Demo.breakable time) Demo.five f (some (Demo.square 4)) := by
    intro time f hf
    have e : Demo.five.groundtruth[f]?.join = some (Demo.square 4) := by
      match f, hf with
      | 0, _ | 1, _ | 2, _ | 3, _ | 4, _ => rfl
    have hle : ¬ Flt.le (.fin false (2 ^ 149)) (.fin false (2 ^ 148)) = true := by decide +kernel
    refine ⟨.fin false (2 ^ 149), ⟨Bounds.none, fun _ => rfl, ?_⟩, fun h => absurd h.2 hle⟩
    rw [e]
    exact (by decide +kernel : Region.apiOverlap false (fun n => List.replicate n 0) (some (Demo.square 4)) (some (Demo.square 4)) Bounds.none = .ok (.fin false (2 ^ 149)))
  have given : ∀ time, Given Demo.shrunk.read (Demo.breakable time) Demo.five := fun time =>
    ⟨⟨b!"a\nb\nc\nd\ne\n", rfl, by decide +kernel⟩, Or.inl ⟨b!"0,0,4,4\n0,0,4,4\n0,0,4,4\n0,0,4,4\n0,0,4,4\n", rfl, by decide +kernel⟩, Or.inl ⟨rfl, rfl⟩⟩
  have text : (Demo.square 4).string = .ok (some b!"0.0000,0.0000,4.0000,4.0000") := by decide +kernel
  have reads : Region.parse b!"0.0000,0.0000,4.0000,4.0000" = .ok ⟨1, some (Demo.square 4), 0⟩ := by decide +kernel
  have all := fun (time : Str) (n : Int) h1 h2 h3 => C167_countdown_partial Demo.broke (Demo.breaking time) (Demo.breakable time) b!" \"tracker\" " Demo.five (Demo.square 4) (Demo.square 4) (Demo.square 4)
    _ n [(b!"break_time", time)] [] Demo.declared Demo.quiet Demo.quiet true true 0 ⟨none, [], Demo.unwritten⟩ Demo.late Demo.unwritten (fun n => n % 2 == 0) rfl rfl hm (by unfold Suits; decide) rfl
    (by decide) (by decide) h1 rfl (given time) (by decide +kernel) (by decide +kernel) rfl rows rfl h2 h3 offered sendable text reads rfl (accepted time) rfl
  rcases h with rfl | rfl | rfl
  · obtain ⟨e, h1, h2, h3⟩ := all b!"5" 5 (by decide +kernel) (by decide +kernel) (by decide +kernel)
    exact ⟨e, h1, fun _ => (h2 (by decide)).1, fun h => absurd rfl h⟩
  · obtain ⟨e, h1, h2, h3⟩ := all b!"4" 4 (by decide +kernel) (by decide +kernel) (by decide +kernel)
    exact ⟨e, h1, fun h => absurd h (by decide), fun _ => (h3 (by decide)).1⟩
  · obtain ⟨e, h1, h2, h3⟩ := all b!"0" 0 (by decide +kernel) (by decide +kernel) (by decide +kernel)
    exact ⟨e, h1, fun h => absurd h (by decide), fun _ => (h3 (by decide)).1⟩

end Trax
