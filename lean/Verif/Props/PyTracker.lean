import Verif.Lemmas.PyTracker
import Verif.Props.BrokenRun
import Verif.Lemmas.PyErrors

/-!
# C166: `traxclient` with a tracker written in Python
-/

namespace Trax
open Spec Handle Trax.Cli Trax.Cli.Spec Py.Spec PyLoop.Spec

/-- **C166.** `traxclient` supervises any tracker that is written in Python with the loop of the documentation like any other tracker (C153): the result and the times are those of the run as
the documentation of `traxclient` describes it (`Supervised`), for the tracker whose steps are those of the body of the loop (`like`). The body is entered with a request of the type `initialize`, the
image of the frame and the region of the frame, and then with requests of the type `frame` and the images of the frames that follow, in their order and once with each; the answers are lists with one object and
any properties. That is so for every length of the sequence, every tracker, any other lines that it prints, any properties on the command line, any number of failures, and
whatever the watchdog does. Missing from the full claim: what C153 leaves out, and declarations and dictionaries that are not of 7-bit text (C140, C139). -/
theorem C166_supervised_partial {τ : Type} (W : World (Proc.State (Link.State (Option (PyLoop.Program τ))))) (argv : List Str) (c : Opt.Settings) (command : Str) (q : Sequence)
    (ls ts : List Str) (final : Status (PyLoop.Step τ)) (kvs : List (Str × Str))
    -- the tracker
    (T : PyLoop.Tracker τ) (a : Py.ServerArgs) (env senv : Env) (other : Py.Thrown → Py.Text) (shared limit : Bool) (junk : UInt32) (stream : Stream) (report : Nat → Proc.Poll) (out : Writer)
    (turns : Nat → Bool)
    (hW : W.process = Link.process (Link.world (PyLoop.peer senv other T shared a junk stream report) env out turns) limit)
    (hstart : W.start command c.environment c.timeout c.connection c.verbosity = some (Proc.State.fresh {}))
    (ha : Declarable a) (hsuit : Suits (declaration a)) (hin : stream.input = []) (hout : stream.out.Reliable) (hco : out.Reliable)
    -- the sequence
    (hs : Opt.cliStart argv = .ok (.go c command)) (hq : c.query = false) (hg : Given W.read c q) (hl : q.frames ≤ q.initialization.length) (hpos : 0 < q.frames)
    (hrows : ∀ row ∈ q.rows, Pictured (declaration a).channels row) (hk : c.properties = Properties.ofPairs kvs) (hkv : SendablePairs kvs)
    (hb : isTrue (W.getenv b!"TRAX_BOUNDED_OVERLAP") = false) (hw : W.writable c.output = true)
    -- the run
    (h : Supervised W c q env (declaration a) (like T) q.frames final 0 (.waiting 0) ls ts) :
    ∃ e t, cliMain W argv = .ok e ∧ e.status = 0 ∧ e.tracker = some t ∧ t.world.broken = false ∧
      e.written = (c.output, lines ls) :: (if c.timing ≠ [] ∧ ts ≠ [] ∧ W.writable c.timing = true then [(c.timing, lines ts)] else []) := by
  have H := PyLoop.serves_python senv env other T shared a junk stream report out kvs ha hin hout hco hkv
  obtain ⟨b, t1, hq1, hq2⟩ := Link.query_new (turns := turns) H limit
  have hP := Link.phased_static (turns := turns) H limit
  rw [← hk, ← hW] at hP
  obtain ⟨last, es, ts', -, h1, h2, h3⟩ := Loop.course_supervised hsuit hrows hk h (.idle 0) rfl
  obtain ⟨e, t, e1, e2, e3, e4, e5⟩ := phased_main W argv c command q hP hs hq hg hl hpos hstart (by rw [hW]; exact hq1) hq2 hb h1 h2 hw
  refine ⟨e, t, e1, e2, e3, e4, ?_⟩
  rw [e5, ← h3]
  simp

/-- The end of a run in which the tracker does not answer. -/
theorem PyLoop.run_breaks {τ : Type} (W : World (Proc.State (Link.State (Option (PyLoop.Program τ))))) (argv : List Str) (c : Opt.Settings) (command : Str) (q : Sequence)
    (n : Nat) (ls ts : List Str) (final : Status (PyLoop.Step τ)) (x : Loop.Step (PyLoop.Step τ)) (kvs : List (Str × Str))
    (T : PyLoop.Tracker τ) (a : Py.ServerArgs) (env senv : Env) (other : Py.Thrown → Py.Text) (shared limit : Bool) (junk : UInt32) (stream : Stream) (report : Nat → Proc.Poll) (out : Writer)
    (turns : Nat → Bool)
    (hW : W.process = Link.process (Link.world (PyLoop.peer senv other T shared a junk stream report) env out turns) limit)
    (hstart : W.start command c.environment c.timeout c.connection c.verbosity = some (Proc.State.fresh {}))
    (ha : Declarable a) (hsuit : Suits (declaration a)) (hin : stream.input = []) (hout : stream.out.Reliable) (hco : out.Reliable)
    (hs : Opt.cliStart argv = .ok (.go c command)) (hq : c.query = false) (hg : Given W.read c q) (hl : q.frames ≤ q.initialization.length)
    (hrows : ∀ row ∈ q.rows, Pictured (declaration a).channels row) (hk : c.properties = Properties.ofPairs kvs) (hkv : SendablePairs kvs)
    (hb : isTrue (W.getenv b!"TRAX_BOUNDED_OVERLAP") = false)
    (h : Supervised W c q env (declaration a) (like T) n final 0 (.waiting 0) ls ts) (hn : n < q.frames) (hx : Due c q env (declaration a) (like T) n final x) (hbefore : Chatter x.state.before)
    (hfate : x.state.fate = .leaves ∨ (∃ t, x.state.fate = .raises t ∧ Reason t) ∨ (x.state.fate = .crashes ∧ (final = .waiting 0 → ∀ k, report k ≠ .running))) :
    cliMain W argv = .ok (failed W) := by
  have H := PyLoop.serves_python senv env other T shared a junk stream report out kvs ha hin hout hco hkv
  obtain ⟨b, t1, hq1, hq2⟩ := Link.query_new (turns := turns) H limit
  have hP := Link.phased_static (turns := turns) H limit
  have hE := Link.ends_fails (out := out) (turns := turns) (PyLoop.fails_python senv env other T shared a junk stream report kvs (m := declaration a) (PyLoop.declared ha).2.channels.1 hkv)
    (fun c p h => ⟨H.alive.1 c p h, H.up.1 c p h⟩) (fun x c p h => ⟨H.alive.2.1 x c p h, H.up.2.1 x c p h⟩) limit
  rw [← hk, ← hW] at hP hE
  obtain ⟨last, es, ts', h0, h1, -, -⟩ := Loop.course_supervised hsuit hrows hk h (.idle 0) rfl
  obtain ⟨l, l1, l2⟩ := Loop.images_loaded W.read hsuit (hrows _ (Link.row_mem hn))
  have hnoise : Noise x.state.before := by
    obtain ⟨ls, h2, h3⟩ := hbefore
    exact ⟨ls, h2, h3⟩
  refine broken_main W argv c command q hP hE hs hq hg hl hstart (by rw [hW]; exact hq1) hq2 hb h1 hn l1 ?_
  have hcases : (final = .waiting 0 ∧ last = .idle 0) ∨ ∃ y : Loop.Step (PyLoop.Step τ) × Region, final = .working y.1.state ∧ last = .tracking y := by
    cases final with
    | over => exact hx.elim
    | waiting k =>
      cases k with
      | succ k => exact hx.elim
      | zero =>
        cases last with
        | idle k => exact .inl ⟨rfl, by rw [show k = 0 from h0.symm]⟩
        | tracking y => exact h0.elim
        | stopped => exact h0.elim
    | working u =>
      cases last with
      | idle k => exact h0.elim
      | tracking y => exact .inr ⟨y, by rw [show y.1.state = u from h0], rfl⟩
      | stopped => exact h0.elim
  rcases hcases with ⟨rfl, rfl⟩ | ⟨y, rfl, rfl⟩
  · obtain ⟨r, start, i1, ⟨o1, sent, st, o2, o3, o4, o5⟩, i3⟩ := hx
    rw [hk] at i3
    refine .inl ⟨rfl, r, i1, x, ⟨hnoise, ?_⟩, o1, sent, st, start, _, o2, (Loop.comes o3 o4 o5).1, l2, i3.symm⟩
    rcases hfate with hfate | hfate | ⟨h1, h2⟩
    · exact .inl hfate
    · exact .inr (.inl hfate)
    · exact .inr (.inr ⟨h1, fun _ => h2 rfl⟩)
  · refine .inr ⟨y, rfl, x, ⟨hnoise, ?_⟩, _, l2, Eq.symm hx⟩
    rcases hfate with hfate | hfate | ⟨h1, h2⟩
    · exact .inl hfate
    · exact .inr (.inl hfate)
    · exact .inr (.inr ⟨h1, fun h => nomatch h⟩)

/-- **C166 for exceptions.** When the body of the loop raises an exception, with any text of ASCII characters, `traxclient` ends with the status of an error and writes no result: in the
initialization or an update, after any number of frames and failures, whatever the operating system tells about the process. -/
theorem C166_raises_partial {τ : Type} (W : World (Proc.State (Link.State (Option (PyLoop.Program τ))))) (argv : List Str) (c : Opt.Settings) (command : Str) (q : Sequence)
    (n : Nat) (ls ts : List Str) (final : Status (PyLoop.Step τ)) (x : Loop.Step (PyLoop.Step τ)) (kvs : List (Str × Str))
    -- the tracker
    (T : PyLoop.Tracker τ) (a : Py.ServerArgs) (env senv : Env) (other : Py.Thrown → Py.Text) (shared limit : Bool) (junk : UInt32) (stream : Stream) (report : Nat → Proc.Poll) (out : Writer)
    (turns : Nat → Bool)
    (hW : W.process = Link.process (Link.world (PyLoop.peer senv other T shared a junk stream report) env out turns) limit)
    (hstart : W.start command c.environment c.timeout c.connection c.verbosity = some (Proc.State.fresh {}))
    (ha : Declarable a) (hsuit : Suits (declaration a)) (hin : stream.input = []) (hout : stream.out.Reliable) (hco : out.Reliable)
    -- the sequence
    (hs : Opt.cliStart argv = .ok (.go c command)) (hq : c.query = false) (hg : Given W.read c q) (hl : q.frames ≤ q.initialization.length)
    (hrows : ∀ row ∈ q.rows, Pictured (declaration a).channels row) (hk : c.properties = Properties.ofPairs kvs) (hkv : SendablePairs kvs)
    (hb : isTrue (W.getenv b!"TRAX_BOUNDED_OVERLAP") = false)
    -- the run
    (h : Supervised W c q env (declaration a) (like T) n final 0 (.waiting 0) ls ts) (hn : n < q.frames) (hx : Due c q env (declaration a) (like T) n final x) (hbefore : Chatter x.state.before)
    (text : Py.Text) (hfate : x.state.fate = .raises text) (htext : Reason text) :
    ∃ e, cliMain W argv = .ok e ∧ e.status = -1 ∧ e.written = [] :=
  ⟨_, PyLoop.run_breaks W argv c command q n ls ts final x kvs T a env senv other shared limit junk stream report out turns hW hstart ha hsuit hin hout hco hs hq hg hl hrows hk hkv hb h hn hx
    hbefore (.inr (.inl ⟨text, hfate, htext⟩)), rfl, rfl⟩

/-- **C166 does not hold for trackers that leave the loop**: although the end of the block asks the client to end the session, without an error, `traxclient` ends with the status of an error and
writes no result. -/
theorem C166_quit_false {τ : Type} (W : World (Proc.State (Link.State (Option (PyLoop.Program τ))))) (argv : List Str) (c : Opt.Settings) (command : Str) (q : Sequence)
    (n : Nat) (ls ts : List Str) (final : Status (PyLoop.Step τ)) (x : Loop.Step (PyLoop.Step τ)) (kvs : List (Str × Str))
    -- the tracker
    (T : PyLoop.Tracker τ) (a : Py.ServerArgs) (env senv : Env) (other : Py.Thrown → Py.Text) (shared limit : Bool) (junk : UInt32) (stream : Stream) (report : Nat → Proc.Poll) (out : Writer)
    (turns : Nat → Bool)
    (hW : W.process = Link.process (Link.world (PyLoop.peer senv other T shared a junk stream report) env out turns) limit)
    (hstart : W.start command c.environment c.timeout c.connection c.verbosity = some (Proc.State.fresh {}))
    (ha : Declarable a) (hsuit : Suits (declaration a)) (hin : stream.input = []) (hout : stream.out.Reliable) (hco : out.Reliable)
    -- the sequence
    (hs : Opt.cliStart argv = .ok (.go c command)) (hq : c.query = false) (hg : Given W.read c q) (hl : q.frames ≤ q.initialization.length)
    (hrows : ∀ row ∈ q.rows, Pictured (declaration a).channels row) (hk : c.properties = Properties.ofPairs kvs) (hkv : SendablePairs kvs)
    (hb : isTrue (W.getenv b!"TRAX_BOUNDED_OVERLAP") = false)
    -- the run
    (h : Supervised W c q env (declaration a) (like T) n final 0 (.waiting 0) ls ts) (hn : n < q.frames) (hx : Due c q env (declaration a) (like T) n final x) (hbefore : Chatter x.state.before)
    (hfate : x.state.fate = .leaves) :
    ∃ e, cliMain W argv = .ok e ∧ e.status = -1 ∧ e.written = [] :=
  ⟨_, PyLoop.run_breaks W argv c command q n ls ts final x kvs T a env senv other shared limit junk stream report out turns hW hstart ha hsuit hin hout hco hs hq hg hl hrows hk hkv hb h hn hx
    hbefore (.inl hfate), rfl, rfl⟩

/-! ## The static tracker -/

/-- The time to wait that the command line gives: the last value of the property `time_wait`, or `0`. -/
def PyLoop.Waits (kvs : List (Str × Str)) (text : Py.Text) : Prop :=
  (∀ c ∈ text, c < 128) ∧ (((∀ kv ∈ kvs, kv.1 ≠ b!"time_wait") ∧ text = t!"0") ∨ ∃ l l', kvs = l ++ (b!"time_wait", ascii text) :: l' ∧ ∀ kv ∈ l', kv.1 ≠ b!"time_wait")

/-- A value that is not set again. -/
theorem PyLoop.get_appended {l l' : List (Str × Str)} (h : SendablePairs l') {k : Str} (hn : NoNul k) (hk : ∀ kv ∈ l', kv.1 ≠ k) :
    (Properties.ofPairs (l ++ l')).get k = (Properties.ofPairs l).get k := by
  induction l' using List.reverseRecOn with
  | nil => rw [List.append_nil]
  | append_singleton l' kv ih =>
    have hkv := h kv (by simp)
    rw [← List.append_assoc, Properties.ofPairs, List.foldl_append, List.foldl_cons, List.foldl_nil]
    rw [Properties.get_set (show (List.foldl (fun p kv => p.set kv.1 kv.2) Properties.create (l ++ l')).WF from Properties.wf_ofPairs (l ++ l')), cstr_of_noNul hkv.1.noNul, cstr_of_noNul hn, if_neg (hk kv (by simp))]
    exact ih (fun x hx => h x (by simp [hx])) fun x hx => hk x (by simp [hx])

/-- What the tracker is told of it. -/
theorem PyLoop.wait_text {kvs : List (Str × Str)} (h : SendablePairs kvs) {text : Py.Text} (ht : Waits kvs text) :
    Py.propGet (Properties.ofPairs kvs) t!"time_wait" (some t!"0") = .ok (some text) := by
  have hk : Py.toC t!"time_wait" = .ok b!"time_wait" := by decide +kernel
  unfold Py.propGet
  rw [hk]
  show (match (Properties.ofPairs kvs).get b!"time_wait" with
    | none => Except.ok (some t!"0")
    | some v => (Py.fromC v).bind fun t => Except.ok (some t)) = _
  obtain ⟨h7, ⟨h1, rfl⟩ | ⟨l, l', rfl, h1⟩⟩ := ht
  · have := PyLoop.get_appended (l := []) h (by decide : NoNul b!"time_wait") h1
    rw [List.nil_append, ofPairs_nil, Properties.get_create] at this
    rw [this]
  · have hv := (h _ (by simp : (b!"time_wait", ascii text) ∈ l ++ (b!"time_wait", ascii text) :: l')).2
    rw [List.append_cons, PyLoop.get_appended (fun x hx => h x (by simp [hx])) (by decide) h1]
    rw [Properties.ofPairs, List.foldl_append, List.foldl_cons, List.foldl_nil, Properties.get_set (show (List.foldl (fun p kv => p.set kv.1 kv.2) Properties.create l).WF from Properties.wf_ofPairs l), if_pos rfl, cstr_of_noNul (plain_noNul hv)]
    dsimp only
    rw [Py.fromC_ascii h7]
    rfl

/-- What it declares can be told. -/
theorem PyLoop.static_declarable : Declarable PyLoop.staticArgs := by
  refine ⟨by decide, by decide, by decide, by decide, by decide, by decide, by decide, ⟨by decide, by decide⟩, by decide⟩

/-- The answer of the static tracker: the object of the initialization, after the text `printed`. -/
def PyLoop.staticStep' (start : Region) (printed : Str) : PyLoop.Step (Option (List (Option Region × Py.Dict))) :=
  { state := some [(some start, [])], objects := [(start, [])], before := printed }

theorem PyLoop.likeStep_static (start : Region) (printed : Str) : likeStep (staticStep' start printed) = ⟨staticStep' start printed, start, printed, [], .answers⟩ := by
  unfold likeStep
  rw [if_pos ⟨rfl, ⟨(start, []), rfl, ⟨by simp, by simp⟩⟩, ⟨by simp [staticStep'], by simp [staticStep']⟩⟩]
  rfl

/-- The run of the static tracker, as it is described. -/
theorem PyLoop.supervised_static {σ : Type} (W : World σ) (c : Opt.Settings) (q : Sequence) (env : Env) {r start x : Region} {text line : Str} {wait : Py.Text} {kvs : List (Str × Str)}
    (float : Py.Text → Option Str) (hpos : 0 < q.frames) (hr : q.initialization[0]? = some (some r)) (ho : Offered env (declaration PyLoop.staticArgs) r start) (hs : Sendable start)
    (ht : start.string = .ok (some text)) (hx : Reads text x) (hk : c.properties = Properties.ofPairs kvs) (hkv : SendablePairs kvs) (hwait : PyLoop.Waits kvs wait)
    (hfloat : float wait = some line) (hline : Chatter line) (hacc : ∀ f, f < q.frames → Accepted W c q f (some x)) :
    ∃ final, Supervised W c q env (declaration PyLoop.staticArgs) (like (PyLoop.static float)) q.frames final 0 (.waiting 0) (b!"1" :: List.replicate (q.frames - 1) text)
      ((List.range q.frames).map W.clock) := by
  have nothing : Chatter [] := ⟨[], by simp, rfl⟩
  have tail : ∀ k f, f + k = q.frames → ∀ y : PyLoop.Step (Option (List (Option Region × Py.Dict))), y.state = some [(some start, [])] →
      ∃ final, Supervised W c q env (declaration PyLoop.staticArgs) (like (PyLoop.static float)) q.frames final f (.working y) (List.replicate k text) ((List.range' f k).map W.clock) := by
    intro k
    induction k with
    | zero =>
      intro f hf y _
      obtain rfl : f = q.frames := hf
      exact ⟨_, .done⟩
    | succ k ih =>
      intro f hf y hy
      obtain ⟨final, h⟩ := ih (f + 1) (by omega) (staticStep' start []) rfl
      refine ⟨final, .go (x := ⟨staticStep' start [], start, [], [], .answers⟩) (by omega) ?_ ⟨rfl, hs, nothing, nothing, ht, hx⟩ (hacc f (by omega)) h⟩
      rw [← likeStep_static]
      show likeStep (staticStep' start []) = likeStep (staticStep float y.state (continues (pictures (declaration staticArgs).channels (q.rows.getD f [])) Properties.create))
      rw [hy]
      unfold staticStep
      rw [if_neg (show ¬ (continues (pictures (declaration staticArgs).channels (q.rows.getD f [])) Properties.create).type = t!"initialize" from (by decide : ¬ t!"frame" = t!"initialize"))]
      rfl
  obtain ⟨final, h⟩ := tail (q.frames - 1) 1 (by omega) (staticStep' start line) rfl
  refine ⟨final, ?_⟩
  have he : (List.range q.frames).map W.clock = W.clock 0 :: (List.range' 1 (q.frames - 1)).map W.clock := by
    obtain ⟨n, hn⟩ : ∃ n, q.frames = n + 1 := ⟨q.frames - 1, by omega⟩
    rw [hn, List.range_eq_range']
    rfl
  rw [he]
  refine .begin (x := ⟨staticStep' start line, start, line, [], .answers⟩) hpos hr ho ?_ ⟨rfl, hs, hline, nothing, ht, hx⟩ (hacc 0 hpos) h
  rw [← likeStep_static]
  show _ = likeStep (staticStep float none (begins start _ c.properties))
  unfold staticStep
  rw [if_pos (show (begins start (pictures (declaration staticArgs).channels (q.rows.getD 0 [])) c.properties).type = t!"initialize" from rfl)]
  have hp := wait_text hkv hwait
  rw [← hk] at hp
  show _ = likeStep (match Py.propGet c.properties t!"time_wait" (some t!"0") with
    | .ok (some text) => match float text with
      | some line => staticAnswer (some [(some start, [])]) line
      | none => { state := (some [(some start, [])]), objects := [], fate := .raises (t!"could not convert string to float: '" ++ text ++ t!"'") }
    | _ => { state := some [(some start, [])], objects := [], fate := .raises [] })
  rw [hp]
  dsimp only
  rw [hfloat]
  rfl

/-- **C166 for the static tracker of the package.** Behind `traxclient`, the static tracker in Python gives the region of the first frame, as it comes to the tracker, for each frame: in a sequence
of any length, if no frame counts as a failure, with any properties on the command line whose `time_wait` is a number. The times are those of the frames. -/
theorem C166_static_partial (W : World (Proc.State (Link.State (Option (PyLoop.Program (Option (List (Option Region × Py.Dict)))))))) (argv : List Str) (c : Opt.Settings) (command : Str)
    (q : Sequence) (r start x : Region) (text line : Str) (wait : Py.Text) (kvs : List (Str × Str))
    -- the tracker
    (float : Py.Text → Option Str) (env senv : Env) (other : Py.Thrown → Py.Text) (shared limit : Bool) (junk : UInt32) (stream : Stream) (report : Nat → Proc.Poll) (out : Writer)
    (turns : Nat → Bool)
    (hW : W.process = Link.process (Link.world (PyLoop.peer senv other (PyLoop.static float) shared PyLoop.staticArgs junk stream report) env out turns) limit)
    (hstart : W.start command c.environment c.timeout c.connection c.verbosity = some (Proc.State.fresh {}))
    (hin : stream.input = []) (hout : stream.out.Reliable) (hco : out.Reliable)
    -- the sequence
    (hs : Opt.cliStart argv = .ok (.go c command)) (hq : c.query = false) (hg : Given W.read c q) (hl : q.frames ≤ q.initialization.length) (hpos : 0 < q.frames)
    (hr : q.initialization[0]? = some (some r)) (ho : Offered env (declaration PyLoop.staticArgs) r start) (hsend : Sendable start) (ht : start.string = .ok (some text)) (hx : Reads text x)
    (hrows : ∀ row ∈ q.rows, Path (row.getD 0 [])) (hk : c.properties = Properties.ofPairs kvs) (hkv : SendablePairs kvs)
    (hwait : PyLoop.Waits kvs wait) (hfloat : float wait = some line) (hline : Chatter line)
    -- no failure
    (hb : isTrue (W.getenv b!"TRAX_BOUNDED_OVERLAP") = false) (hacc : ∀ f, f < q.frames → Accepted W c q f (some x)) (hw : W.writable c.output = true) :
    ∃ e t, cliMain W argv = .ok e ∧ e.status = 0 ∧ e.tracker = some t ∧ t.world.broken = false ∧
      e.written = (c.output, lines (b!"1" :: List.replicate (q.frames - 1) text)) ::
        (if c.timing ≠ [] ∧ W.writable c.timing = true then [(c.timing, lines ((List.range q.frames).map W.clock))] else []) := by
  obtain ⟨final, h⟩ := PyLoop.supervised_static W c q env float hpos hr ho hsend ht hx hk hkv hwait hfloat hline hacc
  obtain ⟨e, t, e1, e2, e3, e4, e5⟩ := C166_supervised_partial W argv c command q _ _ final kvs (PyLoop.static float) PyLoop.staticArgs env senv other shared limit junk stream report out turns hW hstart
    PyLoop.static_declarable (by unfold Suits; decide) hin hout hco hs hq hg hl hpos (fun row hrow => ⟨fun _ => hrows row hrow, fun h => absurd rfl h, fun h => absurd rfl h⟩) hk hkv hb hw h
  refine ⟨e, t, e1, e2, e3, e4, ?_⟩
  rw [e5]
  have : (List.range q.frames).map W.clock ≠ [] := by
    intro h
    have := congrArg List.length h
    simp at this
    omega
  simp [this]

/-! ## Concrete cases -/

namespace Demo

/-- A tracker in Python that counts the frames. It finds squares that become smaller with each frame, tells a property of each, prints lines, and ends in one way or another
in the second update. -/
def counting (fate : PyLoop.Fate) (key : Py.Text) (more : List (Region × Py.Dict)) : PyLoop.Tracker Nat where
  first := 0
  step n request :=
    if request.type = t!"initialize" then { state := 0, objects := [(square 4, [])], before := b!"hello\n" }
    else { state := n + 1, objects := (square (3 - 2 * n), [(key, t!"0.5")]) :: more, after := b!"frame\n", fate := if n = 1 then fate else .answers }

/-- What it declares: rectangles, paths and colour images. -/
def countingArgs : Py.ServerArgs := ⟨[t!"rectangle"], [t!"path"], [t!"color"], t!"S", [], [], [], false⟩

/-- A tracker in Python, behind `traxclient`. -/
def python {τ : Type} (T : PyLoop.Tracker τ) (a : Py.ServerArgs) : World (Proc.State (Link.State (Option (PyLoop.Program τ)))) where
  getenv := shrunk.getenv
  read := shrunk.read
  writable := shrunk.writable
  fresh := shrunk.fresh
  clock := shrunk.clock
  start _ _ _ _ _ := some (Proc.State.fresh {})
  process := Link.process (Link.world (PyLoop.peer quiet (fun _ => []) T true a 0 ⟨none, [], unwritten⟩ late) quiet unwritten (fun n => n % 2 == 0)) true

end Demo

/-- The runs of the model itself: one that goes well, one with an exception, and the static tracker. -/
example : ((cliMain (Demo.python (Demo.counting .answers t!"c" []) Demo.countingArgs) Demo.supervising).map fun e => (e.status, e.written)) =
    .ok (0, [(b!"output.txt", lines Demo.recorded), (b!"times.txt", lines Demo.times)]) := by decide +kernel
example : ((cliMain (Demo.python (Demo.counting (.raises t!"abc") t!"c" []) Demo.countingArgs) Demo.supervising).map fun e => (e.status, e.written)) = .ok (-1, []) := by decide +kernel
example : ((cliMain (Demo.python (PyLoop.static fun _ => some b!"0.0\n") PyLoop.staticArgs) Demo.supervising).map fun e => (e.status, e.written)) =
    .ok (0, [(b!"output.txt", lines (b!"1" :: List.replicate 4 b!"0.0000,0.0000,4.0000,4.0000")), (b!"times.txt", lines [b!"0", b!"1", b!"2", b!"3", b!"4"])]) := by decide +kernel

/-- **C166, violated** by the answers of the tracker: if a property has a name with a letter outside of ASCII (`ä`), or there is a second object, the run ends with an error and without a result. -/
theorem C166_answer_false :
    ((cliMain (Demo.python (Demo.counting .answers [228] []) Demo.countingArgs) Demo.supervising).map fun e => (e.status, e.written)) = .ok (-1, []) ∧
    ((cliMain (Demo.python (Demo.counting .answers t!"c" [(Demo.square 4, [])]) Demo.countingArgs) Demo.supervising).map fun e => (e.status, e.written)) = .ok (-1, []) := by decide +kernel

/-- **C166, violated** by the name of the tracker: with a letter outside of ASCII (`ä`), it cannot be started. -/
theorem C166_name_false :
    ((cliMain (Demo.python (Demo.counting .answers t!"c" []) { Demo.countingArgs with name := [228] }) Demo.supervising).map fun e => (e.status, e.written)) = .ok (-1, []) := by decide +kernel

/-- What the first of the trackers declares. -/
theorem Demo.countingArgs_declarable : Declarable Demo.countingArgs := by
  refine ⟨by decide, by decide, by decide, by decide, by decide, by decide, by decide, ⟨by decide, by decide⟩, by decide⟩

theorem Demo.sequence_given {τ : Type} (T : PyLoop.Tracker τ) (a : Py.ServerArgs) : Given (Demo.python T a).read Demo.supervision Demo.five :=
  ⟨⟨b!"a\nb\nc\nd\ne\n", rfl, by decide +kernel⟩, Or.inl ⟨b!"0,0,4,4\n0,0,4,4\n0,0,4,4\n0,0,4,4\n0,0,4,4\n", rfl, by decide +kernel⟩, Or.inl ⟨rfl, rfl⟩⟩

theorem Demo.sequence_pictured : ∀ row ∈ Demo.five.rows, Path (row.getD 0 []) := by
  intro row hrow
  simp only [Demo.five, List.mem_cons, List.not_mem_nil, or_false] at hrow
  rcases hrow with rfl | rfl | rfl | rfl | rfl <;> exact ⟨by decide, by decide⟩

theorem Demo.square_sendable : Sendable (Demo.square 4) ∧ Sendable (Demo.square 3) ∧ Sendable (Demo.square 1) := by
  refine ⟨?_, ?_, ?_⟩ <;> constructor <;> decide +kernel

/-- How the squares compare with the ground truth. -/
theorem Demo.square_measured {τ : Type} (T : PyLoop.Tracker τ) (a : Py.ServerArgs) (f : Nat) (n : Int) (b : Bool)
    (h : (match Region.apiOverlap false (fun n => List.replicate n 0) (Demo.five.groundtruth[f]?.join) (some (Demo.square n)) Bounds.none with
      | .ok o => decide (Flt.le o Demo.supervision.threshold = b) | _ => false) = true) :
    ∃ o, Measured (Demo.python T a) Demo.five f (some (Demo.square n)) o ∧ Flt.le o Demo.supervision.threshold = b := by
  cases e : Region.apiOverlap false (fun n => List.replicate n 0) (Demo.five.groundtruth[f]?.join) (some (Demo.square n)) Bounds.none with
  | ok o =>
    rw [e] at h
    exact ⟨o, ⟨Bounds.none, fun _ => rfl, e⟩, by simpa using h⟩
  | abort => rw [e] at h; cases h
  | ub => rw [e] at h; cases h

theorem Demo.square_accepted {τ : Type} (T : PyLoop.Tracker τ) (a : Py.ServerArgs) (f : Nat) (n : Int)
    (h : (match Region.apiOverlap false (fun n => List.replicate n 0) (Demo.five.groundtruth[f]?.join) (some (Demo.square n)) Bounds.none with
      | .ok o => decide (Flt.le o Demo.supervision.threshold = false) | _ => false) = true) : Accepted (Demo.python T a) Demo.supervision Demo.five f (some (Demo.square n)) := by
  obtain ⟨o, h1, h2⟩ := Demo.square_measured T a f n false h
  exact ⟨o, h1, fun h3 => absurd (h2.symm.trans h3.2) (by decide)⟩

theorem Demo.square_offered : Offered Demo.quiet (declaration Demo.countingArgs) (Demo.square 4) (Demo.square 4) :=
  ⟨Demo.square_sendable.1, Demo.square 4, b!"0.0000,0.0000,4.0000,4.0000", by decide +kernel, Demo.square_sendable.1, by decide +kernel, by show _ = _; decide +kernel⟩

/-- The steps of the tracker. -/
theorem Demo.counting_begins (fate : PyLoop.Fate) (l : ImageList) (p : Properties) :
    (like (Demo.counting fate t!"c" [])).init (Demo.square 4) l p = ⟨⟨0, [(Demo.square 4, [])], [], b!"hello\n", [], .answers⟩, Demo.square 4, b!"hello\n", [], .answers⟩ := by
  show likeStep ⟨0, [(Demo.square 4, [])], [], b!"hello\n", [], .answers⟩ = _
  unfold likeStep
  rw [if_pos ⟨rfl, ⟨_, rfl, ⟨by decide, by decide⟩⟩, ⟨by decide, by decide⟩⟩]
  rfl

theorem Demo.counting_continues (fate : PyLoop.Fate) (n : Nat) (x : PyLoop.Step Nat) (hx : x.state = n) (h : n = 1 → fate = .answers) (l : ImageList) (p : Properties) :
    (like (Demo.counting fate t!"c" [])).update x l p =
      ⟨⟨n + 1, [(Demo.square (3 - 2 * n), [(t!"c", t!"0.5")])], [], [], b!"frame\n", .answers⟩, Demo.square (3 - 2 * n), [], b!"frame\n", .answers⟩ := by
  have e : (like (Demo.counting fate t!"c" [])).update x l p = likeStep ⟨x.state + 1, [(Demo.square (3 - 2 * x.state), [(t!"c", t!"0.5")])], [], [], b!"frame\n", if x.state = 1 then fate else .answers⟩ := rfl
  rw [e, hx, show (if n = 1 then fate else .answers) = PyLoop.Fate.answers by split <;> simp_all]
  unfold likeStep
  have hd : SendableDict [(t!"c", t!"0.5")] := ⟨by decide, by decide⟩
  rw [if_pos ⟨rfl, ⟨_, rfl, hd⟩, (⟨by decide, by decide⟩ : SendableDict [])⟩]
  rfl

/-- The first of the runs, as it is described. -/
theorem Demo.counted : ∃ final, Supervised (Demo.python (Demo.counting .answers t!"c" []) Demo.countingArgs) Demo.supervision Demo.five Demo.quiet (declaration Demo.countingArgs)
    (like (Demo.counting .answers t!"c" [])) 5 final 0 (.waiting 0) Demo.recorded Demo.times := by
  obtain ⟨s4, s3, s1⟩ := Demo.square_sendable
  have hello : Chatter b!"hello\n" := ⟨[b!"hello"], by simp only [List.mem_singleton, forall_eq]; decide, rfl⟩
  have frame : Chatter b!"frame\n" := ⟨[b!"frame"], by simp only [List.mem_singleton, forall_eq]; decide, rfl⟩
  have nothing : Chatter [] := ⟨[], by simp, rfl⟩
  have lost : Failure (Demo.python (Demo.counting .answers t!"c" []) Demo.countingArgs) Demo.supervision Demo.five 2 (.state (some (Demo.square 1))) := by
    obtain ⟨o, h1, h2⟩ := Demo.square_measured (Demo.counting .answers t!"c" []) Demo.countingArgs 2 1 true (by decide +kernel)
    exact ⟨o, h1, by decide +kernel, h2⟩
  have t4 : (Demo.square 4).string = .ok (some b!"0.0000,0.0000,4.0000,4.0000") := by decide +kernel
  have t3 : (Demo.square 3).string = .ok (some b!"0.0000,0.0000,3.0000,3.0000") := by decide +kernel
  have t1 : (Demo.square 1).string = .ok (some b!"0.0000,0.0000,1.0000,1.0000") := by decide +kernel
  have r4 : Region.parse b!"0.0000,0.0000,4.0000,4.0000" = .ok ⟨1, some (Demo.square 4), 0⟩ := by decide +kernel
  have r3 : Region.parse b!"0.0000,0.0000,3.0000,3.0000" = .ok ⟨1, some (Demo.square 3), 0⟩ := by decide +kernel
  have r1 : Region.parse b!"0.0000,0.0000,1.0000,1.0000" = .ok ⟨1, some (Demo.square 1), 0⟩ := by decide +kernel
  refine ⟨.working ⟨1, [(Demo.square 3, [(t!"c", t!"0.5")])], [], [], b!"frame\n", .answers⟩, .begin (by decide) rfl Demo.square_offered (Demo.counting_begins _ _ _).symm ⟨rfl, s4, hello, nothing, t4, r4⟩ (Demo.square_accepted _ _ 0 4 (by decide +kernel)) ?_⟩
  refine .go (by decide) (Demo.counting_continues _ 0 _ rfl (fun _ => rfl) _ _).symm ⟨rfl, s3, nothing, frame, t3, r3⟩ (Demo.square_accepted _ _ 1 3 (by decide +kernel)) ?_
  refine .goFailed (by decide) (Demo.counting_continues _ 1 _ rfl (fun _ => rfl) _ _).symm ⟨rfl, s1, nothing, frame, t1, r1⟩ lost ?_
  refine .begin (by decide) rfl Demo.square_offered (Demo.counting_begins _ _ _).symm ⟨rfl, s4, hello, nothing, t4, r4⟩ (Demo.square_accepted _ _ 3 4 (by decide +kernel)) ?_
  refine .go (by decide) (Demo.counting_continues _ 0 _ rfl (fun _ => rfl) _ _).symm ⟨rfl, s3, nothing, frame, t3, r3⟩ (Demo.square_accepted _ _ 4 3 (by decide +kernel)) ?_
  exact .done

/-- The theorem for this run. -/
example : ∃ e, cliMain (Demo.python (Demo.counting .answers t!"c" []) Demo.countingArgs) Demo.supervising = .ok e ∧ e.status = 0 ∧
    e.written = [(b!"output.txt", lines Demo.recorded), (b!"times.txt", lines Demo.times)] := by
  obtain ⟨final, h⟩ := Demo.counted
  obtain ⟨e, t, e1, e2, -, -, e3⟩ := C166_supervised_partial _ Demo.supervising Demo.supervision b!" \"tracker\" " Demo.five _ _ final [(b!"a", b!"b")] (Demo.counting .answers t!"c" [])
    Demo.countingArgs Demo.quiet Demo.quiet (fun _ => []) true true 0 ⟨none, [], Demo.unwritten⟩ Demo.late Demo.unwritten (fun n => n % 2 == 0) rfl rfl Demo.countingArgs_declarable
    (by unfold Suits; decide) rfl (by decide) (by decide) (by decide +kernel) rfl (Demo.sequence_given _ _) (by decide +kernel) (by decide +kernel)
    (fun row hrow => ⟨fun _ => Demo.sequence_pictured row hrow, fun h => absurd rfl h, fun h => absurd rfl h⟩) rfl (by decide +kernel) rfl rfl h
  exact ⟨e, e1, e2, e3⟩

/-- The run up to the second update. -/
theorem Demo.counted_ending (fate : PyLoop.Fate) : ∃ y : PyLoop.Step Nat, y.state = 1 ∧ Supervised (Demo.python (Demo.counting fate t!"c" []) Demo.countingArgs) Demo.supervision Demo.five Demo.quiet
    (declaration Demo.countingArgs) (like (Demo.counting fate t!"c" [])) 2 (.working y) 0 (.waiting 0) [b!"1", b!"0.0000,0.0000,3.0000,3.0000"] [b!"0", b!"1"] := by
  obtain ⟨s4, s3, s1⟩ := Demo.square_sendable
  have hello : Chatter b!"hello\n" := ⟨[b!"hello"], by simp only [List.mem_singleton, forall_eq]; decide, rfl⟩
  have frame : Chatter b!"frame\n" := ⟨[b!"frame"], by simp only [List.mem_singleton, forall_eq]; decide, rfl⟩
  have nothing : Chatter [] := ⟨[], by simp, rfl⟩
  have t4 : (Demo.square 4).string = .ok (some b!"0.0000,0.0000,4.0000,4.0000") := by decide +kernel
  have t3 : (Demo.square 3).string = .ok (some b!"0.0000,0.0000,3.0000,3.0000") := by decide +kernel
  have r4 : Region.parse b!"0.0000,0.0000,4.0000,4.0000" = .ok ⟨1, some (Demo.square 4), 0⟩ := by decide +kernel
  have r3 : Region.parse b!"0.0000,0.0000,3.0000,3.0000" = .ok ⟨1, some (Demo.square 3), 0⟩ := by decide +kernel
  refine ⟨⟨1, [(Demo.square 3, [(t!"c", t!"0.5")])], [], [], b!"frame\n", .answers⟩, rfl, ?_⟩
  refine .begin (by decide) rfl Demo.square_offered (Demo.counting_begins _ _ _).symm ⟨rfl, s4, hello, nothing, t4, r4⟩ (Demo.square_accepted _ _ 0 4 (by decide +kernel)) ?_
  refine .go (by decide) (Demo.counting_continues _ 0 _ rfl (fun h => absurd h (by decide)) _ _).symm ⟨rfl, s3, nothing, frame, t3, r3⟩ (Demo.square_accepted _ _ 1 3 (by decide +kernel)) ?_
  exact .done

/-- The theorems for a tracker that raises an exception in the second update, and for one that leaves the loop there. -/
example (fate : PyLoop.Fate) (h : fate = .raises t!"abc" ∨ fate = .leaves) :
    ∃ e, cliMain (Demo.python (Demo.counting fate t!"c" []) Demo.countingArgs) Demo.supervising = .ok e ∧ e.status = -1 ∧ e.written = [] := by
  obtain ⟨y, hy, hs⟩ := Demo.counted_ending fate
  have nothing : Chatter [] := ⟨[], by simp, rfl⟩
  have hf : (Demo.counting fate t!"c" []).step y.state (continues (pictures (declaration Demo.countingArgs).channels (Demo.five.rows.getD 2 [])) Properties.create) =
      ⟨2, [(Demo.square 1, [(t!"c", t!"0.5")])], [], [], b!"frame\n", fate⟩ := by rw [hy]; rfl
  have hrows : ∀ row ∈ Demo.five.rows, Pictured (declaration Demo.countingArgs).channels row :=
    fun row hrow => ⟨fun _ => Demo.sequence_pictured row hrow, fun h => absurd rfl h, fun h => absurd rfl h⟩
  have hdue : Due Demo.supervision Demo.five Demo.quiet (declaration Demo.countingArgs) (like (Demo.counting fate t!"c" [])) 2 (.working y)
      (likeStep ⟨2, [(Demo.square 1, [(t!"c", t!"0.5")])], [], [], b!"frame\n", fate⟩) := (congrArg likeStep hf).symm
  rcases h with rfl | rfl
  · exact C166_raises_partial _ Demo.supervising Demo.supervision b!" \"tracker\" " Demo.five 2 _ _ _ _ [(b!"a", b!"b")] (Demo.counting _ t!"c" [])
      Demo.countingArgs Demo.quiet Demo.quiet (fun _ => []) true true 0 ⟨none, [], Demo.unwritten⟩ Demo.late Demo.unwritten (fun n => n % 2 == 0) rfl rfl Demo.countingArgs_declarable
      (by unfold Suits; decide) rfl (by decide) (by decide) (by decide +kernel) rfl (Demo.sequence_given _ _) (by decide +kernel) hrows rfl (by decide +kernel) rfl hs (by decide) hdue nothing
      t!"abc" rfl (by unfold Reason; decide)
  · exact C166_quit_false _ Demo.supervising Demo.supervision b!" \"tracker\" " Demo.five 2 _ _ _ _ [(b!"a", b!"b")] (Demo.counting _ t!"c" [])
      Demo.countingArgs Demo.quiet Demo.quiet (fun _ => []) true true 0 ⟨none, [], Demo.unwritten⟩ Demo.late Demo.unwritten (fun n => n % 2 == 0) rfl rfl Demo.countingArgs_declarable
      (by unfold Suits; decide) rfl (by decide) (by decide) (by decide +kernel) rfl (Demo.sequence_given _ _) (by decide +kernel) hrows rfl (by decide +kernel) rfl hs (by decide) hdue nothing
      rfl

/-- The theorem for the run of the static tracker. -/
example : ∃ e, cliMain (Demo.python (PyLoop.static fun _ => some b!"0.0\n") PyLoop.staticArgs) Demo.supervising = .ok e ∧ e.status = 0 ∧
    e.written = [(b!"output.txt", lines (b!"1" :: List.replicate 4 b!"0.0000,0.0000,4.0000,4.0000")), (b!"times.txt", lines [b!"0", b!"1", b!"2", b!"3", b!"4"])] := by
  obtain ⟨s4, -, -⟩ := Demo.square_sendable
  obtain ⟨e, t, e1, e2, -, -, e3⟩ := C166_static_partial (Demo.python (PyLoop.static fun _ => some b!"0.0\n") PyLoop.staticArgs) Demo.supervising Demo.supervision b!" \"tracker\" " Demo.five
    (Demo.square 4) (Demo.square 4) (Demo.square 4) b!"0.0000,0.0000,4.0000,4.0000" b!"0.0\n" t!"0" [(b!"a", b!"b")] _
    Demo.quiet Demo.quiet (fun _ => []) true true 0 ⟨none, [], Demo.unwritten⟩ Demo.late Demo.unwritten (fun n => n % 2 == 0) rfl rfl
    rfl (by decide) (by decide) (by decide +kernel) rfl (Demo.sequence_given _ _) (by decide +kernel) (by decide +kernel) rfl
    ⟨s4, Demo.square 4, b!"0.0000,0.0000,4.0000,4.0000", by decide +kernel, s4, by decide +kernel, by show _ = _; decide +kernel⟩ s4 (by decide +kernel) (by show _ = _; decide +kernel)
    Demo.sequence_pictured rfl (by decide +kernel) ⟨by decide, Or.inl ⟨by decide, rfl⟩⟩ rfl ⟨[b!"0.0"], by simp only [List.mem_singleton, forall_eq]; decide, rfl⟩ rfl
    (fun f hf => by
      match f, hf with
      | 0, _ => exact Demo.square_accepted _ _ 0 4 (by decide +kernel)
      | 1, _ => exact Demo.square_accepted _ _ 1 4 (by decide +kernel)
      | 2, _ => exact Demo.square_accepted _ _ 2 4 (by decide +kernel)
      | 3, _ => exact Demo.square_accepted _ _ 3 4 (by decide +kernel)
      | 4, _ => exact Demo.square_accepted _ _ 4 4 (by decide +kernel)
      | n + 5, h => exact absurd h (by show ¬ n + 5 < 5; omega)) rfl
  exact ⟨e, e1, e2, e3⟩

end Trax
