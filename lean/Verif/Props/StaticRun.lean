import Verif.Lemmas.StaticRun
import Verif.Spec.StaticRun

/-!
# C148: `traxclient` with the static tracker of the tests

`main`, the class `TrackerProcess`, the client's and the tracker's ends of the protocol and the tracker itself, put together.
-/

namespace Trax
open Spec Handle Trax.Cli Trax.Cli.Spec

/-- The images that are loaded for a row. -/
theorem Link.images_static (read : Str → Option Str) (depth ir : Bool) {row : List Str} (h : Covers depth ir row) :
    ∃ l, frameImages read row (Link.introduction depth ir).formats (Link.introduction depth ir).channels = .ok (.ok l) ∧ Link.Complete depth ir l := by
  obtain ⟨h0, h1, h2⟩ := h
  have hch : (Static.channels depth ir).toNat &&& 1 ≠ 0 := by cases depth <;> cases ir <;> decide
  have hload : ∀ p, loadImage read p (Static.channels depth ir).toNat = .ok (.ok (if p = [] then none else some (.path (cstr p)))) := by
    intro p
    unfold loadImage
    rw [if_pos hch]
    by_cases hp : p = []
    · simp [hp]
    · simp [hp, Image.createPath]
  have e : frameImages read row (Link.introduction depth ir).formats (Link.introduction depth ir).channels =
      .ok (.ok ⟨if row.getD 0 [] = [] then none else some (.path (cstr (row.getD 0 []))), if row.getD 1 [] = [] then none else some (.path (cstr (row.getD 1 []))),
        if row.getD 2 [] = [] then none else some (.path (cstr (row.getD 2 [])))⟩) := by
    unfold frameImages loadImages loadChannel Link.introduction
    dsimp only
    have a1 : ((15 : Nat) &&& 1 != 0) = true := by decide
    have a2 : ((15 : Nat) &&& 2 != 0) = true := by decide
    have a3 : ((15 : Nat) &&& 4 != 0) = true := by decide
    rw [a1, a2, a3, if_pos rfl, if_pos rfl, if_pos rfl, hload, hload, hload]
    rfl
  refine ⟨_, e, ?_⟩
  have hpath : ∀ {p}, Path p → (if p = [] then none else some (Image.path (cstr p))) = some (.path p) := by
    intro p hp
    rw [if_neg hp.1, cstr_of_noNul (plain_noNul hp.2)]
  intro c hc hch
  simp only [channelFlags, List.mem_cons, List.not_mem_nil, or_false] at hc
  rcases hc with rfl | rfl | rfl
  · exact ⟨.path (row.getD 0 []), congrArg some (hpath h0), h0.2, (by decide : (15 : UInt32) &&& 1 ≠ 0)⟩
  · have hd : depth = true := by cases depth <;> cases ir <;> first | rfl | exact absurd rfl hch
    exact ⟨.path (row.getD 1 []), congrArg some (hpath (h1 hd)), (h1 hd).2, (by decide : (15 : UInt32) &&& 1 ≠ 0)⟩
  · have hd : ir = true := by cases depth <;> cases ir <;> first | rfl | exact absurd rfl hch
    exact ⟨.path (row.getD 2 []), congrArg some (hpath (h2 hd)), (h2 hd).2, (by decide : (15 : UInt32) &&& 1 ≠ 0)⟩

/-- The row of a frame. -/
theorem Link.row_mem {q : Sequence} {f : Nat} (h : f < q.frames) : q.rows.getD f [] ∈ q.rows := by
  have hl : f < q.rows.length := by unfold Sequence.frames at h; omega
  rw [List.getD_eq_getElem?_getD, List.getElem?_eq_getElem hl]
  exact List.getElem_mem hl

/-- The run. -/
theorem Link.course_static {σ : Type} {W : World σ} {c : Opt.Settings} {q : Sequence} {depth ir : Bool} {r x : Region} (hpos : 0 < q.frames)
    (hr : q.initialization[0]? = some (some r)) (hrows : ∀ row ∈ q.rows, Covers depth ir row) (ho : ∀ f, f < q.frames → Accepted W c q f (some x)) :
    ∃ final, Course W c q (Link.introduction depth ir) (fun images r₁ (_ : Unit) => r₁ = r ∧ Link.Complete depth ir images) (fun _ images _ => Link.Complete depth ir images) (fun _ => x)
      q.frames final 0 (.idle 0) (some (.special 1) :: List.replicate (q.frames - 1) (some x)) ((List.range q.frames).map some) := by
  have hl : ∀ f, ∃ l, f < q.frames → frameImages W.read (q.rows.getD f []) (Link.introduction depth ir).formats (Link.introduction depth ir).channels = .ok (.ok l) ∧ Link.Complete depth ir l := by
    intro f
    by_cases hf : f < q.frames
    · obtain ⟨l, h1, h2⟩ := Link.images_static W.read depth ir (hrows _ (Link.row_mem hf))
      exact ⟨l, fun _ => ⟨h1, h2⟩⟩
    · exact ⟨{}, fun h => absurd h hf⟩
  obtain ⟨l, hl⟩ := Classical.axiomOfChoice hl
  have := course_smooth (a := Link.introduction depth ir) (starts := fun images r₁ (_ : Unit) => r₁ = r ∧ Link.Complete depth ir images)
    (goes := fun _ images _ => Link.Complete depth ir images) (answer := fun _ => x) (x := fun _ => ()) (l := l) hpos hr (fun f hf => (hl f hf).1) ⟨rfl, (hl 0 hpos).2⟩
    (fun f hf => (hl (f + 1) hf).2) ho
  rwa [List.map_const', List.length_range'] at this

theorem Link.course_text {x : Region} {text : Str} (h : x.string = .ok (some text)) {n : Nat} :
    List.Forall₂ (fun e t => ∃ r : Region, e = some r ∧ r.string = .ok (some t)) (some (.special 1) :: List.replicate n (some x)) (b!"1" :: List.replicate n text) := by
  refine .cons ⟨_, rfl, rfl⟩ ?_
  induction n with
  | zero => exact .nil
  | succ n ih => exact .cons ⟨_, rfl, h⟩ ih

theorem Link.times_all {σ : Type} (W : World σ) {out timing : Str} {ls : List Str} {n : Nat} (hn : 0 < n) :
    ((out, lines ls) :: (if timing ≠ [] ∧ (List.range n).map some ≠ [] ∧ W.writable timing = true then [(timing, lines (((List.range n).map some).map (timeText W)))] else [])) =
      (out, lines ls) :: (if timing ≠ [] ∧ W.writable timing = true then [(timing, lines ((List.range n).map W.clock))] else []) := by
  have h1 : (List.range n).map some ≠ [] := by
    intro h
    have := congrArg List.length h
    simp at this
    omega
  have h2 : ((List.range n).map some).map (timeText W) = (List.range n).map W.clock := by simp [timeText, Function.comp_def]
  rw [h2]
  simp [h1]

/-- **C148.** `traxclient` runs the static tracker of the tests over a sequence: it ends well, and the result has one line for every frame. The first says that
the tracker was initialized, all others have the text of the region that the tracker was initialized with. The times have one line for every frame. That is so for every
length of the sequence, every region (rectangle, polygon or mask), any properties on the command line, whatever the watchdog does, and whether or not the protocol shares its stream with the
other output of the tracker. Missing from the full claim: paths and values outside of 7-bit text, overlaps that count as failures, overlaps inside of the image bounds,
processes that the operating system ends, and watchdog turns while the process starts (C84). -/
theorem C148_run_partial (W : World (Proc.State (Link.State (Option (Static.Program ObjList))))) (argv : List Str) (c : Opt.Settings) (command : Str) (q : Sequence)
    (r x : Region) (text : Str) (kvs : List (Str × Str))
    -- the tracker
    (env senv : Env) (shared depth ir limit : Bool) (junk : UInt32) (stream : Stream) (out : Writer) (turns : Nat → Bool)
    (hW : W.process = Link.process (Link.world (Link.static senv shared depth ir junk stream) env out turns) limit)
    (hstart : W.start command c.environment c.timeout c.connection c.verbosity = some (Proc.State.fresh {}))
    (hin : stream.input = []) (hout : stream.out.Reliable) (hco : out.Reliable)
    -- the sequence
    (hs : Opt.cliStart argv = .ok (.go c command)) (hq : c.query = false) (hg : Given W.read c q) (hl : q.frames ≤ q.initialization.length) (hpos : 0 < q.frames)
    (hr : q.initialization[0]? = some (some r)) (hrs : Sendable r) (hsp : ∀ code, r ≠ .special code) (ht : r.string = .ok (some text)) (hx : Reads text x)
    (hrows : ∀ row ∈ q.rows, Covers depth ir row) (hk : c.properties = Properties.ofPairs kvs) (hkv : SendablePairs kvs)
    -- no failure
    (hb : isTrue (W.getenv b!"TRAX_BOUNDED_OVERLAP") = false)
    (ho : ∀ f, f < q.frames → Accepted W c q f (some x)) (hw : W.writable c.output = true) :
    ∃ e t, cliMain W argv = .ok e ∧ e.status = 0 ∧ e.tracker = some t ∧ t.world.broken = false ∧
      e.written = (c.output, lines (b!"1" :: List.replicate (q.frames - 1) text)) ::
        (if c.timing ≠ [] ∧ W.writable c.timing = true then [(c.timing, lines ((List.range q.frames).map W.clock))] else []) := by
  obtain ⟨t, r', h1, h2, h3, h4, h5, h6, h7, h8⟩ := region_returns hrs hsp
  rw [ht] at h1
  cases h1
  have hxr : x = r' := by
    have := hx.symm.trans h2
    injection this with h
    injection h with _ h _
    injection h
  subst hxr
  have H := Link.serves_static senv env shared depth ir junk stream out hin hout hco hrs hsp ht hx h3 h4 h5 h6 h7 hkv
  obtain ⟨b, t1, hq1, hq2⟩ := Link.query_new (turns := turns) H limit
  have hP := Link.phased_static (turns := turns) H limit
  rw [← hk, ← hW] at hP
  obtain ⟨e, t, e1, e2, e3, e4, e5⟩ := phased_main W argv c command q hP hs hq hg hl hpos hstart (by rw [hW]; exact hq1) hq2 hb
    (Link.course_static hpos hr hrows ho).choose_spec (Link.course_text h3) hw
  rw [Link.times_all W hpos] at e5
  exact ⟨e, t, e1, e2, e3, e4, e5⟩

/-- **C148 for the tracker that is compiled for a single object.** It speaks version 3 of the protocol; for the user nothing is different. -/
theorem C148_single_partial (W : World (Proc.State (Link.State (Option (Static.Program Region))))) (argv : List Str) (c : Opt.Settings) (command : Str) (q : Sequence)
    (r x : Region) (text : Str) (kvs : List (Str × Str))
    -- the tracker
    (env senv : Env) (shared depth ir limit : Bool) (junk : UInt32) (stream : Stream) (out : Writer) (turns : Nat → Bool)
    (hW : W.process = Link.process (Link.world (Link.staticSingle senv shared depth ir junk stream) env out turns) limit)
    (hstart : W.start command c.environment c.timeout c.connection c.verbosity = some (Proc.State.fresh {}))
    (hin : stream.input = []) (hout : stream.out.Reliable) (hco : out.Reliable)
    -- the sequence
    (hs : Opt.cliStart argv = .ok (.go c command)) (hq : c.query = false) (hg : Given W.read c q) (hl : q.frames ≤ q.initialization.length) (hpos : 0 < q.frames)
    (hr : q.initialization[0]? = some (some r)) (hrs : Sendable r) (hsp : ∀ code, r ≠ .special code) (ht : r.string = .ok (some text)) (hx : Reads text x)
    (hrows : ∀ row ∈ q.rows, Covers depth ir row) (hk : c.properties = Properties.ofPairs kvs) (hkv : SendablePairs kvs)
    -- no failure
    (hb : isTrue (W.getenv b!"TRAX_BOUNDED_OVERLAP") = false)
    (ho : ∀ f, f < q.frames → Accepted W c q f (some x)) (hw : W.writable c.output = true) :
    ∃ e t, cliMain W argv = .ok e ∧ e.status = 0 ∧ e.tracker = some t ∧ t.world.broken = false ∧
      e.written = (c.output, lines (b!"1" :: List.replicate (q.frames - 1) text)) ::
        (if c.timing ≠ [] ∧ W.writable c.timing = true then [(c.timing, lines ((List.range q.frames).map W.clock))] else []) := by
  obtain ⟨t, r', h1, h2, h3, h4, h5, h6, h7, h8⟩ := region_returns hrs hsp
  rw [ht] at h1
  cases h1
  have hxr : x = r' := by
    have := hx.symm.trans h2
    injection this with h
    injection h with _ h _
    injection h
  subst hxr
  have H := Link.serves_single senv env shared depth ir junk stream out hin hout hco hrs hsp ht hx h3 h4 h8 h7 hkv
  obtain ⟨b, t1, hq1, hq2⟩ := Link.query_new (turns := turns) H limit
  have hP := Link.phased_static (turns := turns) H limit
  rw [← hk, ← hW] at hP
  obtain ⟨e, t, e1, e2, e3, e4, e5⟩ := phased_main W argv c command q hP hs hq hg hl hpos hstart (by rw [hW]; exact hq1) hq2 hb
    (Link.course_static hpos hr hrows ho).choose_spec (Link.course_text h3) hw
  rw [Link.times_all W hpos] at e5
  exact ⟨e, t, e1, e2, e3, e4, e5⟩

/-! ## A concrete case -/

namespace Demo

/-- An environment. -/
def quiet : Env := ⟨false, fun n => List.replicate n 0, fun _ => 0⟩

/-- A writer that has written nothing. -/
def unwritten : Writer := ⟨[], false, [], []⟩

/-- The world of `traxclient` on a sequence of three frames. The tracker's protocol is in its standard output. -/
def behind {π : Type} (P : Link.Peer π) : World (Proc.State (Link.State π)) where
  getenv _ := none
  read := Cli.Demo.files
  writable _ := true
  fresh n := List.replicate n 0
  clock f := fmtInt f
  start _ _ _ _ _ := some (Proc.State.fresh {})
  process := Link.process (Link.world P quiet unwritten (fun n => n % 2 == 0)) true

/-- The two trackers. -/
def multiple : Link.Peer (Option (Static.Program ObjList)) := Link.static quiet true false false 0 ⟨none, [], unwritten⟩
def single : Link.Peer (Option (Static.Program Region)) := Link.staticSingle quiet true false false 0 ⟨none, [], unwritten⟩

/-- What the command line of the next examples sets. -/
def given : Opt.Settings := { Opt.Settings.initial with timing := b!"times.txt", properties := Properties.ofPairs [(b!"a", b!"b")] }

/-- The result. -/
def result : List (Str × Str) :=
  [(b!"output.txt", b!"1\n0.0000,0.0000,4.0000,4.0000\n0.0000,0.0000,4.0000,4.0000\n"), (b!"times.txt", b!"0\n1\n2\n")]

def commandLine : List Str := [b!"traxclient", b!"-T", b!"times.txt", b!"-p", b!"a=b", b!"tracker"]

end Demo

/-- The runs of the models themselves. -/
example : ((cliMain (Demo.behind Demo.multiple) Demo.commandLine).map fun e => (e.status, e.written)) = .ok (0, Demo.result) := by decide +kernel

example : ((cliMain (Demo.behind Demo.single) Demo.commandLine).map fun e => (e.status, e.written)) = .ok (0, Demo.result) := by decide +kernel

deriving instance DecidableEq for Opt.Settings
deriving instance DecidableEq for Opt.Start

/-- The hypotheses of the theorems are met. -/
theorem Demo.met {π : Type} (P : Link.Peer π) :
    Opt.cliStart commandLine = .ok (.go given b!" \"tracker\" ") ∧ given.query = false ∧ Given (behind P).read given Cli.Demo.sequence ∧
    Cli.Demo.sequence.frames ≤ Cli.Demo.sequence.initialization.length ∧ 0 < Cli.Demo.sequence.frames ∧
    Cli.Demo.sequence.initialization[0]? = some (some (.rectangle .zero .zero (.ofInt 4) (.ofInt 4))) ∧
    Sendable (.rectangle .zero .zero (.ofInt 4) (.ofInt 4)) ∧
    (Region.rectangle .zero .zero (.ofInt 4) (.ofInt 4)).string = .ok (some b!"0.0000,0.0000,4.0000,4.0000") ∧
    Reads b!"0.0000,0.0000,4.0000,4.0000" (.rectangle .zero .zero (.ofInt 4) (.ofInt 4)) ∧
    (∀ row ∈ Cli.Demo.sequence.rows, Covers false false row) ∧ SendablePairs [(b!"a", b!"b")] ∧
    (∀ f, f < Cli.Demo.sequence.frames → Accepted (behind P) given Cli.Demo.sequence f (some (.rectangle .zero .zero (.ofInt 4) (.ofInt 4)))) := by
  refine ⟨?_, rfl, ?_, by decide +kernel, by decide +kernel, rfl, ?_, by decide +kernel, ?_, ?_, ?_, ?_⟩
  · decide +kernel
  · exact ⟨⟨b!"a.png\nb.png\nc.png\n", rfl, by decide +kernel⟩, Or.inl ⟨b!"0,0,4,4\n0,0,8,8\n1,1,4,4\n", rfl, by decide +kernel⟩, Or.inl ⟨rfl, rfl⟩⟩
  · constructor <;> decide +kernel
  · show _ = _
    decide +kernel
  · intro row hrow
    refine ⟨?_, by simp, by simp⟩
    simp only [Cli.Demo.sequence, List.mem_cons, List.not_mem_nil, or_false] at hrow
    rcases hrow with rfl | rfl | rfl <;> exact ⟨by decide, by decide⟩
  · decide +kernel
  · have : ∀ x : Outcome Flt, (match x with | .ok _ => true | _ => false) = true → ∃ o, x = .ok o := by
      intro x hx
      rcases x with o | _ | _
      · exact ⟨o, rfl⟩
      · cases hx
      · cases hx
    intro f hf
    have h : ∃ o, Region.apiOverlap false (fun n => List.replicate n 0) (Cli.Demo.sequence.groundtruth[f]?.join) (some (.rectangle .zero .zero (.ofInt 4) (.ofInt 4)))
        Bounds.none = .ok o := by
      apply this
      have hf : f < 3 := hf
      match f, hf with
      | 0, _ => decide +kernel
      | 1, _ => decide +kernel
      | 2, _ => decide +kernel
    obtain ⟨o, ho⟩ := h
    exact ⟨o, ⟨Bounds.none, fun _ => rfl, ho⟩, fun h => absurd h.1 (by decide +kernel)⟩

/-- The theorem for this run. -/
example : ∃ e, cliMain (Demo.behind Demo.multiple) Demo.commandLine = .ok e ∧ e.status = 0 := by
  obtain ⟨h1, h2, h3, h4, h5, h6, h7, h8, h9, h10, h11, h12⟩ := Demo.met Demo.multiple
  obtain ⟨e, t, e1, e2, -⟩ := C148_run_partial (Demo.behind Demo.multiple) Demo.commandLine Demo.given _ Cli.Demo.sequence _ _ _ _ _ _ _ _ _ _ _ _ _ _ rfl rfl rfl
    (by decide) (by decide) h1 h2 h3 h4 h5 h6 h7 (by simp) h8 h9 h10 rfl h11 rfl h12 rfl
  exact ⟨e, e1, e2⟩

/-- **C148** does not hold for the path of an image with a letter outside of ASCII (here `ä`): the run ends with an error and without a result. -/
theorem C148_path_false :
    ((cliMain { Demo.behind Demo.multiple with
        read := fun name => if name = b!"images.txt" then some [97, 195, 164, 10] else Cli.Demo.files name } Demo.commandLine).map fun e => (e.status, e.written)) =
      .ok (-1, []) := by decide +kernel

end Trax
