import Verif.Lemmas.LoopRun
import Verif.Props.StaticRun

/-!
# C153: `traxclient` with any tracker that follows the documentation
-/

namespace Trax
open Spec Handle Trax.Cli Trax.Cli.Spec

/-- The images that are loaded for a row. -/
theorem Loop.images_loaded (read : Str → Option Str) {m : Metadata} (hm : Suits m) {row : List Str} (h : Pictured m.channels row) :
    ∃ l, frameImages read row (Link.about m).formats (Link.about m).channels = .ok (.ok l) ∧ Loop.Sends m (pictures m.channels row) l := by
  obtain ⟨h0, h1, h2⟩ := h
  obtain ⟨m1, m2, m3, m4⟩ := hm
  have bit : ∀ x c : UInt32, x &&& c ≠ 0 → x.toNat &&& c.toNat ≠ 0 := by
    intro x c h e
    rw [← UInt32.toNat_and] at e
    exact h (UInt32.toNat_inj.mp e)
  have b1 : m.channels.toNat &&& 1 ≠ 0 := bit m.channels 1 m1
  have hload : ∀ w p, loadChannel read w p m.channels.toNat = .ok (.ok (if w then (if p = [] then none else some (.path (cstr p))) else none)) := by
    intro w p
    unfold loadChannel loadImage
    rw [if_pos b1]
    cases w
    · rfl
    · by_cases hp : p = []
      · simp [hp]
      · simp [hp, Image.createPath]
  have hpath : ∀ {p} {w : Bool}, w = true → Path p → (if w then (if p = [] then none else some (Image.path (cstr p))) else none) = some (.path p) := by
    intro p w hw hp
    rw [if_pos hw, if_neg hp.1, cstr_of_noNul (plain_noNul hp.2)]
  have a1 : (m.images.toNat &&& 1 != 0) = true := bne_iff_ne.mpr (bit m.images 1 m2)
  have a2 : m.channels &&& 2 ≠ 0 → (m.images.toNat &&& 2 != 0) = true := fun h => bne_iff_ne.mpr (bit m.images 2 (m3 h))
  have a4 : m.channels &&& 4 ≠ 0 → (m.images.toNat &&& 4 != 0) = true := fun h => bne_iff_ne.mpr (bit m.images 4 (m4 h))
  have e : frameImages read row (Link.about m).formats (Link.about m).channels =
      .ok (.ok ⟨if m.images.toNat &&& 1 != 0 then (if row.getD 0 [] = [] then none else some (.path (cstr (row.getD 0 [])))) else none,
        if m.images.toNat &&& 2 != 0 then (if row.getD 1 [] = [] then none else some (.path (cstr (row.getD 1 [])))) else none,
        if m.images.toNat &&& 4 != 0 then (if row.getD 2 [] = [] then none else some (.path (cstr (row.getD 2 [])))) else none⟩) := by
    unfold frameImages loadImages Link.about
    dsimp only
    rw [hload, hload, hload]
    rfl
  refine ⟨_, e, ?_, ?_⟩
  · intro c hc hch
    simp only [channelFlags, List.mem_cons, List.not_mem_nil, or_false] at hc
    rcases hc with rfl | rfl | rfl
    · exact ⟨.path (row.getD 0 []), congrArg some (hpath a1 (h0 m1)), (h0 m1).2, m2⟩
    · exact ⟨.path (row.getD 1 []), congrArg some (hpath (a2 hch) (h1 hch)), (h1 hch).2, m2⟩
    · exact ⟨.path (row.getD 2 []), congrArg some (hpath (a4 hch) (h2 hch)), (h2 hch).2, m2⟩
  · intro l' hl'
    unfold ImagesArrive channelFlags at hl'
    match l', hl' with
    | [x, y, z], .cons hx (.cons hy (.cons hz .nil)) =>
      dsimp only [Link.imageList] at hx hy hz
      have one : ∀ {ch : UInt32} {i : Nat} {w : Bool} {p : Str} {x : Option Image} {images : ImageList}, images[i]? = some (if w then (if p = [] then none else some (Image.path (cstr p))) else none) →
          (ch ≠ 0 → w = true) → (ch ≠ 0 → Path p) →
          (if ch ≠ 0 then ∃ img img', images[i]? = some (some img) ∧ x = some img' ∧ ImageArrives img img' else x = none) →
          x = if ch ≠ 0 then some (.path p) else none := by
        intro ch i w p x images hi hw hp h
        by_cases hc : ch ≠ 0
        · rw [if_pos hc] at h ⊢
          obtain ⟨img, img', g1, g2, g3⟩ := h
          rw [hi, hpath (hw hc) (hp hc)] at g1
          cases g1
          rw [g2, show img' = _ from g3]
        · rw [if_neg hc] at h ⊢
          exact h
      unfold pictures
      rw [one (w := (m.images.toNat &&& 1 != 0)) rfl (fun _ => a1) h0 hx, one (w := (m.images.toNat &&& 2 != 0)) rfl a2 h1 hy,
        one (w := (m.images.toNat &&& 4 != 0)) rfl a4 h2 hz]

namespace Loop

/-- The text of a region is read in one way. -/
theorem read_once {t : Str} {x y : Region} (hx : Region.parse t = .ok ⟨1, some x, 0⟩) (hy : Region.parse t = .ok ⟨1, some y, 0⟩) : x = y := by
  have := hx.symm.trans hy
  injection this with h
  injection h with _ h _
  injection h

theorem comes {r : Region} {t : Str} {y : Region} (h : Sendable r) (ht : r.string = .ok (some t)) (hy : Reads t y) : Comes r t y ∧ y.string = .ok (some t) := by
  obtain ⟨t', r', h1, h2, h3, h4, h5⟩ := region_settles h
  rw [ht] at h1
  cases h1
  have := read_once hy h2
  subst this
  exact ⟨⟨ht, h2, h4, h5⟩, h3⟩

theorem told {τ : Type} {x : Step τ} {t : Str} {y : Region} (h : Reported x t y) : Told (x, y) ∧ y.string = .ok (some t) := by
  obtain ⟨h0, h1, ⟨ls, h2, h3⟩, ⟨ls', h4, h5⟩, h6, h7⟩ := h
  obtain ⟨g1, g2⟩ := comes h1 h6 h7
  exact ⟨⟨h0, h1, ⟨ls, h2, h3⟩, ⟨ls', h4, h5⟩, t, g1⟩, g2⟩

/-- What the process does is what goes on. -/
def Agrees {τ : Type} : Status τ → Mode (Step τ × Region) → Prop
  | .waiting k, .idle k' => k = k'
  | .working u, .tracking x => x.1.state = u
  | .over, .stopped => True
  | _, _ => False

theorem agrees_failed {τ : Type} (c : Opt.Settings) : Agrees (.failed c : Status τ) (.failed c) := by
  unfold Status.failed Mode.failed
  split
  · trivial
  · rfl

theorem course_supervised {τ σ : Type} {W : World σ} {c : Opt.Settings} {q : Sequence} {env : Env} {m : Metadata} {T : Tracker τ} {kvs : List (Str × Str)} (hsuit : Suits m)
    (hrows : ∀ row ∈ q.rows, Pictured m.channels row) (hk : c.properties = Properties.ofPairs kvs) {n f : Nat} {final status : Status τ} {ls ts : List Str}
    (h : Supervised W c q env m T n final f status ls ts) :
    ∀ mode, Agrees status mode → ∃ last es ts', Agrees final last ∧ Course W c q (Link.about m) (Starts env T m kvs) (Goes T m) Prod.snd n last f mode es ts' ∧
      List.Forall₂ (fun e t => ∃ r : Region, e = some r ∧ r.string = .ok (some t)) es ls ∧ ts'.map (timeText W) = ts := by
  induction h with
  | done => exact fun mode h => ⟨mode, [], [], h, .done, .nil, rfl⟩
  | over hf _ ih =>
    intro mode hm
    cases mode <;> try cases hm
    obtain ⟨last, es, ts', h0, h1, h2, h3⟩ := ih .stopped trivial
    exact ⟨last, _, _, h0, .stopped hf h1, .cons ⟨_, rfl, rfl⟩ h2, by rw [← h3]; rfl⟩
  | pass hf _ ih =>
    intro mode hm
    cases mode <;> cases hm
    obtain ⟨last, es, ts', h0, h1, h2, h3⟩ := ih (.idle _) rfl
    exact ⟨last, _, _, h0, .pass hf h1, .cons ⟨_, rfl, rfl⟩ h2, by rw [← h3]; rfl⟩
  | skip hf hn _ ih =>
    intro mode hm
    cases mode <;> cases hm
    obtain ⟨last, es, ts', h0, h1, h2, h3⟩ := ih (.idle _) rfl
    exact ⟨last, _, _, h0, .skip hf hn h1, .cons ⟨_, rfl, rfl⟩ h2, h3⟩
  | @begin f r start x text y ls ts hf hr hoff hx hrep hacc _ ih =>
    intro mode hm
    cases mode <;> cases hm
    obtain ⟨last, es, ts', h0, h1, h2, h3⟩ := ih (.tracking (x, y)) rfl
    obtain ⟨l, l1, l2⟩ := images_loaded W.read hsuit (hrows _ (Link.row_mem hf))
    obtain ⟨o1, sent, st, o2, o3, o4, o5⟩ := hoff
    rw [hk] at hx
    exact ⟨last, _, _, h0, .begin hf hr l1 ⟨(told hrep).1, o1, sent, st, start, _, o2, (comes o3 o4 o5).1, l2, hx.symm⟩ hacc h1, .cons ⟨_, rfl, rfl⟩ h2, by rw [← h3]; rfl⟩
  | @beginFailed f r start x text y ls ts hf hr hoff hx hrep hrej _ ih =>
    intro mode hm
    cases mode <;> cases hm
    obtain ⟨last, es, ts', h0, h1, h2, h3⟩ := ih _ (agrees_failed c)
    obtain ⟨l, l1, l2⟩ := images_loaded W.read hsuit (hrows _ (Link.row_mem hf))
    obtain ⟨o1, sent, st, o2, o3, o4, o5⟩ := hoff
    rw [hk] at hx
    exact ⟨last, _, _, h0, .beginFailed (x := (x, y)) hf hr l1 ⟨(told hrep).1, o1, sent, st, start, _, o2, (comes o3 o4 o5).1, l2, hx.symm⟩ hrej h1, .cons ⟨_, rfl, rfl⟩ h2, by rw [← h3]; rfl⟩
  | @go f u x text y ls ts hf hx hrep hacc _ ih =>
    intro mode hm
    cases mode <;> try cases hm
    obtain ⟨last, es, ts', h0, h1, h2, h3⟩ := ih (.tracking (x, y)) rfl
    obtain ⟨l, l1, l2⟩ := images_loaded W.read hsuit (hrows _ (Link.row_mem hf))
    exact ⟨last, _, _, h0, .go hf l1 ⟨(told hrep).1, _, l2, hx.symm⟩ hacc h1, .cons ⟨_, rfl, (told hrep).2⟩ h2, by rw [← h3]; rfl⟩
  | @goFailed f u x text y ls ts hf hx hrep hrej _ ih =>
    intro mode hm
    cases mode <;> try cases hm
    obtain ⟨last, es, ts', h0, h1, h2, h3⟩ := ih _ (agrees_failed c)
    obtain ⟨l, l1, l2⟩ := images_loaded W.read hsuit (hrows _ (Link.row_mem hf))
    exact ⟨last, _, _, h0, .goFailed (y := (x, y)) hf l1 ⟨(told hrep).1, _, l2, hx.symm⟩ hrej h1, .cons ⟨_, rfl, rfl⟩ h2, by rw [← h3]; rfl⟩

end Loop

/-- **C153.** `traxclient` supervises any tracker that follows the documentation: the result and the times are those of the run as the documentation of the program describes it
(`Supervised`). The tracker is initialized with the region of the frame (in a form that it has declared) and the image of the frame, and updated with the
image of each frame that follows, in their order and once with each, as long as its regions are near enough to the groundtruth. After a failure there is either nothing more, or
another process of the tracker is initialized with the region of the frame that is `reinitialize` frames later, and knows nothing of the first. The
program ends well. That is so for every length of the sequence, every tracker, any other lines that it prints, any properties on the command line, any number of failures, and
whatever the watchdog does. Missing from the full claim: paths and values outside of 7-bit text, overlaps inside of the image bounds,
processes that the operating system ends, watchdog turns while the process starts (C84), and trackers for which `traxclient` does not load the images of all declared channels (`Suits`). -/
theorem C153_supervised_partial {τ : Type} (W : World (Proc.State (Link.State (Option (Loop.Program τ))))) (argv : List Str) (c : Opt.Settings) (command : Str) (q : Sequence)
    (ls ts : List Str) (final : Status τ) (kvs custom : List (Str × Str))
    -- the tracker
    (T : Loop.Tracker τ) (m : Metadata) (env senv : Env) (shared limit : Bool) (junk : UInt32) (stream : Stream) (report : Nat → Proc.Poll) (out : Writer) (turns : Nat → Bool)
    (hW : W.process = Link.process (Link.world (Loop.peer senv T shared m junk stream report) env out turns) limit)
    (hstart : W.start command c.environment c.timeout c.connection c.verbosity = some (Proc.State.fresh {}))
    (hm : Introducible m custom 4) (hsuit : Suits m) (hin : stream.input = []) (hout : stream.out.Reliable) (hco : out.Reliable)
    -- the sequence
    (hs : Opt.cliStart argv = .ok (.go c command)) (hq : c.query = false) (hg : Given W.read c q) (hl : q.frames ≤ q.initialization.length) (hpos : 0 < q.frames)
    (hrows : ∀ row ∈ q.rows, Pictured m.channels row) (hk : c.properties = Properties.ofPairs kvs) (hkv : SendablePairs kvs)
    (hb : isTrue (W.getenv b!"TRAX_BOUNDED_OVERLAP") = false) (hw : W.writable c.output = true)
    -- the run
    (h : Supervised W c q env m T q.frames final 0 (.waiting 0) ls ts) :
    ∃ e t, cliMain W argv = .ok e ∧ e.status = 0 ∧ e.tracker = some t ∧ t.world.broken = false ∧
      e.written = (c.output, lines ls) :: (if c.timing ≠ [] ∧ ts ≠ [] ∧ W.writable c.timing = true then [(c.timing, lines ts)] else []) := by
  have H := Loop.serves_joined senv env T shared m junk stream report out kvs hm (hm.channels).1 hin hout hco hkv
  obtain ⟨b, t1, hq1, hq2⟩ := Link.query_new (turns := turns) H limit
  have hP := Link.phased_static (turns := turns) H limit
  rw [← hk, ← hW] at hP
  obtain ⟨last, es, ts', -, h1, h2, h3⟩ := Loop.course_supervised hsuit hrows hk h (.idle 0) rfl
  obtain ⟨e, t, e1, e2, e3, e4, e5⟩ := phased_main W argv c command q hP hs hq hg hl hpos hstart (by rw [hW]; exact hq1) hq2 hb h1 h2 hw
  refine ⟨e, t, e1, e2, e3, e4, ?_⟩
  rw [e5, ← h3]
  simp

/-- **C153 without failures.** The tracker is initialized with the region and the image of the first frame, and updated with the image of each other frame. The first
line of the result says that the tracker was initialized, each other one has the text of the region that the tracker has found in that frame. -/
theorem C153_run_partial {τ : Type} (W : World (Proc.State (Link.State (Option (Loop.Program τ))))) (argv : List Str) (c : Opt.Settings) (command : Str) (q : Sequence)
    (r start : Region) (found : Nat → Loop.Step τ) (text : Nat → Str) (kvs custom : List (Str × Str))
    -- the tracker
    (T : Loop.Tracker τ) (m : Metadata) (env senv : Env) (shared limit : Bool) (junk : UInt32) (stream : Stream) (report : Nat → Proc.Poll) (out : Writer) (turns : Nat → Bool)
    (hW : W.process = Link.process (Link.world (Loop.peer senv T shared m junk stream report) env out turns) limit)
    (hstart : W.start command c.environment c.timeout c.connection c.verbosity = some (Proc.State.fresh {}))
    (hm : Introducible m custom 4) (hsuit : Suits m) (hin : stream.input = []) (hout : stream.out.Reliable) (hco : out.Reliable)
    -- the sequence
    (hs : Opt.cliStart argv = .ok (.go c command)) (hq : c.query = false) (hg : Given W.read c q) (hl : q.frames ≤ q.initialization.length) (hpos : 0 < q.frames)
    (hr : q.initialization[0]? = some (some r)) (hrows : ∀ row ∈ q.rows, Pictured m.channels row)
    (hk : c.properties = Properties.ofPairs kvs) (hkv : SendablePairs kvs) (hoff : Offered env m r start)
    -- what the tracker does
    (hf : found = course T start (fun f => pictures m.channels (q.rows.getD f [])) c.properties)
    -- no failure
    (hb : isTrue (W.getenv b!"TRAX_BOUNDED_OVERLAP") = false)
    (ho : ∀ f, f < q.frames → ∃ y, Reported (found f) (text f) y ∧ Accepted W c q f (some y)) (hw : W.writable c.output = true) :
    ∃ e t, cliMain W argv = .ok e ∧ e.status = 0 ∧ e.tracker = some t ∧ t.world.broken = false ∧
      e.written = (c.output, lines (b!"1" :: (List.range' 1 (q.frames - 1)).map text)) ::
        (if c.timing ≠ [] ∧ W.writable c.timing = true then [(c.timing, lines ((List.range q.frames).map W.clock))] else []) := by
  have rest : ∀ n f, f + 1 + n = q.frames → Supervised W c q env m T q.frames (.working (found (q.frames - 1)).state) (f + 1) (.working (found f).state) ((List.range' (f + 1) n).map text) ((List.range' (f + 1) n).map W.clock) := by
    intro n
    induction n with
    | zero =>
      intro f hf
      rw [show f + 1 = q.frames by omega, show f = q.frames - 1 by omega]
      exact .done
    | succ n ih =>
      intro f hf'
      obtain ⟨y, h1, h2⟩ := ho (f + 1) (by omega)
      rw [List.range'_succ]
      exact .go (by omega) (by rw [hf]; rfl) h1 h2 (ih (f + 1) (by omega))
  obtain ⟨y, h1, h2⟩ := ho 0 hpos
  have h0 : Supervised W c q env m T q.frames (.working (found (q.frames - 1)).state) 0 (.waiting 0) (b!"1" :: (List.range' 1 (q.frames - 1)).map text) (W.clock 0 :: (List.range' 1 (q.frames - 1)).map W.clock) :=
    .begin hpos hr hoff (by rw [hf]; rfl) h1 h2 (rest _ 0 (by omega))
  have e : (List.range q.frames).map W.clock = W.clock 0 :: (List.range' 1 (q.frames - 1)).map W.clock := by
    obtain ⟨n, hn⟩ : ∃ n, q.frames = n + 1 := ⟨q.frames - 1, by omega⟩
    rw [hn, List.range_eq_range', List.range'_succ]
    rfl
  obtain ⟨e', t, e1, e2, e3, e4, e5⟩ := C153_supervised_partial W argv c command q _ _ _ kvs custom T m env senv shared limit junk stream report out turns hW hstart hm hsuit hin hout hco hs hq hg hl hpos
    hrows hk hkv hb hw h0
  refine ⟨e', t, e1, e2, e3, e4, ?_⟩
  rw [e5, e]
  simp

/-! ## A concrete case -/

namespace Demo

/-- The square with the side `n`. -/
def square (n : Int) : Region := .rectangle .zero .zero (.ofInt n) (.ofInt n)

/-- A tracker that counts the frames. It finds squares that become smaller with each frame, and prints a line. -/
def shrinking : Loop.Tracker Nat where
  init _ _ _ := { state := 0, region := square 4, before := b!"hello\n" }
  update n _ _ := { state := n + 1, region := square (3 - 2 * n), after := b!"frame\n" }

/-- What it declares: rectangles, paths and colour images. -/
def declared : Metadata := ⟨2, 1, 1, some b!"S", none, none, Properties.create, 0⟩

/-- It, behind `traxclient`, with a sequence of five frames. -/
def shrunk : World (Proc.State (Link.State (Option (Loop.Program Nat)))) where
  getenv _ := none
  read name := if name = b!"images.txt" then some b!"a\nb\nc\nd\ne\n" else if name = b!"groundtruth.txt" then some b!"0,0,4,4\n0,0,4,4\n0,0,4,4\n0,0,4,4\n0,0,4,4\n" else none
  writable _ := true
  fresh n := List.replicate n 0
  clock f := fmtInt f
  start _ _ _ _ _ := some (Proc.State.fresh {})
  process := Link.process (Link.world (Loop.peer quiet shrinking true declared 0 ⟨none, [], unwritten⟩ (fun _ => .running)) quiet unwritten (fun n => n % 2 == 0)) true

def five : Sequence where
  rows := [[b!"a", [], []], [b!"b", [], []], [b!"c", [], []], [b!"d", [], []], [b!"e", [], []]]
  groundtruth := List.replicate 5 (some (square 4))
  initialization := List.replicate 5 (some (square 4))

/-- A threshold of a half, and a new start one frame after a failure. -/
def supervising : List Str := [b!"traxclient", b!"-T", b!"times.txt", b!"-f", b!"0.5", b!"-r", b!"1", b!"-p", b!"a=b", b!"tracker"]

/-- What that sets. -/
def supervision : Opt.Settings :=
  { Opt.Settings.initial with timing := b!"times.txt", threshold := .fin false (2 ^ 148), reinitialize := 1, properties := Properties.ofPairs [(b!"a", b!"b")] }

/-- The lines of the result, and the times. -/
def recorded : List Str := [b!"1", b!"0.0000,0.0000,3.0000,3.0000", b!"2", b!"1", b!"0.0000,0.0000,3.0000,3.0000"]
def times : List Str := [b!"0", b!"1", b!"0", b!"3", b!"4"]

end Demo

/-- The run of the model itself. -/
example : ((cliMain Demo.shrunk Demo.supervising).map fun e => (e.status, e.written)) =
    .ok (0, [(b!"output.txt", lines Demo.recorded), (b!"times.txt", lines Demo.times)]) := by decide +kernel

/-- The run as it is described. -/
theorem Demo.supervised : Supervised Demo.shrunk Demo.supervision Demo.five Demo.quiet Demo.declared Demo.shrinking 5 (.working 1) 0 (.waiting 0) Demo.recorded Demo.times := by
  have square_sendable : ∀ n : Fin 5, Sendable (Demo.square n) := by
    intro n
    match n with
    | 0 | 1 | 2 | 3 | 4 => constructor <;> decide +kernel
  have measure : ∀ (f : Nat) (n : Int) (b : Bool), (match Region.apiOverlap false (fun n => List.replicate n 0) (Demo.five.groundtruth[f]?.join) (some (Demo.square n)) Bounds.none with
      | .ok o => decide (Flt.le o Demo.supervision.threshold = b) | _ => false) = true →
      ∃ o, Measured Demo.shrunk Demo.five f (some (Demo.square n)) o ∧ Flt.le o Demo.supervision.threshold = b := by
    intro f n b h
    cases e : Region.apiOverlap false (fun n => List.replicate n 0) (Demo.five.groundtruth[f]?.join) (some (Demo.square n)) Bounds.none with
    | ok o =>
      rw [e] at h
      exact ⟨o, ⟨Bounds.none, fun _ => rfl, e⟩, by simpa using h⟩
    | abort => rw [e] at h; cases h
    | ub => rw [e] at h; cases h
  have accepted : ∀ (f : Nat) (n : Int), (match Region.apiOverlap false (fun n => List.replicate n 0) (Demo.five.groundtruth[f]?.join) (some (Demo.square n)) Bounds.none with
      | .ok o => decide (Flt.le o Demo.supervision.threshold = false) | _ => false) = true → Accepted Demo.shrunk Demo.supervision Demo.five f (some (Demo.square n)) := by
    intro f n h
    obtain ⟨o, h1, h2⟩ := measure f n false h
    exact ⟨o, h1, fun h3 => absurd (h2.symm.trans h3.2) (by decide)⟩
  have offered : Offered Demo.quiet Demo.declared (Demo.square 4) (Demo.square 4) :=
    ⟨square_sendable 4, Demo.square 4, b!"0.0000,0.0000,4.0000,4.0000", by decide +kernel, square_sendable 4, by decide +kernel, by show _ = _; decide +kernel⟩
  have hello : Chatter b!"hello\n" := ⟨[b!"hello"], by simp only [List.mem_singleton, forall_eq]; decide, rfl⟩
  have frame : Chatter b!"frame\n" := ⟨[b!"frame"], by simp only [List.mem_singleton, forall_eq]; decide, rfl⟩
  have nothing : Chatter [] := ⟨[], by simp, rfl⟩
  have started : ∀ l p, Reported (Demo.shrinking.init (Demo.square 4) l p) b!"0.0000,0.0000,4.0000,4.0000" (Demo.square 4) := fun l p =>
    ⟨rfl, square_sendable 4, hello, nothing, (by decide +kernel : (Demo.square 4).string = .ok (some b!"0.0000,0.0000,4.0000,4.0000")),
      (by decide +kernel : Region.parse b!"0.0000,0.0000,4.0000,4.0000" = .ok ⟨1, some (Demo.square 4), 0⟩)⟩
  have first : ∀ l p, Reported (Demo.shrinking.update 0 l p) b!"0.0000,0.0000,3.0000,3.0000" (Demo.square 3) := fun l p =>
    ⟨rfl, square_sendable 3, nothing, frame, (by decide +kernel : (Demo.square 3).string = .ok (some b!"0.0000,0.0000,3.0000,3.0000")),
      (by decide +kernel : Region.parse b!"0.0000,0.0000,3.0000,3.0000" = .ok ⟨1, some (Demo.square 3), 0⟩)⟩
  have second : ∀ l p, Reported (Demo.shrinking.update 1 l p) b!"0.0000,0.0000,1.0000,1.0000" (Demo.square 1) := fun l p =>
    ⟨rfl, square_sendable 1, nothing, frame, (by decide +kernel : (Demo.square 1).string = .ok (some b!"0.0000,0.0000,1.0000,1.0000")),
      (by decide +kernel : Region.parse b!"0.0000,0.0000,1.0000,1.0000" = .ok ⟨1, some (Demo.square 1), 0⟩)⟩
  have lost : Failure Demo.shrunk Demo.supervision Demo.five 2 (.state (some (Demo.square 1))) := by
    obtain ⟨o, h1, h2⟩ := measure 2 1 true (by decide +kernel)
    exact ⟨o, h1, by decide +kernel, h2⟩
  refine .begin (by decide) rfl offered rfl (started _ _) (accepted 0 4 (by decide +kernel)) ?_
  refine .go (by decide) rfl (first _ _) (accepted 1 3 (by decide +kernel)) ?_
  refine .goFailed (by decide) rfl (second _ _) lost ?_
  refine .begin (by decide) rfl offered rfl (started _ _) (accepted 3 4 (by decide +kernel)) ?_
  refine .go (by decide) rfl (first _ _) (accepted 4 3 (by decide +kernel)) ?_
  exact .done

/-- The theorem for this run. -/
example : ∃ e, cliMain Demo.shrunk Demo.supervising = .ok e ∧ e.status = 0 ∧ e.written = [(b!"output.txt", lines Demo.recorded), (b!"times.txt", lines Demo.times)] := by
  have hm : Introducible Demo.declared [] 4 :=
    ⟨by decide, (by decide : (2 : UInt32) &&& 14 = 2), (by decide : (1 : UInt32) &&& 15 = 1), by decide, fun h => absurd h (by decide), by rintro s (h | h | h) <;> cases h <;> decide, rfl, by decide⟩
  obtain ⟨e, t, e1, e2, -, -, e3⟩ := C153_supervised_partial Demo.shrunk Demo.supervising Demo.supervision b!" \"tracker\" " Demo.five _ _ _ [(b!"a", b!"b")] [] Demo.shrinking
    Demo.declared Demo.quiet Demo.quiet true true 0 ⟨none, [], Demo.unwritten⟩ (fun _ => .running) Demo.unwritten (fun n => n % 2 == 0) rfl rfl hm (by unfold Suits; decide) rfl (by decide) (by decide)
    (by decide +kernel) rfl
    ⟨⟨b!"a\nb\nc\nd\ne\n", rfl, by decide +kernel⟩, Or.inl ⟨b!"0,0,4,4\n0,0,4,4\n0,0,4,4\n0,0,4,4\n0,0,4,4\n", rfl, by decide +kernel⟩, Or.inl ⟨rfl, rfl⟩⟩
    (by decide +kernel) (by decide +kernel)
    (by
      intro row hrow
      simp only [Demo.five, List.mem_cons, List.not_mem_nil, or_false] at hrow
      refine ⟨fun _ => ?_, fun h => absurd rfl h, fun h => absurd rfl h⟩
      rcases hrow with rfl | rfl | rfl | rfl | rfl <;> exact ⟨by decide, by decide⟩)
    rfl (by decide +kernel) rfl rfl Demo.supervised
  exact ⟨e, e1, e2, e3⟩

/-! ## Violations -/

/-- A tracker that finds the square with the side 4 in every frame, and prints a text before it reports it. -/
def Demo.printing (text : Str) : Loop.Tracker Nat :=
  { Demo.shrinking with update := fun n _ _ => { state := n + 1, region := Demo.square 4, before := text } }

/-- It, behind `traxclient`, with the given list of images. -/
def Demo.printed (text images : Str) : World (Proc.State (Link.State (Option (Loop.Program Nat)))) :=
  { Demo.shrunk with
    read := fun name => if name = b!"images.txt" then some images else Demo.shrunk.read name
    process := Link.process (Link.world (Loop.peer Demo.quiet (Demo.printing text) true Demo.declared 0 ⟨none, [], Demo.unwritten⟩ (fun _ => .running)) Demo.quiet Demo.unwritten (fun n => n % 2 == 0)) true }

/-- It is supervised well when it prints whole lines of ASCII characters. -/
example : ((cliMain (Demo.printed b!"hello\n" b!"a\nb\nc\nd\ne\n") Demo.supervising).map fun e => e.status) = .ok 0 := by decide +kernel

/-- **C153, violated** by what a tracker prints: if a line is not ended before the report (`hello`), or has a letter outside of ASCII (`ä`), the run ends with an error and without a result. -/
theorem C153_print_false :
    ((cliMain (Demo.printed b!"hello" b!"a\nb\nc\nd\ne\n") Demo.supervising).map fun e => (e.status, e.written)) = .ok (-1, []) ∧
    ((cliMain (Demo.printed [195, 164, 10] b!"a\nb\nc\nd\ne\n") Demo.supervising).map fun e => (e.status, e.written)) = .ok (-1, []) := by decide +kernel

/-- **C153, violated** for the path of an image with a letter outside of ASCII: the run ends with an error and without a result. -/
theorem C153_path_false :
    ((cliMain (Demo.printed [] ([97, 195, 164] ++ b!"\nb\nc\nd\ne\n")) Demo.supervising).map fun e => (e.status, e.written)) = .ok (-1, []) := by decide +kernel

end Trax
