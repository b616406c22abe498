import Verif.Lemmas.Tutorial
import Verif.Props.Environment
import Verif.Lemmas.TrackerProcess
import Verif.Props.BrokenRun

/-!
# C168: the client of the tutorial
-/

namespace Trax
open Spec Handle Trax.Cli Trax.Cli.Spec

namespace Lesson

theorem imageName_numbered {i : Nat} (h : i + 1 < 10 ^ 8) : Numbered i (imageName i) := by
  have hlen : (natDigits (i + 1)).length ≤ 8 := digitsAux_length _ _ 7 h
  refine ⟨List.replicate (8 - (natDigits (i + 1)).length) ch%'0' ++ natDigits (i + 1), rfl, ?_, ?_, ?_⟩
  · intro c hc
    rcases List.mem_append.1 hc with hc | hc
    · rw [(List.mem_replicate.1 hc).2]
      decide
    · exact natDigits_digits _ c hc
  · rw [List.length_append, List.length_replicate]
    omega
  · have zeros : ∀ k, (List.replicate k (ch%'0' : UInt8)).foldl (fun acc c => acc * 10 + (c.toNat - 48)) 0 = 0 := by
      intro k
      induction k with
      | zero => rfl
      | succ k ih => rw [List.replicate_succ, List.foldl_cons]; exact ih
    unfold digitsValue
    rw [List.foldl_append, zeros]
    exact natDigits_value _

theorem digits_unique : ∀ (n : Nat) (a b : Str), a.length = n → b.length = n → (∀ c ∈ a, isDigit c = true) → (∀ c ∈ b, isDigit c = true) → digitsValue a = digitsValue b → a = b := by
  have last : ∀ (x : Str) (c : UInt8), digitsValue (x ++ [c]) = digitsValue x * 10 + (c.toNat - 48) := by
    intro x c
    unfold digitsValue
    rw [List.foldl_append]
    rfl
  have range : ∀ c : UInt8, isDigit c = true → 48 ≤ c.toNat ∧ c.toNat ≤ 57 := by
    apply forall_byte'
    decide +kernel
  intro n
  induction n with
  | zero =>
    intro a b ha hb _ _ _
    rw [List.length_eq_zero_iff.1 ha, List.length_eq_zero_iff.1 hb]
  | succ n ih =>
    intro a b ha hb da db h
    rcases List.eq_nil_or_concat a with rfl | ⟨a', x, rfl⟩
    · cases ha
    rcases List.eq_nil_or_concat b with rfl | ⟨b', y, rfl⟩
    · cases hb
    rw [List.concat_eq_append] at *
    rw [List.concat_eq_append] at *
    rw [last, last] at h
    have rx := range x (da x (by simp))
    have ry := range y (db y (by simp))
    have e1 : a' = b' := ih a' b' (by simpa using ha) (by simpa using hb) (fun c hc => da c (by simp [hc])) (fun c hc => db c (by simp [hc])) (by omega)
    have e2 : x = y := UInt8.toNat_inj.1 (by omega)
    rw [e1, e2]

theorem numbered_unique {i : Nat} {p q : Str} (hp : Numbered i p) (hq : Numbered i q) : p = q := by
  obtain ⟨a, rfl, a2, a3, a4⟩ := hp
  obtain ⟨b, rfl, b2, b3, b4⟩ := hq
  rw [digits_unique 8 a b a3 b3 a2 b2 (a4.trans b4.symm)]

theorem imageName_plain {i : Nat} (h : i + 1 < 10 ^ 8) : Plain (imageName i) := by
  obtain ⟨d, e, h1, -⟩ := imageName_numbered h
  rw [e]
  have range : ∀ c : UInt8, isDigit c = true → c ≠ 0 ∧ c.toNat < 128 := by
    apply forall_byte'
    decide +kernel
  intro c hc
  rcases List.mem_append.1 hc with hc | hc
  · exact range c (h1 c hc)
  · exact (by decide : Plain b!".jpg") c hc

/-- The image of a frame is what the tracker gets. -/
theorem images_sent {m : Metadata} {i : Nat} (h : i + 1 < 10 ^ 8) (hc : m.channels = 1) (hi : m.images &&& 1 ≠ 0) {p : Str} (hp : Numbered i p) :
    Loop.Sends m [some (.path p), none, none] (images i) := by
  rw [numbered_unique hp (imageName_numbered h)]
  refine ⟨?_, ?_⟩
  · intro c hcf hch
    rw [hc] at hch
    simp only [channelFlags, List.mem_cons, List.not_mem_nil, or_false] at hcf
    rcases hcf with rfl | rfl | rfl
    · exact ⟨.path (imageName i), rfl, imageName_plain h, hi⟩
    · exact absurd rfl hch
    · exact absurd rfl hch
  · intro l' hl'
    rw [hc] at hl'
    unfold ImagesArrive channelFlags at hl'
    match l', hl' with
    | [x, y, z], .cons hx (.cons hy (.cons hz .nil)) =>
      obtain ⟨img, img', g1, g2, g3⟩ := hx
      cases g1
      rw [g2, show img' = _ from g3, show y = none from hy, show z = none from hz]

/-! ## The end of a session -/

/-- After a wait without an answer nothing is tracked. -/
theorem wait_untracked {π : Type} {W : Proc.World (Link.State π)} {limit : Bool} {s s' : Proc.State (Link.State π)} (h : Link.method W limit .wait s = (some false, s')) :
    s'.tracking = some false := by
  unfold Link.method at h
  rcases e : Proc.step W limit s .wait with ⟨r, t⟩ | _ | _
  · rw [e] at h
    cases r with
    | thrown => cases h
    | value b =>
      cases h
      unfold Proc.step Proc.go at e
      obtain ⟨⟨b1, s1⟩, -, e⟩ := Proc.bind_ok_iff e
      dsimp only at e
      split at e
      · split at e
        · cases e
        · cases e
        · unfold Proc.exchange at e
          obtain ⟨s2, -, e⟩ := Proc.bind_ok_iff e
          split at e
          · cases e
          · unfold Proc.conclude at e
            obtain ⟨s3, -, e⟩ := Proc.bind_ok_iff e
            dsimp only at e
            split at e
            · obtain ⟨⟨b4, s4⟩, e4, e5⟩ := Proc.map_ok_iff e
              obtain ⟨e6, rfl⟩ := Prod.mk.inj e5
              injection e6 with e6
              rw [(Proc.stop_rel W _ _ _ e4).1.tracking]
              exact congrArg some e6
            · injection e with e
              obtain ⟨e6, rfl⟩ := Prod.mk.inj e
              injection e6 with e6
              exact congrArg some e6
      · cases e
  · rw [e] at h
    cases h
  · rw [e] at h
    cases h

/-- A question whether the process is ready changes nothing in that. -/
theorem ready_untracked {π : Type} {W : Proc.World (Link.State π)} {limit : Bool} {s s' : Proc.State (Link.State π)} {b : Option Bool} (h : Link.method W limit .ready s = (b, s')) :
    s'.tracking = s.tracking := by
  unfold Link.method at h
  rcases e : Proc.step W limit s .ready with ⟨r, t⟩ | _ | _
  · rw [e] at h
    unfold Proc.step at e
    obtain ⟨⟨b1, s1⟩, e1, e2⟩ := Proc.map_ok_iff e
    cases e2
    cases h
    exact (Proc.ready_ok W _ _ _ e1).1.tracking
  · rw [e] at h
    cases h
    rfl
  · rw [e] at h
    cases h
    rfl

/-- Without tracking there is no other frame. -/
theorem frame_untracked {π : Type} {W : Proc.World (Link.State π)} {limit : Bool} {s : Proc.State (Link.State π)} (h : s.tracking = some false) :
    (Link.method W limit .frame s).1 = none := by
  unfold Link.method
  rcases e : Proc.step W limit s .frame with ⟨r, t⟩ | _ | _
  · cases r with
    | thrown => rfl
    | value b =>
      unfold Proc.step Proc.go at e
      obtain ⟨⟨b1, s1⟩, e1, e⟩ := Proc.bind_ok_iff e
      dsimp only at e
      split at e
      · rw [(Proc.ready_ok W _ _ _ e1).1.tracking, h] at e
        cases e
      · cases e
  · rfl
  · rfl

end Lesson

/-- **C168 for errors** (false). Whatever the tracker and the operating system do: when a call of `wait` brings no answer, and the process is not ready after that, the client of the tutorial
does not handle the error: if the next frame is not one with which the tracker is initialized again, the request for it throws an exception that nobody catches. -/
theorem C168_errors_false {π : Type} (W : Proc.World (Link.State π)) (truth : List (Option Region)) (i n : Nat) (s s1 s2 : Proc.State (Link.State π))
    (hr : Lesson.request W truth i s = (some true, s1)) (hw : Link.method W true .wait s1 = (some false, s2)) (hready : (Link.method W true .ready s2).1 ≠ some true)
    (hi : (i + 1) % 50 ≠ 0) : ∃ t, Lesson.loop W truth (n + 2) i s = (.thrown, [], t) := by
  rw [Lesson.loop, hr]
  dsimp only
  rw [hw]
  dsimp only
  have ht := Lesson.wait_untracked hw
  have next : ∀ s3 : Proc.State (Link.State π), s3.tracking = some false → ∃ t, Lesson.loop W truth (n + 1) (i + 1) s3 = (.thrown, [], t) := by
    intro s3 h3
    rw [Lesson.loop]
    unfold Lesson.request
    rw [if_neg hi]
    have := Lesson.frame_untracked (W := W) (limit := true) (s := { s3 with world := { s3.world with images := Lesson.images (i + 1) } }) h3
    generalize Link.method W true .frame { s3 with world := { s3.world with images := Lesson.images (i + 1) } } = x at this ⊢
    obtain ⟨b, t⟩ := x
    dsimp only at this
    subst this
    exact ⟨t, rfl⟩
  have hu := fun b s' => Lesson.ready_untracked (W := W) (limit := true) (s := s2) (s' := s') (b := b)
  generalize Link.method W true .ready s2 = x at hready hu ⊢
  obtain ⟨b, s3⟩ := x
  have h3 := (hu b s3 rfl).trans ht
  match b, hready with
  | some true, h => exact absurd rfl h
  | some false, _ => exact next s3 h3
  | none, _ => exact next s3 h3

/-! ## Runs -/

namespace Lesson
variable {τ : Type}

/-- What goes on in the process. -/
def Good (P : Link.Peer (Option (Loop.Program τ))) (m : Metadata) : Option τ → Proc.State (Link.State (Option (Loop.Program τ))) → Prop
  | none, s => s.process = none ∧ s.world.broken = false
  | some u, s => ∃ x : Loop.Step τ × Region, x.1.state = u ∧ Link.Phase P (Link.settled (Loop.Tracking m x)) (· = some true) s

theorem good_sound {P : Link.Peer (Option (Loop.Program τ))} {m : Metadata} {status : Option τ} {s : Proc.State (Link.State (Option (Loop.Program τ)))} (h : Good P m status s) :
    s.world.broken = false := by
  cases status with
  | none => exact h.2
  | some u => obtain ⟨x, -, h⟩ := h; exact h.sound

section
variable {T : Loop.Tracker τ} {m : Metadata} {env senv : Env} {shared : Bool} {junk : UInt32} {stream : Stream} {report : Nat → Proc.Poll} {out : Writer} {turns : Nat → Bool}
  {custom : List (Str × Str)} {truth : List (Option Region)} {path : Nat → Str}

theorem loop_taught (hm : Introducible m custom 4) (hc : m.channels = 1) (hi : m.images &&& 1 ≠ 0) (hin : stream.input = []) (hout : stream.out.Reliable) (hco : out.Reliable)
    {n : Nat} (hn : n < 10 ^ 8) (hpath : ∀ f, f < n → Numbered f (path f)) {final : Option τ} {f : Nat} {status : Option τ} {ys : List Region}
    (h : Taught truth path env m T n final f status ys) :
    ∀ (j rest : Nat) (s : Proc.State (Link.State (Option (Loop.Program τ)))), f + j = n → Good (Loop.peer senv T shared m junk stream report) m status s →
      ∃ t, Good (Loop.peer senv T shared m junk stream report) m final t ∧
        loop (Link.world (Loop.peer senv T shared m junk stream report) env out turns) truth (j + rest) f s =
          match loop (Link.world (Loop.peer senv T shared m junk stream report) env out turns) truth rest n t with
          | (e, answers, u) => (e, ys.map some ++ answers, u) := by
  have hch : m.channels &&& 7 = m.channels := by rw [hc]; rfl
  have H := Loop.serves_again senv env T shared m junk stream report out [] hm hch hin hout hco (by simp [SendablePairs])
  rw [ofPairs_nil] at H
  induction h with
  | done =>
    intro j rest s hj hs
    obtain rfl : j = 0 := by omega
    refine ⟨s, hs, ?_⟩
    rw [Nat.zero_add]
    rfl
  | @begin f status r start x text y ys hf h50 hr hoff hx hrep _ ih =>
    intro j rest s hj hs
    obtain ⟨k, rfl⟩ : ∃ k, j = k + 1 := ⟨j - 1, by omega⟩
    have hsend := images_sent (m := m) (i := f) (by omega) hc hi (hpath f hf)
    obtain ⟨o1, sent, st, o2, o3, o4, o5⟩ := hoff
    have hst : Loop.Starts env T m [] (images f) r (x, y) := ⟨(Loop.told hrep).1, o1, sent, st, start, _, o2, (Loop.comes o3 o4 o5).1, hsend, by rw [ofPairs_nil]; exact hx.symm⟩
    have hset : ∃ s', (Link.process (Link.world (Loop.peer senv T shared m junk stream report) env out turns) true).setup (images f) (some r) Properties.create s = (true, s') ∧
        Link.Phase (Loop.peer senv T shared m junk stream report) (fun c n p => Loop.Asked senv T m (x, y) c n p ∨ Loop.Again senv T m [] (x, y) c n p) (· = some true) s' := by
      cases status with
      | none => exact Link.setup_new (turns := turns) H true hs.1 hs.2 hst
      | some u =>
        obtain ⟨z, -, hz⟩ := hs
        refine Link.setup_to true (H.alive.2.1 z) (H.up.2.1 z) (fun c p hcp => ?_) ⟨hz.runs, hz.ends, trivial, hz.sound⟩
        obtain ⟨c', e1, e2⟩ := Loop.again_requested senv env T m [] hch (by simp [SendablePairs]) hcp hst
        rw [ofPairs_nil] at e1
        exact ⟨c', e1, .inr e2⟩
    obtain ⟨s1, h1, h2⟩ := hset
    obtain ⟨s2, h3, h4⟩ := Link.wait_asked (turns := turns) H true h2
    obtain ⟨w1, w2⟩ := Link.wait_state h3
    obtain ⟨t, t1, t2⟩ := ih k rest s2 (by omega) ⟨(x, y), rfl, h4⟩
    refine ⟨t, t1, ?_⟩
    rw [show k + 1 + rest = (k + rest) + 1 by omega, loop]
    have hreq : request (Link.world (Loop.peer senv T shared m junk stream report) env out turns) truth f s = (some true, s1) := by
      unfold request
      rw [if_pos h50, show truth.getD f none = some r by rw [List.getD_eq_getElem?_getD, hr]; rfl]
      exact Link.setup_method h1
    rw [hreq]
    dsimp only
    rw [w1]
    dsimp only
    rw [t2, w2]
    rfl
  | @go f u x text y ys hf h50 hx hrep _ ih =>
    intro j rest s hj hs
    obtain ⟨k, rfl⟩ : ∃ k, j = k + 1 := ⟨j - 1, by omega⟩
    have hsend := images_sent (m := m) (i := f) (by omega) hc hi (hpath f hf)
    obtain ⟨z, rfl, hz⟩ := hs
    have hgo : Loop.Goes T m z (images f) (x, y) := ⟨(Loop.told hrep).1, _, hsend, by rw [ofPairs_nil]; exact hx.symm⟩
    obtain ⟨s1, h1, h2⟩ := Link.frame_tracking (turns := turns) H true hz hgo
    obtain ⟨s2, h3, h4⟩ := Link.wait_asked (turns := turns) H true h2
    obtain ⟨w1, w2⟩ := Link.wait_state h3
    obtain ⟨t, t1, t2⟩ := ih k rest s2 (by omega) ⟨(x, y), rfl, h4⟩
    refine ⟨t, t1, ?_⟩
    rw [show k + 1 + rest = (k + rest) + 1 by omega, loop]
    have hreq : request (Link.world (Loop.peer senv T shared m junk stream report) env out turns) truth f s = (some true, s1) := by
      unfold request
      rw [if_neg h50]
      exact Link.frame_method h1
    rw [hreq]
    dsimp only
    rw [w1]
    dsimp only
    rw [t2, w2]
    rfl

/-- An update that is not answered. -/
theorem loop_left (hm : Introducible m custom 4) (hc : m.channels = 1) (hi : m.images &&& 1 ≠ 0) (hin : stream.input = []) (hout : stream.out.Reliable) (hco : out.Reliable)
    {f n : Nat} (hf : f + 1 < 10 ^ 8) (hp : Numbered f (path f)) (h50 : f % 50 ≠ 0) (h51 : (f + 1) % 50 ≠ 0) {u : τ} {x : Loop.Step τ}
    (hx : x = T.update u [some (.path (path f)), none, none] Properties.create) (hb : Chatter x.before) (hfate : x.fate = .leaves ∨ x.fate = .crashes)
    {s : Proc.State (Link.State (Option (Loop.Program τ)))} (hs : Good (Loop.peer senv T shared m junk stream report) m (some u) s) :
    ∃ t, loop (Link.world (Loop.peer senv T shared m junk stream report) env out turns) truth (n + 2) f s = (.thrown, [], t) := by
  have hch : m.channels &&& 7 = m.channels := by rw [hc]; rfl
  have H := Loop.serves_joined senv env T shared m junk stream report out [] hm hch hin hout hco (by simp [SendablePairs])
  have F := Loop.fails_last senv env T shared m junk stream report [] hch (by simp [SendablePairs])
  obtain ⟨z, rfl, hz⟩ := hs
  have hlast : Loop.LastGo T m report z (images f) := by
    refine ⟨x, ⟨?_, ?_⟩, _, images_sent hf hc hi hp, by rw [ofPairs_nil]; exact hx.symm⟩
    · obtain ⟨ls, a, b⟩ := hb
      exact ⟨ls, a, b⟩
    · rcases hfate with h | h
      · exact .inl h
      · exact .inr ⟨h, fun h => nomatch h⟩
  obtain ⟨s1, h1, h2⟩ := Link.frame_to (out := out) (turns := turns) true (H.alive.2.1 z) (H.up.2.1 z) (fun c p hcp => F.frame z c p (images f) hcp hlast) hz
  obtain ⟨s2, h3, h4⟩ := Link.wait_doomed (out := out) (turns := turns) F true h2
  refine C168_errors_false _ truth f n s s1 s2 ?_ (Link.wait_no h3) ?_ h51
  · unfold request
    rw [if_neg h50]
    exact Link.frame_method h1
  · have h4' : ((Link.method (Link.world (Loop.peer senv T shared m junk stream report) env out turns) true .ready s2).1.getD false) = false := h4
    intro h
    rw [h] at h4'
    cases h4'

end

theorem main_loop {π : Type} {read : Str → Option Str} {W : List Str → Proc.World (Link.State π)} {argv : List Str} {file : Str} {truth : List (Option Region)}
    (hargs : argv.drop 1 ≠ []) (hq : ∀ a ∈ argv.drop 1, Quotable a) (hread : read b!"groundtruth.txt" = some file) (hfile : loadTrajectory file = .ok truth) (hpos : 0 < truth.length) :
    main read W argv = .ok (some (loop (W (argv.drop 1)) truth truth.length 0 (Proc.State.fresh {}))) := by
  unfold main
  have hlen : ¬ argv.length < 2 := by
    intro h
    exact hargs (List.drop_eq_nil_of_le (by omega))
  rw [if_neg hlen, hread]
  dsimp only
  rw [hfile, Outcome.bind_ok, if_neg (by intro h; rw [h] at hpos; cases hpos)]
  have : processCommand (command (argv.drop 1)) = .ok (argv.drop 1) := Environ.C94_arguments_partial _ hargs hq
  rw [this]
  rfl

end Lesson

/-- **C168.** The client of the tutorial does what the tutorial says: the tracker is started with the words that are given to the client; it is initialized with the image of every fiftieth frame and the region of
that frame in the file `groundtruth.txt`, and updated with the image of each other frame, in their order and once with each; the images are the files `00000001.jpg`, `00000002.jpg` and so on; and the
client gets the regions that the tracker has found. That is so for every tracker that follows the documentation and wants colour images as paths, for all lengths of the sequence and all schedules of the watchdog.
Missing from the full claim: more than 10^8 - 2 frames, trackers that want other images (the client has none for them), words that cannot be quoted (C94_arguments_false), and trackers that
end the session (`C168_quit_false`, `C168_errors_false`). -/
theorem C168_lesson_partial {τ : Type} (read : Str → Option Str) (argv : List Str) (file : Str) (truth : List (Option Region)) (path : Nat → Str) (ys : List Region) (final : Option τ)
    -- the tracker (`TRAX_CHANNEL_COLOR` and `TRAX_IMAGE_PATH` are 1)
    (W : List Str → Proc.World (Link.State (Option (Loop.Program τ)))) (T : Loop.Tracker τ) (m : Metadata) (env senv : Env) (shared : Bool) (junk : UInt32) (stream : Stream)
    (report : Nat → Proc.Poll) (out : Writer) (turns : Nat → Bool) (custom : List (Str × Str))
    (hW : W (argv.drop 1) = Link.world (Loop.peer senv T shared m junk stream report) env out turns)
    (hm : Introducible m custom 4) (hc : m.channels = 1) (hi : m.images &&& 1 ≠ 0) (hin : stream.input = []) (hout : stream.out.Reliable) (hco : out.Reliable)
    -- the arguments and the file
    (hargs : argv.drop 1 ≠ []) (hq : ∀ a ∈ argv.drop 1, Quotable a) (hread : read b!"groundtruth.txt" = some file) (hfile : loadTrajectory file = .ok truth)
    (hpos : 0 < truth.length) (hlen : truth.length < 10 ^ 8) (hpath : ∀ f, f < truth.length → Numbered f (path f))
    -- the run
    (h : Taught truth path env m T truth.length final 0 none ys) :
    ∃ t, Lesson.main read W argv = .ok (some (.finished, ys.map some, t)) ∧ t.world.broken = false := by
  rw [Lesson.main_loop hargs hq hread hfile hpos, hW]
  obtain ⟨t, t1, t2⟩ := Lesson.loop_taught (senv := senv) (shared := shared) (junk := junk) (report := report) (turns := turns) hm hc hi hin hout hco hlen hpath h truth.length 0
    (Proc.State.fresh {}) (by omega) ⟨rfl, rfl⟩
  rw [show truth.length = truth.length + 0 by omega] at *
  refine ⟨t, ?_, Lesson.good_sound t1⟩
  rw [t2]
  simp [Lesson.loop]

/-- **C168 for the end of a session** (false). "The tracker has requested termination" is never found out in the way in which the tutorial looks for it: when the tracker ends the session or crashes in place of
an answer, the client does not leave the loop, and unless the tracker is to be initialized with the next frame, it dies of an exception that nobody catches. That is so for every tracker, after any number of frames. -/
theorem C168_quit_false {τ : Type} (read : Str → Option Str) (argv : List Str) (file : Str) (truth : List (Option Region)) (path : Nat → Str) (ys : List Region) (u : τ) (f : Nat) (x : Loop.Step τ)
    -- the tracker (`TRAX_CHANNEL_COLOR` and `TRAX_IMAGE_PATH` are 1)
    (W : List Str → Proc.World (Link.State (Option (Loop.Program τ)))) (T : Loop.Tracker τ) (m : Metadata) (env senv : Env) (shared : Bool) (junk : UInt32) (stream : Stream)
    (report : Nat → Proc.Poll) (out : Writer) (turns : Nat → Bool) (custom : List (Str × Str))
    (hW : W (argv.drop 1) = Link.world (Loop.peer senv T shared m junk stream report) env out turns)
    (hm : Introducible m custom 4) (hc : m.channels = 1) (hi : m.images &&& 1 ≠ 0) (hin : stream.input = []) (hout : stream.out.Reliable) (hco : out.Reliable)
    -- the arguments and the file
    (hargs : argv.drop 1 ≠ []) (hq : ∀ a ∈ argv.drop 1, Quotable a) (hread : read b!"groundtruth.txt" = some file) (hfile : loadTrajectory file = .ok truth)
    (hlen : truth.length < 10 ^ 8) (hpath : ∀ f, f < truth.length → Numbered f (path f))
    -- the run up to frame `f`, in which the tracker ends
    (h : Taught truth path env m T f (some u) 0 none ys) (hf : f + 1 < truth.length) (h50 : f % 50 ≠ 0) (h51 : (f + 1) % 50 ≠ 0)
    (hx : x = T.update u [some (.path (path f)), none, none] Properties.create) (hbefore : Chatter x.before) (hfate : x.fate = .leaves ∨ x.fate = .crashes) :
    ∃ t, Lesson.main read W argv = .ok (some (.thrown, ys.map some, t)) := by
  rw [Lesson.main_loop hargs hq hread hfile (by omega), hW]
  obtain ⟨t, t1, t2⟩ := Lesson.loop_taught (senv := senv) (shared := shared) (junk := junk) (report := report) (turns := turns) hm hc hi hin hout hco (by omega) (fun f hf => hpath f (by omega)) h
    f (truth.length - f) (Proc.State.fresh {}) (by omega) ⟨rfl, rfl⟩
  rw [show truth.length = f + (truth.length - f) by omega, t2]
  obtain ⟨t', h'⟩ := Lesson.loop_left (senv := senv) (env := env) (shared := shared) (junk := junk) (report := report) (out := out) (turns := turns) (truth := truth) (n := truth.length - f - 2) hm hc hi hin hout hco
    (by omega) (hpath f (by omega)) h50 h51 hx hbefore hfate t1
  rw [show truth.length - f = truth.length - f - 2 + 2 by omega, h']
  exact ⟨t', by simp⟩

/-! ## Concrete cases -/

namespace Demo

/-- A tracker that always finds the square with the side 4, and says so in other lines; it ends in the second update, in some way. -/
def taught (fate : Loop.Fate) (words : List Str) : Proc.World (Link.State (Option (Loop.Program Nat))) :=
  if words = [b!"my tracker", b!"-x"] then Link.world (Loop.peer quiet (ending false fate) true declared 0 ⟨none, [], unwritten⟩ late) quiet unwritten (fun n => n % 2 == 0)
  else Link.world (Loop.peer quiet (ending true .crashes) true declared 0 ⟨none, [], unwritten⟩ late) quiet unwritten (fun _ => true)

/-- The file with the regions. -/
def taughtFile (n : Nat) (name : Str) : Option Str := if name = b!"groundtruth.txt" then some ((List.replicate n b!"0,0,4,4\n").flatten) else none

def taughtArgs : List Str := [b!"client", b!"my tracker", b!"-x"]

end Demo

/-- The names of the images. -/
example : Numbered 0 b!"00000001.jpg" ∧ Numbered 1233 b!"00001234.jpg" ∧ Lesson.imageName 99 = b!"00000100.jpg" :=
  ⟨⟨b!"00000001", by decide +kernel⟩, ⟨b!"00001234", by decide +kernel⟩, by decide +kernel⟩

/-- The run of the model itself: four frames are left when the tracker answers, and it ends in the third one otherwise. -/
example : ((Lesson.main (Demo.taughtFile 4) (Demo.taught .answers) Demo.taughtArgs).map fun o => o.map fun x => (x.1, x.2.1)) = .ok (some (.finished, List.replicate 4 (some (Demo.square 4)))) := by
  decide +kernel
example : ((Lesson.main (Demo.taughtFile 4) (Demo.taught .leaves) Demo.taughtArgs).map fun o => o.map fun x => (x.1, x.2.1)) = .ok (some (.thrown, List.replicate 2 (some (Demo.square 4)))) := by
  decide +kernel
example : ((Lesson.main (Demo.taughtFile 3) (Demo.taught .leaves) Demo.taughtArgs).map fun o => o.map fun x => (x.1, x.2.1)) = .ok (some (.finished, List.replicate 2 (some (Demo.square 4)))) := by
  decide +kernel

/-- A session with more than fifty frames, in which the tracker is initialized twice. -/
example : ((Lesson.main (Demo.taughtFile 52) (Demo.taught .answers) Demo.taughtArgs).map fun o => o.map fun x => (x.1, x.2.1, x.2.2.world.peer.join.bind fun p => p.tracker)) =
    .ok (some (.finished, List.replicate 52 (some (Demo.square 4)), some 1)) := by
  decide +kernel

/-- The run as it is described, up to frame 2. -/
theorem Demo.lesson (fate : Loop.Fate) (n : Nat) (hn : 0 < n) (path : Nat → Str) : Taught (List.replicate n (some (Demo.square 4))) path Demo.quiet Demo.declared (Demo.ending false fate) 2 (some 1) 0 none
    [Demo.square 4, Demo.square 4] := by
  have square_sendable : Sendable (Demo.square 4) := by constructor <;> decide +kernel
  have offered : Offered Demo.quiet Demo.declared (Demo.square 4) (Demo.square 4) :=
    ⟨square_sendable, Demo.square 4, b!"0.0000,0.0000,4.0000,4.0000", by decide +kernel, square_sendable, by decide +kernel, by show _ = _; decide +kernel⟩
  have hello : Chatter b!"hello\n" := ⟨[b!"hello"], by simp only [List.mem_singleton, forall_eq]; decide, rfl⟩
  have frame : Chatter b!"frame\n" := ⟨[b!"frame"], by simp only [List.mem_singleton, forall_eq]; decide, rfl⟩
  have nothing : Chatter [] := ⟨[], by simp, rfl⟩
  have string : (Demo.square 4).string = .ok (some b!"0.0000,0.0000,4.0000,4.0000") := by decide +kernel
  have parse : Region.parse b!"0.0000,0.0000,4.0000,4.0000" = .ok ⟨1, some (Demo.square 4), 0⟩ := by decide +kernel
  refine .begin (by decide) rfl (by rw [List.getElem?_replicate, if_pos hn]) offered rfl ⟨rfl, square_sendable, hello, nothing, string, parse⟩ ?_
  exact .go (by decide) (by decide) rfl ⟨rfl, square_sendable, frame, nothing, string, parse⟩ .done

/-- The conditions of the theorems are met. -/
theorem Demo.declared_introducible : Introducible Demo.declared [] 4 :=
  ⟨by decide, (by decide : (2 : UInt32) &&& 14 = 2), (by decide : (1 : UInt32) &&& 15 = 1), by decide, fun h => absurd h (by decide), by rintro s (h | h | h) <;> cases h <;> decide, rfl, by decide⟩

theorem Demo.taught_quotable : ∀ a ∈ Demo.taughtArgs.drop 1, Quotable a := by
  intro a ha
  simp only [Demo.taughtArgs, List.drop_succ_cons, List.drop_zero, List.mem_cons, List.not_mem_nil, or_false] at ha
  rcases ha with rfl | rfl <;> exact Environ.quotable_plain (by decide) (by decide) (by decide)

example : ∃ t, Lesson.main (Demo.taughtFile 4) (Demo.taught .leaves) Demo.taughtArgs = .ok (some (.thrown, [some (Demo.square 4), some (Demo.square 4)], t)) :=
  C168_quit_false (Demo.taughtFile 4) Demo.taughtArgs ((List.replicate 4 b!"0,0,4,4\n").flatten) (List.replicate 4 (some (Demo.square 4))) Lesson.imageName [Demo.square 4, Demo.square 4] 1 2 _
    (Demo.taught .leaves) (Demo.ending false .leaves) Demo.declared Demo.quiet Demo.quiet true 0 ⟨none, [], Demo.unwritten⟩ Demo.late Demo.unwritten (fun n => n % 2 == 0) []
    (if_pos rfl) Demo.declared_introducible rfl (by decide) rfl (by decide) (by decide) (by decide) Demo.taught_quotable rfl (by decide +kernel) (by decide)
    (fun f hf => Lesson.imageName_numbered (Nat.lt_of_le_of_lt hf (by decide))) (Demo.lesson .leaves 4 (by decide) _) (by decide) (by decide) (by decide) rfl
    ⟨[b!"frame"], by simp only [List.mem_singleton, forall_eq]; decide, rfl⟩ (.inl rfl)

example : ∃ t, Lesson.main (Demo.taughtFile 2) (Demo.taught .leaves) Demo.taughtArgs = .ok (some (.finished, [some (Demo.square 4), some (Demo.square 4)], t)) ∧ t.world.broken = false :=
  C168_lesson_partial (Demo.taughtFile 2) Demo.taughtArgs ((List.replicate 2 b!"0,0,4,4\n").flatten) (List.replicate 2 (some (Demo.square 4))) Lesson.imageName [Demo.square 4, Demo.square 4] (some 1)
    (Demo.taught .leaves) (Demo.ending false .leaves) Demo.declared Demo.quiet Demo.quiet true 0 ⟨none, [], Demo.unwritten⟩ Demo.late Demo.unwritten (fun n => n % 2 == 0) []
    (if_pos rfl) Demo.declared_introducible rfl (by decide) rfl (by decide) (by decide) (by decide) Demo.taught_quotable rfl (by decide +kernel) (by decide) (by decide)
    (fun f hf => Lesson.imageName_numbered (Nat.lt_of_le_of_lt hf (by decide))) (Demo.lesson .leaves 2 (by decide) _)

end Trax
