import Verif.Lemmas.LogThreads

/-!
# Property theorems C111–C114: the log of a tracker process under all schedules
-/

namespace Trax
open LogSys LogSys.Spec
open Trax.Spec (OneLine Limited LinesShorter)

/-- **C111** (partial): for every schedule of the logger thread and of the thread that uses the tracker, from the start of the first tracker until
it is to be stopped, with lines shorter than 2 GiB: the log is a sequence of pieces, each from the error stream or from
the connection. The pieces from the connection are, in order, what came over the connection with every line cut to 256
bytes, and the pieces from the error stream what the logger thread has read of the error stream, cut in the same way, up to the last line
that has not ended. What has not been read is still in the stream. When no line is too long and no
pause or message falls within a line, then every piece is a whole line: lines of the two streams are never mixed.

Missing: lines that are interrupted, which are mixed (`C111_lines_false`). The time after the stop is the subject of C113 and C114. -/
theorem C111_log_partial (table : Nat → Option Nat) (unread : Nat → Str) (fd : Nat) (es : List Event) (o : Outcome State)
    (hrun : run false (start table unread) (.spawn fd :: es) = some o) (hstop : .stop ∉ es)
    (hl1 : LinesShorter 2147483647 (printed (.tracker 0) es)) (hl2 : LinesShorter 2147483647 (relayed es)) :
    ∃ s, o = .ok s ∧ printed (.tracker 0) es = consumed es ++ s.unread (.tracker 0) ∧
      ∃ pieces restErr restOut, s.log = text pieces ∧
        Limited 256 (consumed es) (share true pieces ++ restErr) ∧ Limited 256 (relayed es) (share false pieces ++ restOut) ∧
        (Ended (consumed es) → restErr = []) ∧ (Ended (relayed es) → restOut = []) ∧
        (LinesShorter 256 (printed (.tracker 0) es) → LinesShorter 256 (relayed es) → NoPause es → ∀ p ∈ pieces, WholeLine p.2) := by
  rw [run_cons] at hrun
  cases hst : LogSys.step false (start table unread) (.spawn fd) with
  | none => simp [hst] at hrun
  | some o' =>
    obtain ⟨s₀, rfl, hs₀⟩ := Sess.start hst
    simp only [hst] at hrun
    obtain ⟨s, rfl, hs⟩ := Sess.run es hs₀ hstop hl1 hl2 hrun
    rw [List.nil_append] at hs
    obtain ⟨ps, g1, g2, g3, g4⟩ := hs.log
    refine ⟨s, rfl, ?_, ps, s.error.content, s.out.content, g1.symm, ?_, ?_, g2.ended, g3.ended, fun a b c => (g4 a b c).1⟩
    · rw [hs.unread]
      exact (List.take_append_drop _ _).symm
    · rw [g2.whole]
      exact cutText_limited (t := 256) (by decide) _ _ (Nat.le_refl _)
    · rw [g3.whole]
      exact cutText_limited (t := 256) (by decide) _ _ (Nat.le_refl _)

/-- Two lines of the error stream and one of the connection, read in turns. -/
example : let es : List Event := [.print (.tracker 0) b!"a\nb\n", .lookup, .relay ch%'x', .read, .relay ch%'y',
      .read, .read, .relay ch%'\n', .relayEnd, .read, .miss, .settle]
    .stop ∉ es ∧ LinesShorter 256 (printed (.tracker 0) es) ∧ LinesShorter 256 (relayed es) ∧ NoPause es :=
  ⟨by decide, linesShorter_of_length (by decide), linesShorter_of_length (by decide), noPause_of (by decide +kernel)⟩

/-- … gives the lines one after the other. -/
example : (run false (start (fun _ => none) (fun _ => [])) (.spawn 5 :: [.print (.tracker 0) b!"a\nb\n", .lookup, .relay ch%'x', .read, .relay ch%'y',
      .read, .read, .relay ch%'\n', .relayEnd, .read, .miss, .settle])).map (·.map (·.log)) = some (.ok b!"a\nxy\nb\n") := by
  decide +kernel

/-- The lines of the two streams may be mixed: the tracker prints `error` to its error stream with a pause of a second within, and a line
that came over the connection gets into the middle. -/
theorem C111_lines_false : ∃ es : List Event, .stop ∉ es ∧ printed (.tracker 0) es = b!"error\n" ∧ relayed es = b!"hello\n" ∧
    (run false (start (fun _ => none) (fun _ => [])) (.spawn 5 :: es)).map (·.map (·.log)) = some (.ok b!"erhello\nror\n") :=
  ⟨[.print (.tracker 0) b!"er", .lookup, .read, .read, .miss, .settle] ++ (b!"hello\n").map .relay ++
      [.print (.tracker 0) b!"ror\n", .lookup, .read, .read, .read, .read], by decide, by decide, by decide, by decide +kernel⟩

/-- **C112** (partial): a silent client writes nothing to the log, for every schedule in which nothing is read when a tracker is stopped.

Missing: what is read of the error stream when the tracker is stopped, which is written to the log all the same (`C112_silent_false`). -/
theorem C112_silent_partial (table : Nat → Option Nat) (unread : Nat → Str) (es : List Event) (s : State)
    (hrun : run true (start table unread) es = some (.ok s)) (hd : .drain ∉ es) : s.log = [] := by
  suffices h : ∀ (es : List Event) (s₀ : State), s₀.taken = [] → s₀.log = [] → .drain ∉ es → run true s₀ es = some (.ok s) → s.log = [] from
    h es _ rfl rfl hd hrun
  intro es
  induction es with
  | nil => intro s₀ _ hl _ hr; cases hr; exact hl
  | cons e es ih =>
    intro s₀ ht hl hd hr
    rw [run_cons] at hr
    cases hst : LogSys.step true s₀ e with
    | none => simp [hst] at hr
    | some o' =>
      simp only [hst] at hr
      cases o' with
      | ok s₁ =>
        obtain ⟨h1, h2⟩ := step_silent hst (fun hh => hd (by rw [hh]; simp)) ht
        exact ih s₁ h1 (by rw [h2, hl]) (fun hh => hd (by simp [hh])) hr
      | abort => cases hr
      | ub => cases hr

/-- A silent client reads a line of the error stream. -/
example : (run true (start (fun _ => none) (fun _ => [])) [.spawn 5, .print (.tracker 0) b!"a\n", .lookup, .read, .read, .miss, .settle, .exit, .stop,
    .stopped]).map (·.map (·.log)) = some (.ok []) := by
  decide +kernel

/-- A silent client writes to the log what a tracker prints just before it ends. -/
theorem C112_silent_false : (run true (start (fun _ => none) (fun _ => [])) [.spawn 5, .stop, .print (.tracker 0) b!"a\n", .exit, .drain, .pass, .pass,
    .stopped]).map (·.map (·.log)) = some (.ok b!"a\n") := by
  decide +kernel

/-- **C113** (partial): when a tracker is stopped, everything it has printed to its error stream is in the log, in order, and so is everything that came over
the connection, provided that no line is longer than 255 bytes, that the tracker prints nothing from then on and its last line has ended, that the logger thread
has just read a whole line and does not get to read any more, and that at most 10240 bytes are left to be read.

Missing: everything else. Of a line that has not ended, and of a line that both threads read, a part is lost (`C113_stopped_false`). -/
theorem C113_stopped_partial (table : Nat → Option Nat) (unread : Nat → Str) (fd : Nat) (es mid : List Event) (o : Outcome State)
    (hrun : run false (start table unread) (.spawn fd :: (es ++ .stop :: (mid ++ [.stopped]))) = some o) (hstop : .stop ∉ es)
    (hmid : ∀ e ∈ mid, e = .drain ∨ e = .pass)
    (hl1 : LinesShorter 256 (printed (.tracker 0) es)) (hl2 : LinesShorter 256 (relayed es))
    (he1 : Ended (consumed es)) (he2 : Ended (relayed es)) (he3 : Ended (printed (.tracker 0) es))
    (hsize : (printed (.tracker 0) es).length ≤ (consumed es).length + 10240) :
    ∃ s, o = .ok s ∧ ∃ pieces, s.log = text pieces ∧ share true pieces = printed (.tracker 0) es ∧ share false pieces = relayed es := by
  rw [run_cons] at hrun
  cases hst : LogSys.step false (start table unread) (.spawn fd) with
  | none => simp [hst] at hrun
  | some o' =>
    obtain ⟨s₀, rfl, hs₀⟩ := Sess.start hst
    simp only [hst] at hrun
    obtain ⟨o₁, hr₁, hk⟩ := run_append false es hrun
    obtain ⟨s₁, rfl, hs₁⟩ := Sess.run es hs₀ hstop (linesShorter_mono (by decide) hl1) (linesShorter_mono (by decide) hl2) hr₁
    rw [List.nil_append] at hs₁
    have hr₂ := hk s₁ rfl
    rw [run_cons] at hr₂
    obtain ⟨alive, hproc⟩ := hs₁.proc
    have hstep : LogSys.step false s₁ .stop = some (.ok { s₁ with stopping := some 10 }) := by
      unfold LogSys.step
      dsimp only
      rw [if_pos ⟨by rw [hproc]; simp, hs₁.stopping⟩]
    simp only [hstep] at hr₂
    obtain ⟨ps, g1, g2, g3, g4⟩ := hs₁.log
    have hall : printed (.tracker 0) es = consumed es ++ s₁.unread (.tracker 0) := by
      rw [hs₁.unread]; exact (List.take_append_drop _ _).symm
    rw [hall] at hl1 he3 hsize
    rw [List.length_append] at hsize
    have hlu : LinesShorter 256 (s₁.unread (.tracker 0)) := linesShorter_suffix hl1
    have hstart : Stopping fd s₁.log (s₁.unread (.tracker 0)) [] { s₁ with stopping := some 10 } := by
      refine ⟨hs₁.proc, hs₁.table, ?_, ⟨10, rfl, ?_⟩, ?_, ?_, ?_, fun _ => g3.ended he2⟩
      · dsimp only; rw [hs₁.taken]; rfl
      · dsimp only; omega
      · dsimp only; rw [g3.count, lineCount_ended he2]; rfl
      · exact g3.room
      · dsimp only; rw [g3.ended he2]; rfl
    obtain ⟨s₂, d, hr₃, hs₂⟩ := Stopping.run mid hstart (linesShorter_mono (by decide) hlu) hmid hr₂
    rw [run_cons] at hr₃
    cases hst₂ : LogSys.step false s₂ .stopped with
    | none => simp [hst₂] at hr₃
    | some o₂ =>
      simp only [hst₂] at hr₃
      obtain ⟨alive₂, hproc₂⟩ := hs₂.proc
      obtain ⟨k, hk, hlen⟩ := hs₂.rounds
      unfold LogSys.step at hst₂
      simp only [hproc₂, hk] at hst₂
      split at hst₂
      swap
      · cases hst₂
      next hc =>
      cases hst₂
      cases hr₃
      refine ⟨_, rfl, ps ++ [(true, s₁.unread (.tracker 0))], ?_, ?_, ?_⟩
      · dsimp only
        have hu : s₂.unread (.tracker 0) = [] := by
          rcases hc.2 with h0 | h0
          · subst h0
            exact List.length_eq_zero_iff.1 (by omega)
          · unfold State.readable at h0
            rw [hs₂.table] at h0
            simpa using h0
        have hd := hs₂.split
        rw [hc.1, hu, List.append_nil, List.append_nil] at hd
        have hw := hs₂.whole
        rw [← hd] at hw
        rw [hs₂.ended (by rw [← hd]; exact ended_suffix he3), List.append_nil, cutText_short hlu] at hw
        rw [hw, ← g1]
        simp [text]
      · have hw := g2.whole
        rw [g2.ended he1, List.append_nil, cutText_short (linesShorter_prefix hl1)] at hw
        have : share true (ps ++ [(true, s₁.unread (.tracker 0))]) = share true ps ++ s₁.unread (.tracker 0) := by simp [share, text]
        rw [this, hw, hall]
      · have hw := g3.whole
        rw [g3.ended he2, List.append_nil, cutText_short hl2] at hw
        have : share false (ps ++ [(true, s₁.unread (.tracker 0))]) = share false ps := by simp [share, text]
        rw [this, hw]

/-- A tracker that prints a last line when it is asked to end. -/
example : let es : List Event := [.print (.tracker 0) b!"a\n", .lookup, .read, .read, .relay ch%'x', .relay ch%'\n',
      .print (.tracker 0) b!"end\n", .exit]
    LinesShorter 256 (printed (.tracker 0) es) ∧ LinesShorter 256 (relayed es) ∧ Ended (consumed es) ∧ Ended (relayed es) ∧
      Ended (printed (.tracker 0) es) ∧ (printed (.tracker 0) es).length ≤ (consumed es).length + 10240 :=
  ⟨linesShorter_of_length (by decide), linesShorter_of_length (by decide), by decide +kernel, by decide +kernel, by decide +kernel, by decide +kernel⟩

/-- … and it is in the log. -/
example : (run false (start (fun _ => none) (fun _ => [])) (.spawn 5 :: ([.print (.tracker 0) b!"a\n", .lookup, .read, .read, .relay ch%'x', .relay ch%'\n',
      .print (.tracker 0) b!"end\n", .exit] ++ .stop :: ([.drain, .pass, .pass, .pass, .pass] ++ [.stopped])))).map (·.map (·.log))
    = some (.ok b!"a\nx\nend\n") := by
  decide +kernel

/-- The full claim is false: a last line that has not ended is lost although the logger thread has read all of it; and a line is torn and its first byte lost
when both threads read. -/
theorem C113_stopped_false :
    (run false (start (fun _ => none) (fun _ => [])) [.spawn 5, .print (.tracker 0) b!"abort", .lookup, .read, .read, .read, .read, .read, .exit, .stop,
      .stopped]).map (·.map (·.log)) = some (.ok []) ∧
    (run false (start (fun _ => none) (fun _ => [])) [.spawn 5, .lookup, .print (.tracker 0) b!"abort\n", .exit, .stop, .read, .drain, .pass, .pass, .pass,
      .pass, .pass, .stopped]).map (·.map (·.log)) = some (.ok b!"bort\n") := by
  decide +kernel

/-- **C114** (partial): for every number of trackers and every schedule, nothing is read from the files of the program, if the program never gets for a file of its
own a descriptor at which the error stream of an earlier tracker was.

Missing: programs that get such a descriptor, whose files are read by the logger thread (`C114_files_false`). -/
theorem C114_files_partial (silent : Bool) (table : Nat → Option Nat) (unread : Nat → Str) (es : List Event) (s : State)
    (hrun : run silent (start table unread) es = some (.ok s))
    (hopen : ∀ pre fd n post, es = pre ++ .open fd n :: post → .spawn fd ∉ pre) (n : Nat) :
    s.unread (.user n) = unread n ++ printed (.user n) es := by
  have := Own.run (silent := silent) es (own_start table unread) (by simpa using hopen) hrun
  simpa using this.files n

/-- The program has a file at descriptor 3 and opens another one while a tracker runs. -/
example : (run false (start (fun fd => if fd = 3 then some 0 else none) (fun n => if n = 0 then b!"mine" else [])) [.spawn 5, .lookup,
      .print (.tracker 0) b!"a\n", .open 6 1, .print (.user 1) b!"too", .read, .read, .exit, .stop, .stopped, .miss, .settle]).map
        (·.map fun s => (s.unread (.user 0), s.unread (.user 1), s.log)) = some (.ok (b!"mine", b!"too", b!"a\n")) := by
  decide +kernel

/-- The full claim is false: after the tracker was stopped the logger thread goes on reading at the same descriptor; when the program opens a file, it gets
this descriptor, and its contents disappear and show up in the log. -/
theorem C114_files_false :
    (run false (start (fun _ => none) (fun n => if n = 0 then b!"key\nrest" else [])) [.spawn 5, .lookup, .exit, .stop, .stopped, .miss, .settle, .open 5 0,
      .read, .read, .read, .read]).map (·.map fun s => (s.unread (.user 0), s.log)) = some (.ok (b!"rest", b!"key\n")) := by
  decide +kernel

end Trax
