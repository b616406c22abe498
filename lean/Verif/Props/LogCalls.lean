import Verif.Lemmas.LogCalls

/-!
# Property theorems C141 and C142: the log file of the C library and the loggers of the Python package
-/

namespace Trax
open Spec

/-- All calls of the log function for a history of messages. -/
abbrev allCalls (steps : List LogStep) : List LogCall := steps.flatMap LogStep.calls

theorem texts_passed (steps : List LogStep) (hs : ∀ s ∈ steps, LogProper s) :
    ∃ texts : List Str, List.Forall₂ Passed steps texts ∧ (∀ k, (allCalls (steps.take k)).flatMap LogCall.str = (texts.take k).flatten) ∧
      (allCalls steps).flatMap LogCall.str = texts.flatten := by
  induction steps with
  | nil => exact ⟨[], .nil, by simp [allCalls], rfl⟩
  | cons s steps ih =>
    obtain ⟨texts, h1, h2, h3⟩ := ih fun x hx => hs x (List.mem_cons_of_mem _ hx)
    obtain ⟨text, g1, g2, -⟩ := calls_passed s (hs s (by simp))
    refine ⟨text :: texts, .cons g1 h1, fun k => ?_, ?_⟩
    · cases k with
      | zero => rfl
      | succ k =>
        rw [List.take_succ_cons, List.take_succ_cons, allCalls, List.flatMap_cons, List.flatMap_append, g2, List.flatten_cons, ← h2 k]
    · rw [allCalls, List.flatMap_cons, List.flatMap_append, g2, List.flatten_cons, ← h3]

theorem allCalls_flush (steps : List LogStep) (hs : ∀ s ∈ steps, LogProper s) (hne : steps ≠ []) : ∃ cs, allCalls steps = cs ++ [.flush] := by
  obtain ⟨init, last, rfl⟩ : ∃ init last, steps = init ++ [last] := ⟨steps.dropLast, steps.getLast hne, (List.dropLast_concat_getLast hne).symm⟩
  obtain ⟨text, -, -, cs, hcs⟩ := calls_passed last (hs last (by simp))
  exact ⟨allCalls init ++ cs, by simp [allCalls, hcs]⟩

/-- **C141** (partial): at every point of time, even if the program is killed then, the log file made by `trax_logger_setup_file` contains what passed over the connection up to some point,
and at least all messages that have been read or written completely; this whatever part of the file the C library keeps in its buffer.

Missing: writes that fail. The log has a newline that was not received when the connection has ended (it is part of `Passed`; `C141_newline_false`), and nothing of a byte that is not ASCII. -/
theorem C141_file_partial (steps : List LogStep) (hs : ∀ s ∈ steps, LogProper s) (spill : Nat → Nat) :
    ∃ texts : List Str, List.Forall₂ Passed steps texts ∧
      ∀ n, let f := fileLoggerRun spill 0 ((allCalls steps).take n) ⟨[], []⟩
        f.disk <+: texts.flatten ∧
        ∀ k, (allCalls (steps.take k)).length ≤ n → (texts.take k).flatten <+: f.disk := by
  obtain ⟨texts, h1, h2, h3⟩ := texts_passed steps hs
  refine ⟨texts, h1, fun n => ⟨?_, fun k hk => ?_⟩⟩
  · obtain ⟨g1, -⟩ := fileLoggerRun_text spill ((allCalls steps).take n) 0 ⟨[], []⟩
    have : ((allCalls steps).take n).flatMap LogCall.str <+: texts.flatten := by
      rw [← h3]
      conv_rhs => rw [← List.take_append_drop n (allCalls steps), List.flatMap_append]
      exact List.prefix_append _ _
    refine List.IsPrefix.trans ?_ this
    have e : ((allCalls steps).take n).flatMap LogCall.str =
        (fileLoggerRun spill 0 ((allCalls steps).take n) ⟨[], []⟩).disk ++ (fileLoggerRun spill 0 ((allCalls steps).take n) ⟨[], []⟩).pending := by
      rw [g1]; rfl
    rw [e]
    exact List.prefix_append _ _
  · have hsplit : (allCalls steps).take n = allCalls (steps.take k) ++ ((allCalls steps).take n).drop (allCalls (steps.take k)).length := by
      have hp : allCalls (steps.take k) <+: (allCalls steps).take n := by
        rw [List.prefix_take_iff]
        refine ⟨?_, hk⟩
        conv_rhs => rw [← List.take_append_drop k steps, allCalls, List.flatMap_append]
        exact List.prefix_append _ _
      obtain ⟨r, hr⟩ := hp
      rw [← hr]; simp
    rw [hsplit, fileLoggerRun_append]
    refine List.IsPrefix.trans ?_ (fileLoggerRun_text spill _ _ _).2
    have hdisk : (fileLoggerRun spill 0 (allCalls (steps.take k)) ⟨[], []⟩).pending = [] := by
      by_cases hne : steps.take k = []
      · rw [hne]; rfl
      · obtain ⟨cs, hcs⟩ := allCalls_flush (steps.take k) (fun s hm => hs s (List.mem_of_mem_take hm)) hne
        rw [hcs]
        exact fileLoggerRun_flush spill cs 0 _
    have := (fileLoggerRun_text spill (allCalls (steps.take k)) 0 ⟨[], []⟩).1
    simp only [hdisk, List.append_nil, List.nil_append] at this
    rw [this, h2 k]; exact List.prefix_rfl

/-- A tracker that introduces itself and reads two messages, one of them after some other text. -/
def Demo.logged : List LogStep :=
  [.write ⟨[.ok 3, .ok 0], false, [], []⟩ .hello [] (Properties.ofPairs [(b!"trax.version", b!"4"), (b!"trax.name", b!"a\"b")]),
    .read none Properties.create (bytes b!"@@TRAX:frame \"x\"\n@@TRAX:quit \n"),
    .read (some .frame) Properties.create (bytes b!"noise\n@@TRAX:quit \n")]

theorem Demo.logged_proper : ∀ s ∈ Demo.logged, LogProper s := by
  intro s hm
  simp only [Demo.logged, List.mem_cons, List.not_mem_nil, or_false] at hm
  rcases hm with rfl | rfl | rfl
  · exact ⟨by decide, rfl, ⟨_, rfl⟩, by simp⟩
  · trivial
  · trivial

example : (∀ s ∈ Demo.logged, LogProper s) ∧ (fileLoggerRun (fun i => i % 3) 0 ((allCalls Demo.logged).take 30) ⟨[], []⟩).disk =
    b!"@@TRAX:hello \"trax.name=a\\\"b\" \"trax.version=4\" \n@@TRAX:frame " :=
  ⟨Demo.logged_proper, by decide +kernel⟩

/-- **C141, violated.** The connection ends within a message: the log has a newline that was not received. -/
theorem C141_newline_false : (readMessage none Properties.create (bytes b!"@@TRAX:quit ")).log = b!"@@TRAX:quit \n" := by decide +kernel

/-- **C142** (partial): a logger of the Python package gets the whole of what passed over the connection as text, whatever the memory behind the pieces contains and however its method `handle` ends;
and it is marked as interrupted exactly if `handle` was interrupted.

Missing: writes that fail, and NUL characters that are received (`C142_nul_false`). -/
theorem C142_messages_partial (steps : List LogStep) (hs : ∀ s ∈ steps, LogProper s) (ht : ∀ s ∈ steps, TextProper s) (after : Nat → Str) (ends : Nat → Py.Handled) :
    ∃ texts : List Str, List.Forall₂ Passed steps texts ∧
      let l := Py.Logger.run after ends 0 (allCalls steps) Py.Logger.new
      Py.decode texts.flatten = some l.messages.flatten ∧
      (l.interrupted = true ↔ ∃ i s, (allCalls steps)[i]? = some (.text s) ∧ ends i = .interrupt) := by
  obtain ⟨texts, h1, -, h3⟩ := texts_passed steps hs
  have hg : ∀ c ∈ allCalls steps, Py.GoodCall c := by
    intro c hc
    obtain ⟨s, hm, hc⟩ := List.mem_flatMap.1 hc
    exact Py.calls_good s (hs s hm) (ht s hm) c hc
  obtain ⟨t, g1, g2, g3⟩ := Py.logger_run after ends (allCalls steps) hg 0 Py.Logger.new
  refine ⟨texts, h1, ?_, ?_⟩
  · rw [← h3, g1, g2]; simp [Py.Logger.new]
  · simpa [Py.Logger.new] using g3

/-- The directory of a file: what is before the last slash. -/
theorem C142_directory (d base : Py.Text) (hb : 47 ∉ base) (hd : d.getLast? ≠ some 47) (hne : d ≠ []) : Py.dirname (d ++ 47 :: base) = d := by
  have h1 : ((d ++ 47 :: base).reverse.dropWhile (· ≠ 47)).reverse = d ++ [47] := by
    rw [List.reverse_append, List.reverse_cons, List.append_assoc, List.dropWhile_append_of_pos]
    · simp
    · intro x hx
      simp only [List.mem_reverse] at hx
      simp only [ne_eq, decide_not, Bool.not_eq_eq_eq_not, Bool.not_true, decide_eq_false_iff_not]
      rintro rfl
      exact hb hx
  obtain ⟨e, c, rfl⟩ : ∃ e c, d = e ++ [c] := ⟨d.dropLast, d.getLast hne, (List.dropLast_append_getLast hne).symm⟩
  have hc : c ≠ 47 := by simpa using hd
  unfold Py.dirname
  simp only [h1]
  rw [if_neg (by simp [hc])]
  simp [List.dropWhile, hc]

/-- **C142** (partial): a `FileLogger` whose file name has a directory, and may be made once `os.makedirs` has made the directory, contains all of that text when it is closed.

Missing: file names without a directory (`C142_file_false`), and a program that is killed (`C142_crash_false`). -/
theorem C142_file_partial {σ : Type} (makedirs : Py.Text → σ → Option σ) (create : Py.Text → σ → Bool) (fs fs' : σ) (filename : Py.Text) (hf : 47 ∈ filename)
    (hm : makedirs (Py.dirname filename) fs = some fs') (hc : create filename fs' = true)
    (steps : List LogStep) (hs : ∀ s ∈ steps, LogProper s) (ht : ∀ s ∈ steps, TextProper s) (after : Nat → Str) (spill : Nat → Nat) :
    ∃ texts : List Str, List.Forall₂ Passed steps texts ∧ ∃ f, Py.fileLoggerNew makedirs create fs filename = some f ∧
      (Py.fileHandle after spill 0 (allCalls steps) f).flush.disk = texts.flatten := by
  obtain ⟨texts, h1, -, h3⟩ := texts_passed steps hs
  have hg : ∀ c ∈ allCalls steps, Py.GoodCall c := by
    intro c hc
    obtain ⟨s, hm, hc⟩ := List.mem_flatMap.1 hc
    exact Py.calls_good s (hs s hm) (ht s hm) c hc
  have hd : ¬ Py.dirname filename = [] := fun h => Py.dirname_ne.1 h hf
  refine ⟨texts, h1, ⟨[], []⟩, by simp [Py.fileLoggerNew, hd, hm, hc], ?_⟩
  have := Py.fileHandle_text after spill (allCalls steps) hg 0 ⟨[], []⟩
  simp only [BufFile.flush]
  rw [this, h3]; simp

theorem Demo.logged_text : ∀ s ∈ Demo.logged, TextProper s := by
  intro s hm
  simp only [Demo.logged, List.mem_cons, List.not_mem_nil, or_false] at hm
  rcases hm with rfl | rfl | rfl
  · exact ⟨by simp, by decide⟩
  · simp only [TextProper]; decide
  · simp only [TextProper]; decide

example : (∀ s ∈ Demo.logged, TextProper s) ∧ 47 ∈ t!"logs/a.txt" := ⟨Demo.logged_text, by decide⟩

/-- A file system that is the list of its directories: without `os.makedirs` the file could not be made. -/
example : (fun d (fs : List Py.Text) => some (d :: fs)) (Py.dirname t!"logs/a.txt") [] = some [t!"logs"] ∧
    (fun f (fs : List Py.Text) => decide (Py.dirname f ∈ fs)) t!"logs/a.txt" [t!"logs"] = true ∧
    (fun f (fs : List Py.Text) => decide (Py.dirname f ∈ fs)) t!"logs/a.txt" [] = false := by decide +kernel

/-- **C142, violated.** A NUL that is received is not in the log. -/
theorem C142_nul_false (after : Nat → Str) (ends : Nat → Py.Handled) :
    (Py.Logger.run after ends 0 (allCalls [.read none Properties.create (.byte 0 :: bytes b!"\n@@TRAX:quit \n")]) Py.Logger.new).messages.flatten = t!"\n@@TRAX:quit \n" := by
  have h : allCalls [.read none Properties.create (.byte 0 :: bytes b!"\n@@TRAX:quit \n")] = .text [0] :: ((b!"\n@@TRAX:quit \n").map fun c => .text [c]) ++ [.flush] := by
    decide +kernel
  rw [h, List.cons_append, Py.Logger.run]
  have h0 : Py.Logger.new.call (.text [0]) (after 0) (ends 0) = Py.Logger.new := rfl
  rw [h0]
  have hg : ∀ c ∈ ((b!"\n@@TRAX:quit \n").map fun c => LogCall.text [c]) ++ [.flush], Py.GoodCall c := by
    intro c hc
    rcases List.mem_append.1 hc with hc | hc
    · obtain ⟨b, hb, rfl⟩ := List.mem_map.1 hc
      have : ∀ b ∈ b!"\n@@TRAX:quit \n", b ≠ 0 ∧ (Py.decode [b]).isSome := by decide +kernel
      exact ⟨by simp, fun x hx => by simp only [List.mem_singleton] at hx; rw [hx]; exact (this b hb).1, (this b hb).2⟩
    · simp only [List.mem_singleton] at hc; rw [hc]; trivial
  obtain ⟨t, g1, g2, -⟩ := Py.logger_run after ends _ hg (0 + 1) Py.Logger.new
  rw [g2]
  have : Py.decode ((((b!"\n@@TRAX:quit \n").map fun c => LogCall.text [c]) ++ [LogCall.flush]).flatMap LogCall.str) = some t!"\n@@TRAX:quit \n" := by decide +kernel
  rw [this] at g1
  cases g1
  rfl

/-- **C142, violated.** Of every character but NUL that is received, `ctypes` reads the memory behind the one byte that holds it, as far as it has no NUL: there is no bound on what it reads. -/
theorem C142_bounds_false (c : UInt8) (hc : c ≠ 0) (k : Nat) : ∃ after s, Py.charP (.text [c]) after = some s ∧ k < s.length := by
  have : NoNul [c] := fun x hx => by simp only [List.mem_singleton] at hx; rw [hx]; exact hc
  refine ⟨List.replicate k 1, _, rfl, ?_⟩
  have h1 : NoNul (List.replicate k 1) := fun x hx => by rw [List.eq_of_mem_replicate hx]; decide
  rw [Py.cstr_append this, cstr_of_noNul h1]
  simp

/-- **C142, violated.** A `FileLogger` cannot be made for a file in the current directory. -/
theorem C142_file_false {σ : Type} (makedirs : Py.Text → σ → Option σ) (create : Py.Text → σ → Bool) (fs : σ) (filename : Py.Text) (hf : 47 ∉ filename) :
    Py.fileLoggerNew makedirs create fs filename = none := by
  simp [Py.fileLoggerNew, Py.dirname_ne.2 hf]

example : 47 ∉ t!"log.txt" := by decide

/-- **C142, violated.** When the program is killed, all of the log may be lost: the logger does not empty the buffer after a message. -/
theorem C142_crash_false (after : Nat → Str) (steps : List LogStep) : (Py.fileHandle after (fun _ => 0) 0 (allCalls steps) ⟨[], []⟩).disk = [] := by
  suffices h : ∀ (cs : List LogCall) (i : Nat) (f : BufFile), (Py.fileHandle after (fun _ => 0) i cs f).disk = f.disk from h _ _ _
  intro cs
  induction cs with
  | nil => intro i f; rfl
  | cons c cs ih =>
    intro i f
    simp only [Py.fileHandle]
    rw [ih]
    cases Py.loggerMessage c (after i) <;> simp [BufFile.write]

end Trax
