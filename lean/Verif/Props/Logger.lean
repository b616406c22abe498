import Verif.Lemmas.Logger

/-!
# Property theorem C66: the log of a tracker process
-/

namespace Trax
open Spec

/-- **C66** (partial): whatever the tracker prints and whenever the buffer is flushed, with every
line shorter than the largest `int`, nothing is written outside of the buffer; once the last line
has ended or the buffer was flushed, the log contains exactly what was printed if there is no limit,
and what was printed with every line cut to the limit otherwise: no line of the log is longer than
the limit, and when no line is too long then the log is what was printed. With no log stream
nothing is written.

Missing: lines of 2147483647 bytes or more, for which the claim is false
(`C66_long_line_false`). -/
theorem C66_log_partial (truncate : Int) (events : List LogEvent) (hl : LinesShorter 2147483647 (printed events)) :
    (∃ log b, logRun truncate true LineBuffer.reset events = .ok (log, b) ∧
      (Settled events →
        (truncate ≤ 0 → log = printed events) ∧
        (0 < truncate → Limited truncate.toNat (printed events) log ∧ LinesShorter truncate.toNat log ∧
          (LinesShorter truncate.toNat (printed events) → log = printed events)))) ∧
    ∃ b, logRun truncate false LineBuffer.reset events = .ok ([], b) := by
  have hp : ∀ pre c post, printed events = pre ++ c :: post → lineCount 0 pre < 2147483647 := by
    intro pre c post h
    obtain ⟨pre', l, rfl, ho, hc⟩ := lineCount_segment pre
    rw [hc]
    exact hl pre' l (c :: post) h ho
  constructor
  · obtain ⟨w, content, h1, h2, -, -, h5⟩ := logRun_ok truncate true events [] 0 (by simp) hp
    refine ⟨w, _, h1, fun hs => ?_⟩
    have hw : w = cutText truncate 0 (printed events) := by
      have := h2 rfl
      rw [h5 hs] at this
      simpa using this
    refine ⟨fun ht => by rw [hw, cutText_nolimit ht], fun ht => ?_⟩
    have hlim : Limited truncate.toNat (printed events) w := by
      have := cutText_limited (t := truncate.toNat) (by omega) _ (printed events) (Nat.le_refl _)
      rw [hw]
      rwa [Int.toNat_of_nonneg (by omega)] at this
    exact ⟨hlim, limited_lines (by omega) hlim, limited_short hlim⟩
  · obtain ⟨w, content, h1, -, h3, -, -⟩ := logRun_ok truncate false events [] 0 (by simp) hp
    rw [h3 rfl] at h1
    exact ⟨_, h1⟩

/-- A line cut to 6 bytes, a flush in the middle of a line, a short line and a line without end. -/
example : (logRun 6 true LineBuffer.reset
      ((b!"tracking").map .byte ++ [.idle] ++ (b!" on\nok\nno").map .byte ++ [.idle])).map (·.1) = .ok b!"track\nok\nno" ∧
    LinesShorter 2147483647 b!"tracking on\nok\nno" := by
  refine ⟨by decide +kernel, ?_⟩
  intro pre l post h _
  have := congrArg List.length h
  simp only [List.length_append, List.length_cons, List.length_nil] at this
  omega

theorem logRun_append (t : Int) (out : Bool) (a b : List LogEvent) (s : LineBuffer) :
    logRun t out s (a ++ b) = (logRun t out s a).bind fun (w, s) => (logRun t out s b).map fun (w', s) => (w ++ w', s) := by
  induction a generalizing s with
  | nil =>
    simp only [List.nil_append, logRun, Outcome.bind_ok]
    cases logRun t out s b <;> rfl
  | cons e es ih =>
    simp only [List.cons_append, logRun]
    cases logStep t out s e with
    | ok p =>
      simp only [Outcome.bind_ok, ih]
      cases logRun t out p.2 es with
      | ok q =>
        simp only [Outcome.bind_ok, Outcome.map]
        cases logRun t out q.2 b with
        | ok r => simp [Outcome.bind]
        | abort => rfl
        | ub => rfl
      | abort => rfl
      | ub => rfl
    | abort => rfl
    | ub => rfl

/-- The full claim of C66 is false: a tracker that prints 2147483648 bytes without a line end makes
the counter of the line overflow, whatever the limit. -/
theorem C66_long_line_false (truncate : Int) (out : Bool) (n : Nat) (hn : n = 2147483647) :
    logRun truncate out LineBuffer.reset (List.replicate (n + 1) (.byte ch%'x')) = .ub := by
  have hpr : ∀ m, printed (List.replicate m (.byte ch%'x')) = List.replicate m ch%'x' := by
    intro m
    induction m with
    | zero => rfl
    | succ m ih => rw [List.replicate_succ, printed, ih, List.replicate_succ]
  have hc : ∀ m, lineCount 0 (List.replicate m ch%'x') = m := by
    intro m
    rw [lineCount_oneLine]
    · simp
    · intro c hc
      rw [List.eq_of_mem_replicate hc]
      decide
  obtain ⟨w, content, h1, -⟩ := logRun_ok truncate out (List.replicate n (.byte ch%'x')) [] 0 (by simp) (by
    intro pre c post h
    rw [hpr] at h
    have hpre : pre = List.replicate pre.length ch%'x' := by
      rw [List.eq_replicate_iff]
      refine ⟨rfl, fun b hb => ?_⟩
      have : b ∈ List.replicate n ch%'x' := by rw [h]; simp [hb]
      exact List.eq_of_mem_replicate this
    rw [hpre, hc]
    have := congrArg List.length h
    rw [List.length_replicate, List.length_append, List.length_cons] at this
    omega)
  rw [List.replicate_succ', logRun_append]
  change (logRun truncate out ⟨[], ((0 : Nat) : Int)⟩ _).bind _ = _
  rw [h1, hpr, hc, Outcome.bind_ok]
  have : LineBuffer.push ⟨content, (n : Int)⟩ ch%'x' truncate = .ub := by
    unfold LineBuffer.push
    rw [if_pos]
    subst hn
    unfold InInt32
    simp
  simp only [logRun, logStep, this, Outcome.bind_ub]
  rfl

end Trax
