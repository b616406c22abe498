import Verif.Spec.DebugText
import Verif.Lemmas.Decimal
import Verif.Lemmas.NumText

/-!
# Property theorems C156: the debug messages of a tracker process
-/

namespace Trax
open Trax.Debug
open Trax.Opt (Verbosity)
open Spec (told toldLine Possible Brief)

theorem fmtInt_length {n : Int} (h : -2 ^ 31 ≤ n ∧ n < 2 ^ 31) : (fmtInt n).length ≤ 11 := by
  unfold fmtInt
  cases n with
  | ofNat m =>
    have : m < 10 ^ (9 + 1) := by
      have := h.2
      norm_num at this ⊢
      omega
    exact le_trans (digitsAux_length _ m 9 this) (by norm_num)
  | negSucc m =>
    have : m + 1 < 10 ^ (9 + 1) := by
      have := h.1
      norm_num at this ⊢
      omega
    have := digitsAux_length ((m + 1).log2 + 1) (m + 1) 9 this
    simp only [List.length_cons]
    unfold natDigits
    omega

theorem fmtInt_noNul (n : Int) : (0 : Byte) ∉ fmtInt n := by
  intro h
  rcases fmtInt_chars n 0 h with h | h
  · exact absurd h (by decide)
  · exact absurd h (by decide)

theorem cText_eq {s : Str} (h : (0 : Byte) ∉ s) : cText s = s := by
  unfold cText
  induction s with
  | nil => rfl
  | cons c s ih =>
    have hc : c ≠ 0 := by rintro rfl; exact h (by simp)
    rw [List.takeWhile_cons_of_pos (by simp [hc]), ih fun hm => h (by simp [hm])]

theorem expand_text (t rest : Str) (args : List Arg) (h : ch%'%' ∉ t) : expand false (t ++ rest) args = (expand false rest args).map (t ++ ·) := by
  induction t with
  | nil => show expand false rest args = _; cases expand false rest args <;> rfl
  | cons c t ih =>
    have hc : c ≠ ch%'%' := by rintro rfl; exact h (by simp)
    show (if c = ch%'%' then expand true (t ++ rest) args else (expand false (t ++ rest) args).map (c :: ·)) = _
    rw [if_neg hc, ih fun hm => h (by simp [hm])]
    cases expand false rest args <;> rfl

theorem expand_plain (t : Str) (args : List Arg) (h : ch%'%' ∉ t) : expand false t args = .ok t := by
  have := expand_text t [] args h
  rw [List.append_nil] at this
  rw [this]
  show Outcome.ok (t ++ []) = _
  rw [List.append_nil]

theorem expand_string (t rest s : Str) (h : ch%'%' ∉ t) (h' : ch%'%' ∉ rest) : expand false (t ++ ch%'%' :: ch%'s' :: rest) [.string s] = .ok (t ++ (cText s ++ rest)) := by
  rw [expand_text _ _ _ h]
  show ((expand false rest []).map _).map _ = _
  rw [expand_plain rest [] h']
  rfl

theorem expand_number (t rest : Str) (n : Int) (h : ch%'%' ∉ t) (h' : ch%'%' ∉ rest) : expand false (t ++ ch%'%' :: ch%'d' :: rest) [.number n] = .ok (t ++ (fmtInt n ++ rest)) := by
  rw [expand_text _ _ _ h]
  show ((expand false rest []).map _).map _ = _
  rw [expand_plain rest [] h']
  rfl

theorem expand_told (r : Report) (h : Possible r) : expand false r.call.1 r.call.2 = .ok (told r) := by
  cases r with
  | socketOpened n => exact (expand_number b!"Socket opened successfully on port " b!"." n (by decide) (by decide)).trans (by simp [told])
  | processId n => exact (expand_number b!"Tracker process ID: " [] n (by decide) (by decide)).trans (by simp [told])
  | exitedSignal n => exact (expand_number b!"Tracker exited (stopped by signal " b!")" n (by decide) (by decide)).trans (by simp [told])
  | exitedCode n => exact (expand_number b!"Tracker exited (exit code " b!")" n (by decide) (by decide)).trans (by simp [told])
  | creating s => exact (expand_string b!"Creating process " [] s (by decide) (by decide)).trans (by rw [cText_eq h]; simp [told])
  | directory s => exact (expand_string b!"Working directory is " [] s (by decide) (by decide)).trans (by rw [cText_eq h]; simp [told])
  | settingUpStreams b => cases b <;> rfl
  | _ => rfl

theorem told_noNul (r : Report) (h : Possible r) : (0 : Byte) ∉ told r := by
  cases r with
  | socketOpened n => simp only [told, List.mem_append, not_or]; exact ⟨⟨by decide, fmtInt_noNul n⟩, by decide⟩
  | processId n => simp only [told, List.mem_append, not_or]; exact ⟨by decide, fmtInt_noNul n⟩
  | exitedSignal n => simp only [told, List.mem_append, not_or]; exact ⟨⟨by decide, fmtInt_noNul n⟩, by decide⟩
  | exitedCode n => simp only [told, List.mem_append, not_or]; exact ⟨⟨by decide, fmtInt_noNul n⟩, by decide⟩
  | creating s => simp only [told, List.mem_append, not_or]; exact ⟨by decide, h⟩
  | directory s => simp only [told, List.mem_append, not_or]; exact ⟨by decide, h⟩
  | settingUpStreams b => cases b <;> exact (by decide)
  | _ => exact (by decide)

theorem told_short (r : Report) (h : Possible r) (hb : Brief r) : (told r).length < 1023 := by
  cases r with
  | socketOpened n => have := fmtInt_length h; simp [told]; omega
  | processId n => have := fmtInt_length h; simp [told]; omega
  | exitedSignal n => have := fmtInt_length h; simp [told]; omega
  | exitedCode n => have := fmtInt_length h; simp [told]; omega
  | creating s => have : s.length < 1006 := hb; simp [told]; omega
  | directory s => have : s.length < 1002 := hb; simp [told]; omega
  | settingUpStreams b => cases b <;> exact (by decide)
  | _ => exact (by decide)

theorem printDebug_short (log : Str) (r : Report) (h : Possible r) (hb : Brief r) :
    printDebug .debug (some log) r.call.1 r.call.2 = .ok (some (log ++ toldLine r)) := by
  have hs := told_short r h hb
  unfold printDebug vsnprintf
  dsimp only
  rw [if_neg (by simp), expand_told r h]
  dsimp only [Outcome.map, Outcome.bind]
  rw [if_neg (by omega), List.take_of_length_le (by omega)]
  show Outcome.ok (some (log ++ (b!"CLIENT: " ++ cText (told r) ++ b!"\n"))) = _
  rw [cText_eq (told_noNul r h)]
  rfl

/-- **C156** (partial): with debugging on, each message of a tracker process adds its whole line to the log, one after the other in the order in which they
come about, when the command has fewer than 1006 bytes and the directory fewer than 1002. All other messages are short enough whatever they say. Without
debugging nothing is added, and without a log nothing happens. Missing: longer commands and directories (`C156_command_false`). -/
theorem C156_log_partial (reports : List Report) (h : ∀ r ∈ reports, Possible r ∧ Brief r) :
    (∀ log, printAll .debug (some log) reports = .ok (some (log ++ (reports.map toldLine).flatten))) ∧
    (∀ log verbosity, verbosity ≠ .debug → printAll verbosity (some log) reports = .ok (some log)) ∧
    ∀ verbosity, printAll verbosity none reports = .ok none := by
  induction reports with
  | nil => exact ⟨fun log => by simp [printAll], fun _ _ _ => rfl, fun _ => rfl⟩
  | cons r rs ih =>
    obtain ⟨i1, i2, i3⟩ := ih fun r hr => h r (by simp [hr])
    obtain ⟨p, b⟩ := h r (by simp)
    refine ⟨fun log => ?_, fun log v hv => ?_, fun v => ?_⟩
    · show (printDebug _ _ _ _).bind _ = _
      rw [printDebug_short log r p b, Outcome.bind_ok, i1]
      simp
    · show (printDebug _ _ _ _).bind _ = _
      have : printDebug v (some log) r.call.1 r.call.2 = .ok (some log) := by
        unfold printDebug
        dsimp only
        rw [if_pos hv]
      rw [this, Outcome.bind_ok, i2 log v hv]
    · show (printDebug _ _ _ _).bind _ = _
      have : printDebug v none r.call.1 r.call.2 = .ok none := rfl
      rw [this, Outcome.bind_ok, i3 v]

/-- The messages of a process that ends well. -/
example : ∀ r ∈ [Report.creating b!"run it", .directory b!"/tmp", .starting, .settingUpStreams false, .processId 4711, .connected, .stopping, .flushing,
    .terminated, .stoppingLogger, .exitedSignal 9], Possible r ∧ Brief r := by
  intro r hr
  simp only [List.mem_cons, List.not_mem_nil, or_false] at hr
  rcases hr with rfl | rfl | rfl | rfl | rfl | rfl | rfl | rfl | rfl | rfl | rfl <;>
    first | exact ⟨trivial, trivial⟩ | exact ⟨by unfold Possible; decide, by unfold Brief; decide⟩

/-- The full claim of C156 is false: with debugging on, the message about a command of 1006 bytes or more, or about a directory of 1002 bytes or more, is undefined
behaviour: the list of arguments is read a second time after the first `vsnprintf` has used it up. -/
theorem C156_command_false (log : Str) :
    (∀ command : Str, (0 : Byte) ∉ command → 1006 ≤ command.length →
      ∀ rest, printAll .debug (some log) (.creating command :: rest) = .ub) ∧
    (∀ directory : Str, (0 : Byte) ∉ directory → 1002 ≤ directory.length →
      ∀ rest, printAll .debug (some log) (.directory directory :: rest) = .ub) := by
  have key : ∀ r : Report, Possible r → 1023 ≤ (told r).length → ch%'%' ∈ r.call.1 → ∀ rest, printAll .debug (some log) (r :: rest) = .ub := by
    intro r hp hl hc rest
    show (printDebug _ _ _ _).bind _ = _
    have : printDebug .debug (some log) r.call.1 r.call.2 = .ub := by
      unfold printDebug vsnprintf
      dsimp only
      rw [if_neg (by simp), expand_told r hp]
      dsimp only [Outcome.map, Outcome.bind]
      rw [if_pos (by omega), if_pos hc]
    rw [this]
    rfl
  refine ⟨fun s h0 hl rest => key (.creating s) h0 ?_ (by show ch%'%' ∈ b!"Creating process %s"; decide) rest,
    fun s h0 hl rest => key (.directory s) h0 ?_ (by show ch%'%' ∈ b!"Working directory is %s"; decide) rest⟩
  · simp [told]; omega
  · simp [told]; omega

/-- Such a command. -/
example : (0 : Byte) ∉ List.replicate 1006 ch%'a' ∧ 1006 ≤ (List.replicate 1006 ch%'a').length := by
  refine ⟨fun h => ?_, by rw [List.length_replicate]⟩
  exact absurd (List.eq_of_mem_replicate h) (by decide)

end Trax
