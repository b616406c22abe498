import Verif.Spec.LogThreads
import Verif.Lemmas.Logger

/-!
# Lemmas about the threads that write the log
-/

namespace Trax.LogSys
open Trax.Spec (OneLine Limited LinesShorter)
open Spec

/-- Add what was written, if it is anything. -/
def addPiece (b : Bool) (w : Str) (ps : List Piece) : List Piece := if w = [] then ps else ps ++ [(b, w)]

theorem text_add (b : Bool) (w : Str) (ps : List Piece) : text (addPiece b w ps) = text ps ++ w := by
  unfold addPiece
  split
  · next h => rw [h, List.append_nil]
  · simp [text]

theorem share_add_same (b : Bool) (w : Str) (ps : List Piece) : share b (addPiece b w ps) = share b ps ++ w := by
  unfold addPiece
  split
  · next h => rw [h, List.append_nil]
  · simp [share, text]

theorem share_add_other {b b' : Bool} (h : b ≠ b') (w : Str) (ps : List Piece) : share b' (addPiece b w ps) = share b' ps := by
  unfold addPiece
  split
  · rfl
  · simp [share, text, h]

theorem ended_snoc {t : Str} {c : Byte} (h : Ended (t ++ [c])) : c = ch%'\n' := by
  rcases h with h | h
  · simp at h
  · simpa using h

theorem lineCount_ended {t : Str} (h : Ended t) : lineCount 0 t = 0 := by
  rcases h with rfl | h
  · rfl
  · obtain ⟨ys, rfl⟩ := List.getLast?_eq_some_iff.1 h
    rw [lineCount_append]
    simp [lineCount]

theorem lineCount_lt {n : Nat} {t : Str} (h : LinesShorter n t) : lineCount 0 t < n := by
  obtain ⟨pre, l, rfl, ho, hc⟩ := lineCount_segment t
  rw [hc]
  exact h pre l [] (by simp) ho

theorem linesShorter_prefix {n : Nat} {a b : Str} (h : LinesShorter n (a ++ b)) : LinesShorter n a := by
  intro pre l post hh ho
  exact h pre l (post ++ b) (by rw [hh]; simp) ho

/-- What a line buffer holds when `t` was put into it and `ps` is the log. -/
structure Buf (b : Bool) (ps : List Piece) (t : Str) (lb : LineBuffer) : Prop where
  count : lb.length = (lineCount 0 t : Nat)
  room : lb.content.length < 1023
  whole : share b ps ++ lb.content = cutText lineTruncate 0 t
  ended : Ended t → lb.content = []

/-- The buffer holds the last line. -/
structure Tidy (t : Str) (lb : LineBuffer) : Prop where
  line : OneLine lb.content
  len : lb.content.length = lineCount 0 t

theorem buf_reset (b : Bool) (ps : List Piece) (h : share b ps = []) : Buf b ps [] LineBuffer.reset :=
  ⟨rfl, by simp [LineBuffer.reset], by simp [h, LineBuffer.reset, cutText], fun _ => rfl⟩

theorem tidy_reset : Tidy [] LineBuffer.reset := ⟨by simp [OneLine, LineBuffer.reset], rfl⟩

theorem logStep_byte' {content : Str} {k : Nat} (h : content.length < 1022) (hk : k < 2147483647) {c : Byte} (hc : c ≠ ch%'\n') (t : Int) (out : Bool) :
    logStep t out ⟨content, k⟩ (.byte c) = .ok ([], ⟨content ++ cutByte t k c, ((k + 1 : Nat) : Int)⟩) := by
  have hl : (content ++ cutByte t k c).length ≤ 1022 := by
    have := cutByte_length t k c
    rw [List.length_append]; omega
  unfold logStep
  simp only [push_ok (show content.length < 1023 by omega) hk, Outcome.bind_ok]
  rw [if_neg, if_neg hc]
  rw [Bool.or_eq_true, not_or]
  constructor
  · rw [beq_iff_eq]; omega
  · simpa using hc

/-- A byte for a buffer whose text goes to the log. -/
theorem Buf.byte {b : Bool} {ps : List Piece} {t : Str} {lb : LineBuffer} (h : Buf b ps t lb) {c : Byte} (hk : lineCount 0 t < 2147483647) :
    ∃ w lb', logStep lineTruncate true lb (.byte c) = .ok (w, lb') ∧ Buf b (addPiece b w ps) (t ++ [c]) lb' ∧
      (Tidy t lb → LinesShorter 256 (t ++ [c]) → (w = [] ∨ WholeLine w) ∧ Tidy (t ++ [c]) lb') := by
  obtain ⟨content, len⟩ := lb
  have hcount := h.count
  dsimp only at hcount
  subst hcount
  have hroom := h.room
  dsimp only at hroom
  obtain ⟨w, content', h1, h2, -, h4, h5⟩ := logStep_byte hroom hk c lineTruncate true
  have hlc : lineCount 0 (t ++ [c]) = if c = ch%'\n' then 0 else lineCount 0 t + 1 := by
    rw [lineCount_append]; rfl
  refine ⟨w, _, h1, ⟨by rw [hlc], h4, ?_, fun he => h5 (ended_snoc he)⟩, ?_⟩
  · rw [share_add_same, List.append_assoc, h2 rfl, ← List.append_assoc, h.whole, cutText_append]
    simp [cutText]
  · intro ht hs
    have hlen := ht.len
    dsimp only at hlen
    have hlt := lineCount_lt (linesShorter_prefix hs)
    by_cases hc : c = ch%'\n'
    · have hcut : cutByte lineTruncate (lineCount 0 t) c = [ch%'\n'] := by
        rw [hc]
        unfold cutByte lineTruncate
        by_cases h3 : lineCount 0 t + 1 = 256
        · rw [if_pos (by omega), if_pos (by omega)]
        · rw [if_neg (by omega)]
      have he : content' = [] := h5 hc
      have := h2 rfl
      rw [he, hcut, List.append_nil] at this
      refine ⟨.inr ⟨content, ht.line, this⟩, ?_, ?_⟩
      · rw [he]; intro x hx; cases hx
      · rw [he, hlc, if_pos hc]; rfl
    · rw [logStep_byte' (by omega) hk hc] at h1
      injection h1 with h1
      injection h1 with h1 h1'
      injection h1' with h1' h1''
      have hlt' := lineCount_lt hs
      rw [hlc, if_neg hc] at hlt'
      have hcut : cutByte lineTruncate (lineCount 0 t) c = [c] := by
        unfold cutByte lineTruncate
        rw [if_neg (by omega)]
      rw [hcut] at h1'
      refine ⟨.inl h1.symm, ?_, ?_⟩
      · rw [← h1']
        intro x hx
        rcases List.mem_append.1 hx with hx | hx
        · exact ht.line x hx
        · rw [List.mem_singleton.1 hx]; exact hc
      · rw [hlc, if_neg hc, ← h1']
        simp [hlen]

/-- A flush of a buffer whose text goes to the log. -/
theorem Buf.flush {b : Bool} {ps : List Piece} {t : Str} {lb : LineBuffer} (h : Buf b ps t lb) :
    ∃ lb', lb.flush true = .ok (lb.content, lb') ∧ Buf b (addPiece b lb.content ps) t lb' ∧ (Ended t → Tidy t lb → Tidy t lb') := by
  obtain ⟨content, len⟩ := lb
  have hroom := h.room
  dsimp only at hroom
  refine ⟨_, flush_ok (by omega) true, ⟨h.count, by simp, ?_, fun _ => rfl⟩, ?_⟩
  · rw [share_add_same, ← h.whole]; simp
  · intro he ht
    exact ⟨(by intro x hx; simp at hx), by rw [lineCount_ended he]; rfl⟩

/-- What is put into another buffer does not matter. -/
theorem Buf.other {b b' : Bool} {ps : List Piece} {t : Str} {lb : LineBuffer} (h : Buf b ps t lb) (hb : b' ≠ b) (w : Str) :
    Buf b (addPiece b' w ps) t lb := by
  refine ⟨h.count, h.room, ?_, h.ended⟩
  rw [share_add_other hb, h.whole]

theorem toOut_eq (s : State) (c : Byte) :
    s.toOut c = (logStep lineTruncate true s.out (.byte c)).map fun (w, out) => { s with out, log := s.log ++ w } := by
  dsimp only [State.toOut, logStep]
  generalize s.out.push c lineTruncate = r
  cases r with
  | ok p =>
    obtain ⟨full, lb⟩ := p
    simp only [Outcome.bind_ok]
    cases full
    · simp [Outcome.map]
    · simp
  | abort => rfl
  | ub => rfl

theorem toError_eq (silent : Bool) (s : State) (c : Byte) :
    s.toError silent c = (logStep lineTruncate (!silent) s.error (.byte c)).map fun (w, error) => { s with error, log := s.log ++ w } := by
  dsimp only [State.toError, logStep]
  generalize s.error.push c lineTruncate = r
  cases r with
  | ok p =>
    obtain ⟨full, lb⟩ := p
    simp only [Outcome.bind_ok]
    cases full
    · simp [Outcome.map]
    · simp
  | abort => rfl
  | ub => rfl

theorem printed_append (f : File) (a b : List Event) : printed f (a ++ b) = printed f a ++ printed f b := by
  induction a with
  | nil => rfl
  | cons e es ih =>
    cases e with
    | print g t =>
      simp only [List.cons_append, printed]
      split
      · rw [ih, List.append_assoc]
      · exact ih
    | _ => exact ih

theorem relayed_append (a b : List Event) : relayed (a ++ b) = relayed a ++ relayed b := by
  induction a with
  | nil => rfl
  | cons e es ih =>
    cases e with
    | relay c =>
      simp only [List.cons_append, relayed]
      rw [ih]
    | _ => exact ih

theorem noPause_prefix {a b : List Event} (h : NoPause (a ++ b)) : NoPause a :=
  fun pre e post hh => h pre e (post ++ b) (by rw [hh]; simp)

/-- The state after the events `pre` since the start of the first tracker. -/
structure Sess (fd : Nat) (pre : List Event) (s : State) : Prop where
  proc : ∃ alive, s.process = some (fd, alive)
  stopping : s.stopping = none
  taken : s.taken = []
  table : s.table fd = some (.tracker 0)
  trackers : s.trackers = 1
  err : s.err = none ∨ s.err = some fd
  count : pre.count .read ≤ (printed (.tracker 0) pre).length
  unread : s.unread (.tracker 0) = (printed (.tracker 0) pre).drop (pre.count .read)
  log : ∃ ps, text ps = s.log ∧ Buf true ps (consumed pre) s.error ∧ Buf false ps (relayed pre) s.out ∧
    (LinesShorter 256 (printed (.tracker 0) pre) → LinesShorter 256 (relayed pre) → NoPause pre →
      (∀ p ∈ ps, WholeLine p.2) ∧ Tidy (consumed pre) s.error ∧ Tidy (relayed pre) s.out)

/-- Events that leave the streams alone. -/
theorem Sess.quiet {fd : Nat} {pre : List Event} {s s' : State} {e : Event} (h : Sess fd pre s)
    (hp : printed (.tracker 0) [e] = []) (hr : relayed [e] = []) (hc : e ≠ .read)
    (h1 : ∃ alive, s'.process = some (fd, alive)) (h2 : s'.stopping = none) (h3 : s'.taken = []) (h4 : s'.table fd = some (.tracker 0))
    (h5 : s'.trackers = 1) (h6 : s'.err = none ∨ s'.err = some fd) (h7 : s'.unread (.tracker 0) = s.unread (.tracker 0))
    (h8 : s'.log = s.log) (h9 : s'.error = s.error) (h10 : s'.out = s.out) : Sess fd (pre ++ [e]) s' := by
  have e1 : printed (.tracker 0) (pre ++ [e]) = printed (.tracker 0) pre := by rw [printed_append, hp, List.append_nil]
  have e2 : relayed (pre ++ [e]) = relayed pre := by rw [relayed_append, hr, List.append_nil]
  have e3 : (pre ++ [e]).count .read = pre.count .read := by
    rw [List.count_append, List.count_singleton, if_neg (by simpa using hc), Nat.add_zero]
  have e4 : consumed (pre ++ [e]) = consumed pre := by unfold consumed; rw [e1, e3]
  obtain ⟨ps, g1, g2, g3, g4⟩ := h.log
  refine ⟨h1, h2, h3, h4, h5, h6, by rw [e1, e3]; exact h.count, by rw [h7, e1, e3]; exact h.unread, ps, by rw [h8]; exact g1, ?_, ?_, ?_⟩
  · rw [e4, h9]; exact g2
  · rw [e2, h10]; exact g3
  · rw [e1, e2, e4, h9, h10]
    intro a b c
    exact g4 a b (noPause_prefix c)

theorem put_same {κ α : Type} [DecidableEq κ] (f : κ → α) (n : κ) (a : α) : put f n a n = a := by simp [put]

theorem put_other {κ α : Type} [DecidableEq κ] (f : κ → α) {n m : κ} (a : α) (h : m ≠ n) : put f n a m = f m := by simp [put, h]

theorem mem_add {b : Bool} {w : Str} {ps : List Piece} {p : Piece} (h : p ∈ addPiece b w ps) : p ∈ ps ∨ (w ≠ [] ∧ p = (b, w)) := by
  unfold addPiece at h
  split at h
  · exact .inl h
  · next hw =>
    rcases List.mem_append.1 h with h | h
    · exact .inl h
    · exact .inr ⟨hw, List.mem_singleton.1 h⟩

theorem Sess.step {fd : Nat} {pre : List Event} {s : State} {e : Event} {o : Outcome State} (h : Sess fd pre s) (he : e ≠ .stop)
    (hl1 : LinesShorter 2147483647 (printed (.tracker 0) (pre ++ [e]))) (hl2 : LinesShorter 2147483647 (relayed (pre ++ [e])))
    (hs : step false s e = some o) : ∃ s', o = .ok s' ∧ Sess fd (pre ++ [e]) s' := by
  obtain ⟨alive, hproc⟩ := h.proc
  cases e with
  | print f t =>
    unfold LogSys.step at hs
    dsimp only at hs
    split at hs
    · cases hs
    · cases hs
      refine ⟨_, rfl, ?_⟩
      by_cases hf : f = .tracker 0
      · subst hf
        have e1 : printed (.tracker 0) (pre ++ [.print (.tracker 0) t]) = printed (.tracker 0) pre ++ t := by
          rw [printed_append]; simp [printed]
        have e2 : relayed (pre ++ [.print (.tracker 0) t]) = relayed pre := by rw [relayed_append]; simp [relayed]
        have e3 : (pre ++ [Event.print (.tracker 0) t]).count .read = pre.count .read := by
          rw [List.count_append, List.count_singleton, if_neg (by simp), Nat.add_zero]
        have e4 : consumed (pre ++ [.print (.tracker 0) t]) = consumed pre := by
          unfold consumed; rw [e1, e3, List.take_append_of_le_length h.count]
        obtain ⟨ps, g1, g2, g3, g4⟩ := h.log
        refine ⟨h.proc, h.stopping, h.taken, h.table, h.trackers, h.err, ?_, ?_, ps, g1, ?_, ?_, ?_⟩
        · rw [e1, e3, List.length_append]; have := h.count; omega
        · rw [e1, e3, List.drop_append_of_le_length h.count]
          dsimp only
          rw [put_same, h.unread]
        · rw [e4]; exact g2
        · rw [e2]; exact g3
        · rw [e1, e2, e4]
          intro a b c
          exact g4 (linesShorter_prefix a) b (noPause_prefix c)
      · refine h.quiet ?_ rfl (by simp) h.proc h.stopping h.taken h.table h.trackers h.err ?_ rfl rfl rfl
        · simp [printed, hf]
        · dsimp only
          rw [put_other _ _ (fun hh => hf hh.symm)]
  | spawn fd' =>
    unfold LogSys.step at hs
    simp [hproc] at hs
  | exit =>
    unfold LogSys.step at hs
    simp only [hproc] at hs
    split at hs
    · next hh =>
      cases hs
      exact ⟨_, rfl, h.quiet rfl rfl (by simp) ⟨false, by cases hh; rfl⟩ h.stopping h.taken h.table h.trackers h.err rfl rfl rfl rfl⟩
    · cases hs
  | lookup =>
    unfold LogSys.step at hs
    simp only [hproc] at hs
    split at hs
    · split at hs
      · next hh =>
        cases hh
        cases hs
        exact ⟨_, rfl, h.quiet rfl rfl (by simp) ⟨true, rfl⟩ h.stopping h.taken h.table h.trackers (.inr rfl) rfl rfl rfl rfl⟩
      · cases hs
        exact ⟨_, rfl, h.quiet rfl rfl (by simp) h.proc h.stopping h.taken h.table h.trackers h.err rfl rfl rfl rfl⟩
    · cases hs
  | read =>
    unfold LogSys.step at hs
    rcases h.err with herr | herr
    · simp [herr] at hs
    simp only [herr, h.table] at hs
    split at hs
    · cases hs
    cases hu : s.unread (.tracker 0) with
    | nil => simp [hu] at hs
    | cons c rest =>
      simp only [hu] at hs
      rw [toError_eq] at hs
      have e1 : printed (.tracker 0) (pre ++ [.read]) = printed (.tracker 0) pre := by rw [printed_append]; simp [printed]
      have e2 : relayed (pre ++ [.read]) = relayed pre := by rw [relayed_append]; simp [relayed]
      have e3 : (pre ++ [Event.read]).count .read = pre.count .read + 1 := by
        rw [List.count_append, List.count_singleton, if_pos (by simp)]
      have hd := h.unread
      rw [hu] at hd
      have hlt : pre.count .read < (printed (.tracker 0) pre).length := by
        have := congrArg List.length hd
        rw [List.length_drop, List.length_cons] at this
        omega
      have hget : (printed (.tracker 0) pre)[pre.count .read]? = some c := by
        rw [← List.head?_drop, ← hd]; rfl
      have e4 : consumed (pre ++ [.read]) = consumed pre ++ [c] := by
        unfold consumed
        rw [e1, e3, List.take_add_one, hget]
        rfl
      obtain ⟨ps, g1, g2, g3, g4⟩ := h.log
      have hpfx : ∃ post, printed (.tracker 0) pre = (consumed pre ++ [c]) ++ post := by
        refine ⟨(printed (.tracker 0) pre).drop (pre.count .read + 1), ?_⟩
        have := (List.take_append_drop (pre.count .read + 1) (printed (.tracker 0) pre)).symm
        rw [List.take_add_one, hget] at this
        exact this
      obtain ⟨post, hpost⟩ := hpfx
      have hcount : lineCount 0 (consumed pre) < 2147483647 := by
        apply lineCount_lt
        rw [e1, hpost, List.append_assoc] at hl1
        exact linesShorter_prefix hl1
      obtain ⟨w, lb', k1, k2, k3⟩ := g2.byte (c := c) hcount
      dsimp only at hs
      rw [show (!false) = true from rfl, k1] at hs
      cases hs
      refine ⟨_, rfl, h.proc, h.stopping, h.taken, h.table, h.trackers, .inr rfl, by rw [e1, e3]; omega, ?_, addPiece true w ps, ?_, ?_, ?_, ?_⟩
      · dsimp only
        rw [put_same, e1, e3]
        have : (c :: rest).drop 1 = rest := rfl
        rw [← this, hd, List.drop_drop]
      · rw [text_add, g1]
      · rw [e4]; exact k2
      · rw [e2]; exact g3.other (by simp) w
      · rw [e1, e2, e4]
        intro a b c'
        obtain ⟨m1, m2, m3⟩ := g4 a b (noPause_prefix c')
        rw [hpost] at a
        obtain ⟨n1, n2⟩ := k3 m2 (linesShorter_prefix a)
        refine ⟨?_, n2, m3⟩
        intro p hp
        rcases mem_add hp with hp | ⟨hw, rfl⟩
        · exact m1 p hp
        · rcases n1 with n1 | n1
          · exact absurd n1 hw
          · exact n1
  | miss =>
    unfold LogSys.step at hs
    rcases h.err with herr | herr
    · simp [herr] at hs
    simp only [herr] at hs
    split at hs
    · cases hs
    · cases hs
      exact ⟨_, rfl, h.quiet rfl rfl (by simp) h.proc h.stopping h.taken h.table h.trackers (.inr rfl) rfl rfl rfl rfl⟩
  | settle =>
    unfold LogSys.step at hs
    dsimp only at hs
    split at hs
    swap
    · cases hs
    obtain ⟨ps, g1, g2, g3, g4⟩ := h.log
    obtain ⟨lb', k1, k2, k3⟩ := g2.flush
    rw [show (!false) = true from rfl, k1] at hs
    cases hs
    have e1 : printed (.tracker 0) (pre ++ [.settle]) = printed (.tracker 0) pre := by rw [printed_append]; simp [printed]
    have e2 : relayed (pre ++ [.settle]) = relayed pre := by rw [relayed_append]; simp [relayed]
    have e3 : (pre ++ [Event.settle]).count .read = pre.count .read := by
      rw [List.count_append, List.count_singleton, if_neg (by simp), Nat.add_zero]
    have e4 : consumed (pre ++ [.settle]) = consumed pre := by unfold consumed; rw [e1, e3]
    refine ⟨_, rfl, h.proc, h.stopping, h.taken, h.table, h.trackers, ?_, by rw [e1, e3]; exact h.count, by rw [e1, e3]; exact h.unread,
      addPiece true s.error.content ps, ?_, ?_, ?_, ?_⟩
    · dsimp only
      split
      · exact .inl rfl
      · exact h.err
    · rw [text_add, g1]
    · rw [e4]; exact k2
    · rw [e2]; exact g3.other (by simp) _
    · rw [e1, e2, e4]
      intro a b c
      obtain ⟨m1, m2, m3⟩ := g4 a b (noPause_prefix c)
      have hend : Ended (consumed pre) := (c pre .settle [] rfl).1 rfl
      refine ⟨?_, k3 hend m2, m3⟩
      intro p hp
      rcases mem_add hp with hp | ⟨hw, rfl⟩
      · exact m1 p hp
      · exact absurd (g2.ended hend) hw
  | relay c =>
    unfold LogSys.step at hs
    simp only [hproc] at hs
    rw [if_neg (by simp), toOut_eq] at hs
    have e1 : printed (.tracker 0) (pre ++ [.relay c]) = printed (.tracker 0) pre := by rw [printed_append]; simp [printed]
    have e2 : relayed (pre ++ [.relay c]) = relayed pre ++ [c] := by rw [relayed_append]; simp [relayed]
    have e3 : (pre ++ [Event.relay c]).count .read = pre.count .read := by
      rw [List.count_append, List.count_singleton, if_neg (by simp), Nat.add_zero]
    have e4 : consumed (pre ++ [.relay c]) = consumed pre := by unfold consumed; rw [e1, e3]
    obtain ⟨ps, g1, g2, g3, g4⟩ := h.log
    have hcount : lineCount 0 (relayed pre) < 2147483647 := by
      apply lineCount_lt
      rw [e2] at hl2
      exact linesShorter_prefix hl2
    obtain ⟨w, lb', k1, k2, k3⟩ := g3.byte (c := c) hcount
    rw [k1] at hs
    cases hs
    refine ⟨_, rfl, h.proc, h.stopping, h.taken, h.table, h.trackers, h.err, by rw [e1, e3]; exact h.count, by rw [e1, e3]; exact h.unread,
      addPiece false w ps, ?_, ?_, ?_, ?_⟩
    · rw [text_add, g1]
    · rw [e4]; exact g2.other (by simp) w
    · rw [e2]; exact k2
    · rw [e1, e2, e4]
      intro a b c'
      obtain ⟨m1, m2, m3⟩ := g4 a (linesShorter_prefix b) (noPause_prefix c')
      obtain ⟨n1, n2⟩ := k3 m3 b
      refine ⟨?_, m2, n2⟩
      intro p hp
      rcases mem_add hp with hp | ⟨hw, rfl⟩
      · exact m1 p hp
      · rcases n1 with n1 | n1
        · exact absurd n1 hw
        · exact n1
  | relayEnd =>
    unfold LogSys.step at hs
    simp only [hproc] at hs
    rw [if_neg (by simp)] at hs
    obtain ⟨ps, g1, g2, g3, g4⟩ := h.log
    obtain ⟨lb', k1, k2, k3⟩ := g3.flush
    rw [k1] at hs
    cases hs
    have e1 : printed (.tracker 0) (pre ++ [.relayEnd]) = printed (.tracker 0) pre := by rw [printed_append]; simp [printed]
    have e2 : relayed (pre ++ [.relayEnd]) = relayed pre := by rw [relayed_append]; simp [relayed]
    have e3 : (pre ++ [Event.relayEnd]).count .read = pre.count .read := by
      rw [List.count_append, List.count_singleton, if_neg (by simp), Nat.add_zero]
    have e4 : consumed (pre ++ [.relayEnd]) = consumed pre := by unfold consumed; rw [e1, e3]
    refine ⟨_, rfl, ⟨alive, rfl⟩, h.stopping, h.taken, h.table, h.trackers, h.err, by rw [e1, e3]; exact h.count, by rw [e1, e3]; exact h.unread,
      addPiece false s.out.content ps, ?_, ?_, ?_, ?_⟩
    · rw [text_add, g1]
    · rw [e4]; exact g2.other (by simp) _
    · rw [e2]; exact k2
    · rw [e1, e2, e4]
      intro a b c
      obtain ⟨m1, m2, m3⟩ := g4 a b (noPause_prefix c)
      have hend : Ended (relayed pre) := (c pre .relayEnd [] rfl).2 rfl
      refine ⟨?_, m2, k3 hend m3⟩
      intro p hp
      rcases mem_add hp with hp | ⟨hw, rfl⟩
      · exact m1 p hp
      · exact absurd (g3.ended hend) hw
  | stop => exact absurd rfl he
  | drain =>
    unfold LogSys.step at hs
    simp [h.stopping] at hs
  | pass =>
    unfold LogSys.step at hs
    simp [h.taken] at hs
  | stopped =>
    unfold LogSys.step at hs
    simp [h.stopping] at hs
  | «open» fd' n =>
    unfold LogSys.step at hs
    dsimp only at hs
    split at hs
    · next hh =>
      cases hs
      refine ⟨_, rfl, h.quiet rfl rfl (by simp) h.proc h.stopping h.taken ?_ h.trackers h.err rfl rfl rfl rfl⟩
      dsimp only
      rw [put_other]
      · exact h.table
      · rintro rfl
        rw [h.table] at hh
        cases hh
    · cases hs
  | close fd' =>
    unfold LogSys.step at hs
    simp only [hproc] at hs
    split at hs
    · cases hs
    · next hh =>
      cases hs
      refine ⟨_, rfl, h.quiet rfl rfl (by simp) ⟨alive, rfl⟩ h.stopping h.taken ?_ h.trackers h.err rfl rfl rfl rfl⟩
      dsimp only
      rw [put_other _ _ (fun hx => hh hx.symm)]
      exact h.table

theorem Sess.run {fd : Nat} (es : List Event) : ∀ {pre : List Event} {s : State} {o : Outcome State}, Sess fd pre s → .stop ∉ es →
    LinesShorter 2147483647 (printed (.tracker 0) (pre ++ es)) → LinesShorter 2147483647 (relayed (pre ++ es)) →
    run false s es = some o → ∃ s', o = .ok s' ∧ Sess fd (pre ++ es) s' := by
  induction es with
  | nil =>
    intro pre s o h _ _ _ hr
    cases hr
    exact ⟨s, rfl, by simpa using h⟩
  | cons e es ih =>
    intro pre s o h hn h1 h2 hr
    have ea : pre ++ e :: es = pre ++ [e] ++ es := by simp
    rw [ea] at h1 h2 ⊢
    unfold LogSys.run at hr
    cases hst : LogSys.step false s e with
    | none => simp [hst] at hr
    | some o' =>
      obtain ⟨s', rfl, hs'⟩ := h.step (fun hh => hn (by rw [hh]; simp)) (by
          rw [printed_append] at h1; exact linesShorter_prefix h1) (by
          rw [relayed_append] at h2; exact linesShorter_prefix h2) hst
      simp only [hst] at hr
      exact ih hs' (fun hh => hn (by simp [hh])) h1 h2 hr

theorem Sess.start {table : Nat → Option Nat} {unread : Nat → Str} {fd : Nat} {o : Outcome State}
    (h : LogSys.step false (start table unread) (.spawn fd) = some o) : ∃ s, o = .ok s ∧ Sess fd [] s := by
  unfold LogSys.step at h
  simp only at h
  split at h
  swap
  · cases h
  cases h
  refine ⟨_, rfl, ⟨true, rfl⟩, rfl, rfl, ?_, rfl, .inl rfl, by simp, ?_, [], rfl, ?_, ?_, ?_⟩
  · dsimp only
    rw [put_same]; rfl
  · rfl
  · exact buf_reset _ _ rfl
  · exact buf_reset _ _ rfl
  · intro _ _ _
    exact ⟨by simp, tidy_reset, tidy_reset⟩

/-! ### Stopping -/

/-- While the tracker is stopped: `u` was unread when it began, `d` of it is in the buffer or in the log by now. -/
structure Stopping (fd : Nat) (log u d : Str) (s : State) : Prop where
  proc : ∃ alive, s.process = some (fd, alive)
  table : s.table fd = some (.tracker 0)
  split : u = d ++ s.taken ++ s.unread (.tracker 0)
  rounds : ∃ k, s.stopping = some k ∧ (s.unread (.tracker 0)).length ≤ 1024 * k
  count : s.out.length = (lineCount 0 d : Nat)
  room : s.out.content.length < 1023
  whole : s.log ++ s.out.content = log ++ cutText lineTruncate 0 d
  ended : Ended d → s.out.content = []

theorem Stopping.step {fd : Nat} {log u d : Str} {s : State} {e : Event} {o : Outcome State} (h : Stopping fd log u d s)
    (hl : LinesShorter 2147483647 u) (he : e = .drain ∨ e = .pass) (hs : step false s e = some o) :
    ∃ s' d', o = .ok s' ∧ Stopping fd log u d' s' := by
  obtain ⟨alive, hproc⟩ := h.proc
  obtain ⟨k, hk, hlen⟩ := h.rounds
  rcases he with rfl | rfl
  · unfold LogSys.step at hs
    cases k with
    | zero => simp [hk] at hs
    | succ k =>
      simp only [hk, hproc, h.table] at hs
      split at hs
      · cases hs
      next ht =>
      split at hs
      · cases hs
      cases hs
      have ht : s.taken = [] := by simpa using ht
      refine ⟨_, d, rfl, ⟨alive, rfl⟩, h.table, ?_, ⟨k, rfl, ?_⟩, h.count, h.room, h.whole, h.ended⟩
      · dsimp only
        rw [put_same, List.append_assoc, List.take_append_drop]
        have := h.split
        rwa [ht, List.append_nil] at this
      · dsimp only
        rw [put_same, List.length_drop]
        unfold loggerBufferSize
        omega
  · unfold LogSys.step at hs
    cases ht : s.taken with
    | nil => simp [ht] at hs
    | cons c rest =>
      simp only [ht] at hs
      rw [toOut_eq] at hs
      dsimp only at hs
      have hsplit := h.split
      rw [ht] at hsplit
      have hcount : lineCount 0 d < 2147483647 := by
        apply lineCount_lt
        rw [hsplit, List.append_assoc] at hl
        exact linesShorter_prefix hl
      obtain ⟨w, content', h1, h2, -, h4, h5⟩ := logStep_byte h.room hcount c lineTruncate true
      rw [← h.count] at h1
      rw [h1] at hs
      cases hs
      refine ⟨_, d ++ [c], rfl, h.proc, h.table, ?_, ⟨k, hk, hlen⟩, ?_, h4, ?_, fun hx => h5 (ended_snoc hx)⟩
      · rw [hsplit]; simp
      · rw [lineCount_append]; rfl
      · dsimp only
        rw [List.append_assoc, h2 rfl, ← List.append_assoc, h.whole, cutText_append]
        simp [cutText]

theorem Stopping.run {fd : Nat} {log u : Str} (es : List Event) : ∀ {d : Str} {s : State} {o : Outcome State} {tl : List Event},
    Stopping fd log u d s → LinesShorter 2147483647 u → (∀ e ∈ es, e = .drain ∨ e = .pass) → run false s (es ++ tl) = some o →
    ∃ s' d', run false s' tl = some o ∧ Stopping fd log u d' s' := by
  induction es with
  | nil => intro d s o tl h _ _ hr; exact ⟨s, d, hr, h⟩
  | cons e es ih =>
    intro d s o tl h hl he hr
    rw [List.cons_append] at hr
    unfold LogSys.run at hr
    cases hst : LogSys.step false s e with
    | none => simp [hst] at hr
    | some o' =>
      obtain ⟨s', d', rfl, hs'⟩ := h.step hl (he e (by simp)) hst
      simp only [hst] at hr
      exact ih hs' hl (fun x hx => he x (by simp [hx])) hr

theorem run_cons (silent : Bool) (s : State) (e : Event) (es : List Event) :
    run silent s (e :: es) = match step silent s e with
      | none => none
      | some (.ok s) => run silent s es
      | some .abort => some .abort
      | some .ub => some .ub := rfl

theorem run_append (silent : Bool) (a : List Event) : ∀ {b : List Event} {s : State} {o : Outcome State},
    run silent s (a ++ b) = some o → ∃ o', run silent s a = some o' ∧ (∀ s', o' = .ok s' → run silent s' b = some o) := by
  induction a with
  | nil => intro b s o h; exact ⟨_, rfl, fun s' hs => by cases hs; exact h⟩
  | cons e es ih =>
    intro b s o h
    rw [List.cons_append, run_cons] at h
    rw [run_cons]
    cases hst : LogSys.step silent s e with
    | none => simp [hst] at h
    | some o' =>
      simp only [hst] at h
      cases o' with
      | ok s' => exact ih h
      | abort => exact ⟨_, rfl, fun s' hs => by cases hs⟩
      | ub => exact ⟨_, rfl, fun s' hs => by cases hs⟩

theorem cutText_short {d : Str} (h : LinesShorter 256 d) : cutText lineTruncate 0 d = d :=
  limited_short (cutText_limited (t := 256) (by decide) _ d (Nat.le_refl _)) h

theorem linesShorter_suffix {n : Nat} {a b : Str} (h : LinesShorter n (a ++ b)) : LinesShorter n b := by
  intro pre l post hh ho
  exact h (a ++ pre) l post (by rw [hh]; simp) ho

theorem linesShorter_mono {n m : Nat} {a : Str} (hnm : n ≤ m) (h : LinesShorter n a) : LinesShorter m a :=
  fun pre l post hh ho => Nat.lt_of_lt_of_le (h pre l post hh ho) hnm

theorem ended_suffix {a b : Str} (h : Ended (a ++ b)) : Ended b := by
  rcases h with h | h
  · exact .inl (List.append_eq_nil_iff.1 h).2
  · by_cases hb : b = []
    · exact .inl hb
    · right
      rw [List.getLast?_append, List.getLast?_eq_some_getLast hb, Option.some_or] at h
      rw [List.getLast?_eq_some_getLast hb]
      exact h

/-! ### Silent clients -/

theorem logStep_silent {t : Int} {lb : LineBuffer} {e : LogEvent} {w : Str} {lb' : LineBuffer} (h : logStep t false lb e = .ok (w, lb')) : w = [] := by
  have hf : ∀ {b : LineBuffer} {w : Str} {b' : LineBuffer}, b.flush false = .ok (w, b') → w = [] := by
    intro b w b' h
    unfold LineBuffer.flush at h
    split at h
    · cases h; rfl
    · cases h
  cases e with
  | byte c =>
    dsimp only [logStep] at h
    generalize lb.push c t = r at h
    cases r with
    | ok p =>
      obtain ⟨full, b⟩ := p
      simp only [Outcome.bind_ok] at h
      cases full
      · simp only [Bool.false_eq_true, if_false] at h
        cases h; rfl
      · exact hf h
    | abort => cases h
    | ub => cases h
  | idle => exact hf h

theorem step_silent {s s' : State} {e : Event} (h : step true s e = some (.ok s')) (he : e ≠ .drain) (ht : s.taken = []) :
    s'.taken = [] ∧ s'.log = s.log := by
  cases e with
  | drain => exact absurd rfl he
  | pass => unfold step at h; simp [ht] at h
  | relay c => unfold step at h; simp at h
  | relayEnd => unfold step at h; simp at h
  | read =>
    unfold step at h
    cases herr : s.err with
    | none => simp [herr] at h
    | some fd =>
      simp only [herr] at h
      split at h
      · cases h
      cases htab : s.table fd with
      | none => simp [htab] at h
      | some f =>
        simp only [htab] at h
        cases hu : s.unread f with
        | nil => simp [hu] at h
        | cons c rest =>
          simp only [hu] at h
          rw [toError_eq] at h
          dsimp only at h
          injection h with h
          cases hr : logStep lineTruncate (!true) s.error (.byte c) with
          | ok p =>
            obtain ⟨w, lb⟩ := p
            rw [hr] at h
            cases h
            exact ⟨ht, by rw [logStep_silent hr]; simp⟩
          | abort => rw [hr] at h; cases h
          | ub => rw [hr] at h; cases h
  | settle =>
    unfold step at h
    dsimp only at h
    split at h
    swap
    · cases h
    injection h with h
    cases hr : s.error.flush (!true) with
    | ok p =>
      obtain ⟨w, lb⟩ := p
      rw [hr] at h
      cases h
      refine ⟨ht, ?_⟩
      dsimp only
      rw [logStep_silent (t := 0) (lb := s.error) (e := .idle) (w := w) (lb' := lb) hr]
      simp
    | abort => rw [hr] at h; cases h
    | ub => rw [hr] at h; cases h
  | _ =>
    unfold step at h
    dsimp only at h
    repeat' split at h
    all_goals first | (cases h; exact ⟨ht, rfl⟩) | cases h

/-! ### The files of the program -/

/-- What the program relies on, after the events `pre`. -/
structure Own (unread : Nat → Str) (pre : List Event) (s : State) : Prop where
  err : ∀ fd, s.err = some fd → .spawn fd ∈ pre
  proc : ∀ fd a, s.process = some (fd, a) → .spawn fd ∈ pre
  table : ∀ fd n, .spawn fd ∈ pre → s.table fd ≠ some (.user n)
  files : ∀ n, s.unread (.user n) = unread n ++ printed (.user n) pre

theorem own_start (table : Nat → Option Nat) (unread : Nat → Str) : Own unread [] (start table unread) :=
  ⟨fun fd h => by simp [start] at h, fun fd a h => by simp [start] at h, fun fd n h => by simp at h, fun n => by simp [start, printed]⟩

theorem toError_frame {silent : Bool} {s s' : State} {c : Byte} (h : s.toError silent c = .ok s') :
    s'.table = s.table ∧ s'.unread = s.unread ∧ s'.process = s.process ∧ s'.err = s.err := by
  rw [toError_eq] at h
  cases hr : logStep lineTruncate (!silent) s.error (.byte c) with
  | ok p => rw [hr] at h; cases h; exact ⟨rfl, rfl, rfl, rfl⟩
  | abort => rw [hr] at h; cases h
  | ub => rw [hr] at h; cases h

theorem toOut_frame {s s' : State} {c : Byte} (h : s.toOut c = .ok s') :
    s'.table = s.table ∧ s'.unread = s.unread ∧ s'.process = s.process ∧ s'.err = s.err := by
  rw [toOut_eq] at h
  cases hr : logStep lineTruncate true s.out (.byte c) with
  | ok p => rw [hr] at h; cases h; exact ⟨rfl, rfl, rfl, rfl⟩
  | abort => rw [hr] at h; cases h
  | ub => rw [hr] at h; cases h

theorem Own.mono {unread : Nat → Str} {pre : List Event} {s s' : State} {e : Event} (h : Own unread pre s)
    (he : ∀ fd, e ≠ .spawn fd) (hp : ∀ n, printed (.user n) [e] = [])
    (h1 : ∀ fd, s'.err = some fd → s.err = some fd ∨ .spawn fd ∈ pre)
    (h2 : ∀ fd a, s'.process = some (fd, a) → .spawn fd ∈ pre)
    (h3 : ∀ fd n, .spawn fd ∈ pre → s'.table fd = some (.user n) → s.table fd = some (.user n))
    (h4 : ∀ n, s'.unread (.user n) = s.unread (.user n)) : Own unread (pre ++ [e]) s' := by
  have hm : ∀ fd, Event.spawn fd ∈ pre ++ [e] ↔ .spawn fd ∈ pre := by
    intro fd
    rw [List.mem_append, List.mem_singleton]
    exact ⟨fun h => h.elim id (fun h => absurd h.symm (he fd)), .inl⟩
  refine ⟨fun fd hx => (hm fd).2 ((h1 fd hx).elim (h.err fd) id), fun fd a hx => (hm fd).2 (h2 fd a hx), fun fd n hx hy => ?_, fun n => ?_⟩
  · exact h.table fd n ((hm fd).1 hx) (h3 fd n ((hm fd).1 hx) hy)
  · rw [h4, h.files, printed_append, hp, List.append_nil]

theorem Own.step {silent : Bool} {unread : Nat → Str} {pre : List Event} {s s' : State} {e : Event} (h : Own unread pre s)
    (ho : ∀ fd n, e = .open fd n → .spawn fd ∉ pre) (hs : step silent s e = some (.ok s')) : Own unread (pre ++ [e]) s' := by
  cases e with
  | print f t =>
    unfold LogSys.step at hs
    dsimp only at hs
    split at hs
    · cases hs
    cases hs
    refine ⟨fun fd hx => by simpa using h.err fd hx, fun fd a hx => by simpa using h.proc fd a hx,
      fun fd n hx => h.table fd n (by simpa using hx), fun n => ?_⟩
    dsimp only
    rw [printed_append]
    by_cases hf : File.user n = f
    · rw [← hf, put_same, h.files]
      simp [printed]
    · rw [put_other _ _ hf, h.files]
      have : ¬ f = .user n := fun hh => hf hh.symm
      simp [printed, this]
  | spawn fd =>
    unfold LogSys.step at hs
    dsimp only at hs
    split at hs
    swap
    · cases hs
    cases hs
    refine ⟨fun fd' hx => ?_, fun fd' a hx => ?_, fun fd' n hx hy => ?_, fun n => ?_⟩
    · exact List.mem_append_left _ (h.err fd' hx)
    · cases hx
      exact List.mem_append_right _ (by simp)
    · dsimp only at hy
      by_cases hf : fd' = fd
      · rw [hf, put_same] at hy
        cases hy
      · rw [put_other _ _ hf] at hy
        refine h.table fd' n ?_ hy
        rcases List.mem_append.1 hx with hx | hx
        · exact hx
        · rw [List.mem_singleton] at hx
          cases hx
          exact absurd rfl hf
    · rw [printed_append]
      simpa [printed] using h.files n
  | exit =>
    unfold LogSys.step at hs
    dsimp only at hs
    split at hs
    · next fd hp =>
      cases hs
      exact h.mono (by simp) (fun _ => rfl) (fun _ hx => .inl hx) (fun fd' a hx => by cases hx; exact h.proc _ _ hp) (fun _ _ _ hx => hx) (fun _ => rfl)
    · cases hs
  | lookup =>
    unfold LogSys.step at hs
    dsimp only at hs
    split at hs
    swap
    · cases hs
    split at hs
    · next fd hp =>
      cases hs
      exact h.mono (by simp) (fun _ => rfl) (fun fd' hx => by cases hx; exact .inr (h.proc _ _ hp)) (fun fd' a hx => h.proc _ _ hx) (fun _ _ _ hx => hx) (fun _ => rfl)
    · cases hs
      exact h.mono (by simp) (fun _ => rfl) (fun _ hx => .inl hx) (fun _ _ hx => h.proc _ _ hx) (fun _ _ _ hx => hx) (fun _ => rfl)
  | read =>
    unfold LogSys.step at hs
    cases herr : s.err with
    | none => simp [herr] at hs
    | some fd =>
      simp only [herr] at hs
      split at hs
      · cases hs
      cases htab : s.table fd with
      | none => simp [htab] at hs
      | some f =>
        simp only [htab] at hs
        cases hu : s.unread f with
        | nil => simp [hu] at hs
        | cons c rest =>
          simp only [hu] at hs
          injection hs with hs
          obtain ⟨g1, g2, g3, g4⟩ := toError_frame hs
          refine h.mono (by simp) (fun _ => rfl) (fun fd' hx => ?_) (fun _ a hx => ?_) (fun _ _ _ hx => ?_) (fun n => ?_)
          · rw [g4] at hx; exact .inl (herr.trans hx)
          · rw [g3] at hx; exact h.proc _ a hx
          · rw [g1] at hx; exact hx
          · rw [g2]
            dsimp only
            rw [put_other]
            rintro rfl
            exact h.table fd n (h.err fd herr) htab
  | miss =>
    unfold LogSys.step at hs
    dsimp only at hs
    split at hs
    · split at hs
      · cases hs
      · cases hs
        exact h.mono (by simp) (fun _ => rfl) (fun _ hx => .inl hx) (fun _ _ hx => h.proc _ _ hx) (fun _ _ _ hx => hx) (fun _ => rfl)
    · cases hs
  | settle =>
    unfold LogSys.step at hs
    dsimp only at hs
    split at hs
    swap
    · cases hs
    injection hs with hs
    cases hr : s.error.flush (!silent) with
    | ok p =>
      rw [hr] at hs
      cases hs
      refine h.mono (by simp) (fun _ => rfl) (fun fd hx => ?_) (fun _ _ hx => h.proc _ _ hx) (fun _ _ _ hx => hx) (fun _ => rfl)
      dsimp only at hx
      split at hx
      · cases hx
      · exact .inl hx
    | abort => rw [hr] at hs; cases hs
    | ub => rw [hr] at hs; cases hs
  | relay c =>
    unfold LogSys.step at hs
    dsimp only at hs
    split at hs
    · cases hs
    injection hs with hs
    obtain ⟨g1, g2, g3, g4⟩ := toOut_frame hs
    exact h.mono (by simp) (fun _ => rfl) (fun fd' hx => by rw [g4] at hx; exact .inl hx) (fun _ a hx => by rw [g3] at hx; exact h.proc _ a hx)
      (fun _ _ _ hx => by rw [g1] at hx; exact hx) (fun n => by rw [g2])
  | relayEnd =>
    unfold LogSys.step at hs
    dsimp only at hs
    split at hs
    · cases hs
    injection hs with hs
    cases hr : s.out.flush true with
    | ok p =>
      rw [hr] at hs
      cases hs
      exact h.mono (by simp) (fun _ => rfl) (fun fd hx => .inl hx) (fun _ _ hx => h.proc _ _ hx) (fun _ _ _ hx => hx) (fun _ => rfl)
    | abort => rw [hr] at hs; cases hs
    | ub => rw [hr] at hs; cases hs
  | stop =>
    unfold LogSys.step at hs
    dsimp only at hs
    split at hs
    · cases hs
      exact h.mono (by simp) (fun _ => rfl) (fun fd hx => .inl hx) (fun _ _ hx => h.proc _ _ hx) (fun _ _ _ hx => hx) (fun _ => rfl)
    · cases hs
  | drain =>
    unfold LogSys.step at hs
    dsimp only at hs
    split at hs
    swap
    · cases hs
    next k fd a hk hp =>
    split at hs
    · cases hs
    split at hs
    swap
    · cases hs
    next f htab =>
    split at hs
    · cases hs
    cases hs
    refine h.mono (by simp) (fun _ => rfl) (fun fd hx => .inl hx) (fun _ _ hx => h.proc _ _ hx) (fun _ _ _ hx => hx) (fun n => ?_)
    dsimp only
    rw [put_other]
    rintro rfl
    exact h.table fd n (h.proc fd _ hp) htab
  | pass =>
    unfold LogSys.step at hs
    dsimp only at hs
    split at hs
    · injection hs with hs
      obtain ⟨g1, g2, g3, g4⟩ := toOut_frame hs
      exact h.mono (by simp) (fun _ => rfl) (fun fd' hx => by rw [g4] at hx; exact .inl hx) (fun _ a hx => by rw [g3] at hx; exact h.proc _ a hx)
        (fun _ _ _ hx => by rw [g1] at hx; exact hx) (fun n => by rw [g2])
    · cases hs
  | stopped =>
    unfold LogSys.step at hs
    dsimp only at hs
    split at hs
    swap
    · cases hs
    next k fd a hk hp =>
    split at hs
    swap
    · cases hs
    cases hs
    refine h.mono (by simp) (fun _ => rfl) (fun fd hx => .inl hx) (fun _ _ hx => by cases hx) (fun fd' n _ hx => ?_) (fun n => rfl)
    dsimp only at hx
    by_cases hf : fd' = fd
    · rw [hf, put_same] at hx; cases hx
    · rwa [put_other _ _ hf] at hx
  | «open» fd n =>
    unfold LogSys.step at hs
    dsimp only at hs
    split at hs
    swap
    · cases hs
    cases hs
    refine h.mono (by simp) (fun _ => rfl) (fun fd hx => .inl hx) (fun _ _ hx => h.proc _ _ hx) (fun fd' n' hm hx => ?_) (fun n => rfl)
    dsimp only at hx
    by_cases hf : fd' = fd
    · rw [hf] at hm; exact absurd hm (ho fd n rfl)
    · rwa [put_other _ _ hf] at hx
  | close fd =>
    unfold LogSys.step at hs
    dsimp only at hs
    have key : ∀ s'', s'' = { s with table := put s.table fd none } → Own unread (pre ++ [.close fd]) s'' := by
      rintro _ rfl
      refine h.mono (by simp) (fun _ => rfl) (fun fd hx => .inl hx) (fun _ _ hx => h.proc _ _ hx) (fun fd' n' hm hx => ?_) (fun n => rfl)
      dsimp only at hx
      by_cases hf : fd' = fd
      · rw [hf, put_same] at hx; cases hx
      · rwa [put_other _ _ hf] at hx
    split at hs
    · split at hs
      · cases hs
      · injection hs with hs
        injection hs with hs
        exact key _ hs.symm
    · injection hs with hs
      injection hs with hs
      exact key _ hs.symm

theorem Own.run {silent : Bool} {unread : Nat → Str} (es : List Event) : ∀ {pre : List Event} {s s' : State}, Own unread pre s →
    (∀ a fd n b, pre ++ es = a ++ .open fd n :: b → .spawn fd ∉ a) → run silent s es = some (.ok s') → Own unread (pre ++ es) s' := by
  induction es with
  | nil => intro pre s s' h _ hr; cases hr; simpa using h
  | cons e es ih =>
    intro pre s s' h ho hr
    have ea : pre ++ e :: es = pre ++ [e] ++ es := by simp
    rw [run_cons] at hr
    cases hst : LogSys.step silent s e with
    | none => simp [hst] at hr
    | some o' =>
      simp only [hst] at hr
      cases o' with
      | ok s₁ =>
        have := h.step (fun fd n he => ho pre fd n es (by rw [he])) hst
        rw [ea]
        rw [ea] at ho
        exact ih this ho hr
      | abort => cases hr
      | ub => cases hr

/-! ### For examples -/

theorem linesShorter_of_length {n : Nat} {t : Str} (h : t.length < n) : LinesShorter n t := by
  intro pre l post hh _
  have := congrArg List.length hh
  simp only [List.length_append] at this
  omega

instance (t : Str) : Decidable (Ended t) := by unfold Ended; infer_instance

theorem noPause_of {es : List Event} (h : ∀ k, k < es.length →
    (es[k]? = some .settle → Ended (consumed (es.take k))) ∧ (es[k]? = some .relayEnd → Ended (relayed (es.take k)))) : NoPause es := by
  intro pre e post hh
  have hk : pre.length < es.length := by rw [hh]; simp
  have h1 : es[pre.length]? = some e := by rw [hh]; simp
  have h2 : es.take pre.length = pre := by rw [hh]; simp
  have := h pre.length hk
  rw [h1, h2] at this
  exact ⟨fun he => this.1 (by rw [he]), fun he => this.2 (by rw [he])⟩

end Trax.LogSys
