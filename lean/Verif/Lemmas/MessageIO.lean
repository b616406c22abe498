import Verif.Lemmas.Message

/-! Helper lemmas: chunked input and scheduled output of the message layer. -/

namespace Trax
open Spec

/-! ### Chunked input -/

/-- The events that a `read` result stands for. -/
def ReadRes.events : ReadRes → List InEv
  | .error => [.fail]
  | .data [] => [.fail]
  | .data (b :: bs) => bytes (b :: bs)

/-- The events still to come on a chunked input. -/
def ChunkIn.events (s : ChunkIn) : List InEv := bytes s.buf ++ s.script.flatMap ReadRes.events

theorem readCharacter_events (s : ChunkIn) :
    (s.events = [] ∧ readCharacter s = (none, s)) ∨
    ∃ e t, s.events = e :: t ∧ (readCharacter s).1 = e.char ∧ (readCharacter s).2.events = t ∧
      (readCharacter s).2.size < s.size := by
  obtain ⟨buf, script⟩ := s
  cases buf with
  | cons b bs =>
    right
    refine ⟨.byte b, bytes bs ++ script.flatMap ReadRes.events, rfl, rfl, rfl, ?_⟩
    simp [readCharacter, ChunkIn.size]
  | nil =>
    cases script with
    | nil => left; exact ⟨rfl, rfl⟩
    | cons x t =>
      right
      cases x with
      | error =>
        refine ⟨.fail, t.flatMap ReadRes.events, rfl, rfl, rfl, ?_⟩
        simp [readCharacter, ChunkIn.size]
      | data bs =>
        cases bs with
        | nil =>
          refine ⟨.fail, t.flatMap ReadRes.events, rfl, rfl, rfl, ?_⟩
          simp [readCharacter, ChunkIn.size]
        | cons b bs =>
          refine ⟨.byte b, bytes bs ++ t.flatMap ReadRes.events, ?_, rfl, rfl, ?_⟩
          · simp [ChunkIn.events, ReadRes.events, bytes]
          · simp [readCharacter, ChunkIn.size]; omega

theorem readLoopChunked_events (fuel : Nat) (r : Reader) (s : ChunkIn) (hf : s.size < fuel) :
    (readLoopChunked fuel r s).1 = (readLoop r s.events).1 ∧
    (readLoopChunked fuel r s).2.events = (readLoop r s.events).2 := by
  induction fuel generalizing r s with
  | zero => omega
  | succ fuel ih =>
    rw [readLoopChunked]
    by_cases hc : r.complete = true
    · rw [if_pos hc, readLoop_complete _ _ hc]; exact ⟨rfl, rfl⟩
    · rw [if_neg hc]
      rcases readCharacter_events s with ⟨he, hr⟩ | ⟨e, t, he, h1, h2, h3⟩
      · rw [hr, he]
        simp only [readLoop, if_neg hc]
        simp [he]
      · rw [he, readLoop, if_neg hc]
        cases hrc : readCharacter s with
        | mk o s' =>
          rw [hrc] at h1 h2 h3
          simp only at h1 h2 h3
          rw [← h1]
          cases o with
          | none => exact ⟨rfl, h2⟩
          | some c =>
            simp only
            rw [← h2]
            exact ih _ _ (by omega)

/-- The chunked reader computes what the reader on the plain event list computes. -/
theorem readMessageChunked_eq (mt : Option MsgType) (p : Properties) (s : ChunkIn) :
    let C := readMessageChunked mt p s
    let R := readMessage mt p s.events
    C.mtype = R.mtype ∧ C.args = R.args ∧ C.props = R.props ∧ C.log = R.log ∧ C.rest.events = R.rest := by
  have h := readLoopChunked_events (s.size + 1) (Reader.start mt p) s (by omega)
  simp only [readMessageChunked, readMessage]
  rw [h.1, h.2]
  simp

/-! ### What a read consumes -/

theorem readLoop_suffix (r : Reader) (inp : List InEv) (hc : r.complete = false) :
    ∃ consumed, inp = consumed ++ (readLoop r inp).2 ∧ (inp ≠ [] → consumed ≠ []) := by
  induction inp generalizing r with
  | nil => exact ⟨[], by simp [readLoop, hc], by simp⟩
  | cons e t ih =>
    rw [readLoop]
    simp only [hc, if_false, Bool.false_eq_true]
    cases he : e.char with
    | none => exact ⟨[e], by simp, by simp⟩
    | some c =>
      simp only
      by_cases hcf : (r.feed c).complete = true
      · rw [readLoop_complete _ _ hcf]
        exact ⟨[e], by simp, by simp⟩
      · obtain ⟨cons, h, _⟩ := ih (r.feed c) (by simpa using hcf)
        exact ⟨e :: cons, by rw [List.cons_append, ← h], by simp⟩

/-! ### Scheduled output -/

theorem pump_prefix (dead : Bool) (s : List WriteRes) (buf : Str) :
    (pump dead s buf).2.1 <+: buf ∧
    ((pump dead s buf).2.2 = true → (pump dead s buf).2.1 = buf) ∧
    ((pump dead s buf).2.2 = false → .fail ∈ s ∨ dead = true) := by
  induction s generalizing buf with
  | nil =>
    cases buf with
    | nil => simp [pump]
    | cons b bs => cases dead <;> simp [pump]
  | cons x t ih =>
    cases buf with
    | nil => simp [pump]
    | cons b bs =>
      cases x with
      | fail => simp [pump]
      | ok n =>
        obtain ⟨h1, h2, h3⟩ := ih ((b :: bs).drop n)
        simp only [pump]
        refine ⟨?_, ?_, ?_⟩
        · obtain ⟨u, hu⟩ := h1
          exact ⟨u, by rw [List.append_assoc, hu, List.take_append_drop]⟩
        · intro h; rw [h2 h, List.take_append_drop]
        · intro h; rcases h3 h with h | h
          · exact Or.inl (List.mem_cons_of_mem _ h)
          · exact Or.inr h

/-- The rest of the schedule is a part of the schedule. -/
theorem pump_script (dead : Bool) (s : List WriteRes) (buf : Str) :
    ∀ x ∈ (pump dead s buf).1, x ∈ s := by
  induction s generalizing buf with
  | nil =>
    cases buf with
    | nil => simp [pump]
    | cons b bs => cases dead <;> simp [pump]
  | cons x t ih =>
    cases buf with
    | nil => simp [pump]
    | cons b bs =>
      cases x with
      | fail => intro x hx; exact List.mem_cons_of_mem _ hx
      | ok n => intro x hx; exact List.mem_cons_of_mem _ (ih _ x hx)

/-- If only the end of the schedule can fail, then after a failure the schedule is used up. -/
theorem pump_dead (s : List WriteRes) (buf : Str) (hs : ∀ x ∈ s, x ≠ .fail)
    (hf : (pump true s buf).2.2 = false) : (pump true s buf).1 = [] := by
  induction s generalizing buf with
  | nil =>
    cases buf with
    | nil => simp [pump]
    | cons b bs => simp [pump]
  | cons x t ih =>
    cases buf with
    | nil => simp [pump] at hf
    | cons b bs =>
      cases x with
      | fail => exact absurd rfl (hs .fail (by simp))
      | ok n =>
        simp only [pump] at hf ⊢
        exact ih _ (fun x hx => hs x (by simp [hx])) hf

theorem writeBuffer_dead (w : Writer) (b : Str) : (w.writeBuffer b).1.dead = w.dead := by
  unfold Writer.writeBuffer; split <;> rfl

theorem writeBuffer_script (w : Writer) (b : Str) : ∀ x ∈ (w.writeBuffer b).1.script, x ∈ w.script := by
  unfold Writer.writeBuffer
  split
  · exact fun x h => h
  · exact pump_script _ _ _

/-- The effect of one `write_buffer`. -/
theorem writeBuffer_sent (w : Writer) (b : Str) :
    ∃ p, p <+: b ∧ (w.writeBuffer b).1.sent = w.sent ++ p ∧
      ((w.writeBuffer b).2 = true → p = b ∧ (w.writeBuffer b).1.log = w.log ++ b) ∧
      ((w.writeBuffer b).2 = false → (w.writeBuffer b).1.log = w.log ∧ (.fail ∈ w.script ∨ w.dead = true)) := by
  unfold Writer.writeBuffer
  split
  · next h =>
    have : b = [] := by cases b <;> simp_all
    subst this
    exact ⟨[], by simp, by simp, by simp, by simp⟩
  · obtain ⟨h1, h2, h3⟩ := pump_prefix w.dead w.script b
    refine ⟨_, h1, rfl, ?_, ?_⟩
    · intro h; simp only at h; exact ⟨h2 h, by simp [h]⟩
    · intro h; simp only at h; exact ⟨by simp [h], h3 h⟩

/-- No failure ahead. -/
def Writer.Reliable (w : Writer) : Prop := (∀ x ∈ w.script, x ≠ .fail) ∧ w.dead = false

theorem writePieces_reliable (ps : List Str) (w : Writer) (hw : w.Reliable) :
    (w.writePieces ps).1.sent = w.sent ++ ps.flatten ∧ (w.writePieces ps).1.log = w.log ++ ps.flatten ∧
    (w.writePieces ps).1.Reliable ∧ (w.writePieces ps).2 = true := by
  induction ps generalizing w with
  | nil => simp [Writer.writePieces, hw]
  | cons p t ih =>
    obtain ⟨q, _, hq2, hq3, hq4⟩ := writeBuffer_sent w p
    have hsc := writeBuffer_script w p
    have hdd := writeBuffer_dead w p
    simp only [Writer.writePieces]
    cases hb : w.writeBuffer p with
    | mk w' ok =>
      rw [hb] at hq2 hq3 hq4 hsc hdd
      simp only at hq2 hq3 hq4 hsc hdd
      cases ok with
      | false =>
        rcases (hq4 rfl).2 with h | h
        · exact absurd rfl (hw.1 _ h)
        · rw [hw.2] at h; exact absurd h (by simp)
      | true =>
        have hw' : w'.Reliable := ⟨fun x hx => hw.1 x (hsc x hx), by rw [hdd, hw.2]⟩
        obtain ⟨h1, h2, h3, h4⟩ := ih w' hw'
        obtain ⟨rfl, hl⟩ := hq3 rfl
        simp only
        exact ⟨by rw [h1, hq2]; simp, by rw [h2, hl]; simp, h3, h4⟩

/-- The statements of `write_message`: each is a list of pieces whose writing stops at the
first failure; the next statement is executed in any case. -/
def messageStmts (t : MsgType) (args : List Str) (props : List (Str × Str)) : List (List Str) :=
  [[cstr traxPrefix], [cstr t.name], [cstr b!" "]]
  ++ args.flatMap (fun a => [[cstr b!"\""], escPieces [] (cstr a), [cstr b!"\" "]])
  ++ props.flatMap (fun kv => [[cstr b!"\""], [cstr kv.1], [cstr b!"="], escPieces [] (cstr kv.2), [cstr b!"\" "]])
  ++ [[cstr b!"\n"]]

/-- Run statements one after the other. -/
def Writer.runStmts (w : Writer) (ss : List (List Str)) : Writer :=
  ss.foldl (fun w ps => (w.writePieces ps).1) w

theorem runStmts_append (w : Writer) (a b : List (List Str)) :
    w.runStmts (a ++ b) = (w.runStmts a).runStmts b := by simp [Writer.runStmts]

theorem writePieces_singleton (w : Writer) (s : Str) : (w.writePieces [s]).1 = (w.writeBuffer s).1 := by
  simp only [Writer.writePieces]
  cases w.writeBuffer s with
  | mk w' ok => cases ok <;> rfl

theorem outString_eq (w : Writer) (s : Str) : w.outString s = w.runStmts [[cstr s]] := by
  simp only [Writer.runStmts, List.foldl_cons, List.foldl_nil, writePieces_singleton]
  rfl

theorem outEscaped_eq (w : Writer) (s : Str) : w.outEscaped s = w.runStmts [escPieces [] (cstr s)] := by
  simp only [Writer.runStmts, List.foldl_cons, List.foldl_nil, Writer.outEscaped, Writer.writeEscaped]
  split
  · next h =>
    have : cstr s = [] := by cases hs : cstr s <;> simp_all
    rw [this]
    simp [escPieces, Writer.writePieces, Writer.writeBuffer]
  · rfl

theorem runStmts_flatMap {α} (f : Writer → α → Writer) (g : α → List (List Str))
    (hfg : ∀ w a, f w a = w.runStmts (g a)) (l : List α) (w : Writer) :
    l.foldl f w = w.runStmts (l.flatMap g) := by
  induction l generalizing w with
  | nil => rfl
  | cons a t ih => rw [List.foldl_cons, ih, hfg, List.flatMap_cons, runStmts_append]

theorem writeMessage_eq (w : Writer) (t : MsgType) (args : List Str) (props : Properties) :
    w.writeMessage t args props = w.runStmts (messageStmts t args props.enumerate) := by
  unfold Writer.writeMessage messageStmts
  rw [runStmts_append, runStmts_append, runStmts_append]
  simp only
  rw [outString_eq _ b!"\n", runStmts_flatMap Writer.outProperty
    (fun kv => [[cstr b!"\""], [cstr kv.1], [cstr b!"="], escPieces [] (cstr kv.2), [cstr b!"\" "]]),
    runStmts_flatMap Writer.outArg (fun a => [[cstr b!"\""], escPieces [] (cstr a), [cstr b!"\" "]])]
  · congr 3
    simp only [outString_eq, ← runStmts_append]
    rfl
  · intro w a
    simp only [Writer.outArg, outString_eq, outEscaped_eq, ← runStmts_append]
    rfl
  · intro w a
    simp only [Writer.outProperty, outString_eq, outEscaped_eq, ← runStmts_append]
    rfl

theorem flatten_flatten_append {α} (a b : List (List (List α))) :
    (a ++ b).flatten.flatten = a.flatten.flatten ++ b.flatten.flatten := by simp

theorem messageStmts_text (t : MsgType) (args : List Str) (props : List (Str × Str))
    (ha : ∀ a ∈ args, NoNul a) (hp : ∀ kv ∈ props, NoNul kv.1 ∧ NoNul kv.2) :
    (messageStmts t args props).flatten.flatten = wire t args props := by
  have h1 : ∀ (l : List Str), (∀ a ∈ l, NoNul a) →
      (l.flatMap (fun a => [[cstr b!"\""], escPieces [] (cstr a), [cstr b!"\" "]])).flatten.flatten =
      l.flatMap (fun a => quoted (escape a)) := by
    intro l hl
    induction l with
    | nil => rfl
    | cons a t ih =>
      rw [List.flatMap_cons, flatten_flatten_append, ih (fun a h => hl a (by simp [h])), List.flatMap_cons]
      congr 1
      simp [escPieces_flatten, cstr_of_noNul (hl a (by simp)), quoted]
      simp [cstr, List.takeWhile]
  have h2 : ∀ (l : List (Str × Str)), (∀ kv ∈ l, NoNul kv.1 ∧ NoNul kv.2) →
      (l.flatMap (fun kv => [[cstr b!"\""], [cstr kv.1], [cstr b!"="], escPieces [] (cstr kv.2), [cstr b!"\" "]])).flatten.flatten =
      l.flatMap (fun kv => quoted (kv.1 ++ b!"=" ++ escape kv.2)) := by
    intro l hl
    induction l with
    | nil => rfl
    | cons a t ih =>
      rw [List.flatMap_cons, flatten_flatten_append, ih (fun a h => hl a (by simp [h])), List.flatMap_cons]
      congr 1
      have := hl a (by simp)
      simp [escPieces_flatten, cstr_of_noNul this.1, cstr_of_noNul this.2, quoted]
      simp [cstr, List.takeWhile]
  unfold messageStmts wire
  rw [flatten_flatten_append, flatten_flatten_append, flatten_flatten_append, h1 args ha, h2 props hp]
  have h3 : cstr traxPrefix = traxPrefix := by decide
  have h4 : cstr t.name = typeName t := by rw [name_eq, cstr_of_noNul (name_noNul t)]
  congr 2
  congr 1
  simp only [h3, h4, List.flatten_cons, List.flatten_nil, List.append_nil]
  rfl

theorem runStmts_reliable (ss : List (List Str)) (w : Writer) (hw : w.Reliable) :
    (w.runStmts ss).sent = w.sent ++ ss.flatten.flatten ∧
    (w.runStmts ss).log = w.log ++ ss.flatten.flatten ∧ (w.runStmts ss).Reliable := by
  induction ss generalizing w with
  | nil => simp [Writer.runStmts, hw]
  | cons ps t ih =>
    obtain ⟨h1, h2, h3, _⟩ := writePieces_reliable ps w hw
    obtain ⟨h4, h5, h6⟩ := ih _ h3
    show ((w.writePieces ps).1.runStmts t).sent = _ ∧ ((w.writePieces ps).1.runStmts t).log = _ ∧
      ((w.writePieces ps).1.runStmts t).Reliable
    refine ⟨by rw [h4, h1]; simp, by rw [h5, h2]; simp, h6⟩

/-! ### Failing output -/

/-- Under any schedule the pieces sent form a subsequence of the text. -/
theorem writePieces_sublist (ps : List Str) (w : Writer) :
    ∃ p, (w.writePieces ps).1.sent = w.sent ++ p ∧ p.Sublist ps.flatten := by
  induction ps generalizing w with
  | nil => exact ⟨[], by simp [Writer.writePieces], by simp⟩
  | cons p t ih =>
    obtain ⟨q, hq1, hq2, hq3, hq4⟩ := writeBuffer_sent w p
    simp only [Writer.writePieces]
    cases hb : w.writeBuffer p with
    | mk w' ok =>
      rw [hb] at hq2
      simp only at hq2
      cases ok with
      | false =>
        exact ⟨q, hq2, by
          rw [List.flatten_cons]
          exact (hq1.sublist).trans (List.sublist_append_left _ _)⟩
      | true =>
        obtain ⟨p', h1, h2⟩ := ih w'
        refine ⟨q ++ p', by simp only; rw [h1, hq2]; simp, ?_⟩
        rw [List.flatten_cons]
        exact (hq1.sublist).append h2

theorem runStmts_sublist (ss : List (List Str)) (w : Writer) :
    ∃ p, (w.runStmts ss).sent = w.sent ++ p ∧ p.Sublist ss.flatten.flatten := by
  induction ss generalizing w with
  | nil => exact ⟨[], by simp [Writer.runStmts], by simp⟩
  | cons ps t ih =>
    obtain ⟨p, h1, h2⟩ := writePieces_sublist ps w
    obtain ⟨q, h3, h4⟩ := ih (w.writePieces ps).1
    refine ⟨p ++ q, ?_, ?_⟩
    · show ((w.writePieces ps).1.runStmts t).sent = _
      rw [h3, h1]; simp
    · rw [List.flatten_cons, List.flatten_append]
      exact h2.append h4

/-- The schedule is used up and everything fails from now on. -/
def Writer.Broken (w : Writer) : Prop := w.script = [] ∧ w.dead = true

theorem writeBuffer_broken {w : Writer} (h : w.Broken) (b : Str) : (w.writeBuffer b).1 = w := by
  obtain ⟨sc, dd, sent, log⟩ := w
  obtain ⟨h1, h2⟩ := h
  simp only at h1 h2
  subst h1 h2
  unfold Writer.writeBuffer
  split
  · rfl
  · cases b with
    | nil => simp [pump]
    | cons c t => simp [pump]

theorem writePieces_broken {w : Writer} (h : w.Broken) (ps : List Str) : (w.writePieces ps).1 = w := by
  induction ps with
  | nil => rfl
  | cons p t ih =>
    simp only [Writer.writePieces]
    have hw := writeBuffer_broken h p
    cases hb : w.writeBuffer p with
    | mk w' ok =>
      rw [hb] at hw; simp only at hw; subst hw
      cases ok with
      | true => exact ih
      | false => rfl

theorem runStmts_broken {w : Writer} (h : w.Broken) (ss : List (List Str)) : w.runStmts ss = w := by
  induction ss with
  | nil => rfl
  | cons p t ih =>
    show (w.writePieces p).1.runStmts t = w
    rw [writePieces_broken h]; exact ih

/-- Nothing fails before the stream breaks for good. -/
def Writer.Breaking (w : Writer) : Prop := (∀ x ∈ w.script, x ≠ .fail) ∧ w.dead = true

theorem writePieces_breaking (ps : List Str) (w : Writer) (hw : w.Breaking) :
    ((w.writePieces ps).1.sent = w.sent ++ ps.flatten ∧ (w.writePieces ps).1.Breaking) ∨
    (∃ p, p <+: ps.flatten ∧ (w.writePieces ps).1.sent = w.sent ++ p ∧ (w.writePieces ps).1.Broken) := by
  induction ps generalizing w with
  | nil => left; simp [Writer.writePieces, hw]
  | cons p t ih =>
    obtain ⟨q, hq1, hq2, hq3, hq4⟩ := writeBuffer_sent w p
    have hsc := writeBuffer_script w p
    have hdd := writeBuffer_dead w p
    simp only [Writer.writePieces]
    cases hb : w.writeBuffer p with
    | mk w' ok =>
      rw [hb] at hq2 hq3 hq4 hsc hdd
      simp only at hq2 hq3 hq4 hsc hdd
      cases ok with
      | false =>
        right
        refine ⟨q, ?_, hq2, ?_, by rw [hdd, hw.2]⟩
        · rw [List.flatten_cons]; exact hq1.trans (List.prefix_append _ _)
        · unfold Writer.writeBuffer at hb
          split at hb
          · simp at hb
          · simp only [Prod.mk.injEq] at hb
            obtain ⟨hb1, hb2⟩ := hb
            rw [← hb1]
            simp only
            rw [hw.2] at hb2 ⊢
            exact pump_dead _ _ hw.1 hb2
      | true =>
        have hw' : w'.Breaking := ⟨fun x hx => hw.1 x (hsc x hx), by rw [hdd, hw.2]⟩
        obtain ⟨rfl, _⟩ := hq3 rfl
        simp only
        rcases ih w' hw' with ⟨h1, h2⟩ | ⟨p', h1, h2, h3⟩
        · left; exact ⟨by rw [h1, hq2]; simp, h2⟩
        · right
          refine ⟨q ++ p', ?_, by rw [h2, hq2]; simp, h3⟩
          rw [List.flatten_cons]
          exact List.prefix_append_right_inj q |>.mpr h1

theorem runStmts_breaking (ss : List (List Str)) (w : Writer) (hw : w.Breaking) :
    ∃ p, p <+: ss.flatten.flatten ∧ (w.runStmts ss).sent = w.sent ++ p := by
  induction ss generalizing w with
  | nil => exact ⟨[], by simp, by simp [Writer.runStmts]⟩
  | cons ps t ih =>
    rw [List.flatten_cons, List.flatten_append]
    rcases writePieces_breaking ps w hw with ⟨h1, h2⟩ | ⟨p, h1, h2, h3⟩
    · obtain ⟨q, h3, h4⟩ := ih _ h2
      refine ⟨ps.flatten ++ q, List.prefix_append_right_inj _ |>.mpr h3, ?_⟩
      show ((w.writePieces ps).1.runStmts t).sent = _
      rw [h4, h1]; simp
    · refine ⟨p, h1.trans (List.prefix_append _ _), ?_⟩
      show ((w.writePieces ps).1.runStmts t).sent = _
      rw [runStmts_broken h3, h2]

end Trax
