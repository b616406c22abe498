import Verif.Lemmas.MessageOps

/-!
# Property theorems C01–C15: the message layer

Notation in the statements: a writer `⟨script, dead, sent, log⟩` meets the `write` results
`script` and afterwards fails for good (`dead`) or accepts everything; a reader's input is
a receive buffer plus the results of the coming `read` calls (`ChunkIn`), or, where the
cutting does not matter (C03), the list of events `List InEv`.
-/

namespace Trax
open Spec

/-! ## C01, C02: delivery -/

/-- **C01.** Whatever way the transport cuts the writes (`script`) and the reads (`input`),
and whatever the reader has read before (`mt`), a deliverable message is received with the
same type, the same arguments in the same order and the same properties, and the input is
consumed exactly up to its end (`rest` is left). -/
theorem C01_round_trip (m : OutMsg) (hd : Deliverable m.args m.kvs)
    (script : List WriteRes) (hscript : .fail ∉ script) (mt : Option MsgType)
    (input : ChunkIn) (rest : List InEv)
    (hin : input.events =
      bytes ((⟨script, false, [], []⟩ : Writer).writeMessage m.type m.args (Properties.ofPairs m.kvs)).sent ++ rest) :
    let R := readMessageChunked mt Properties.create input
    R.mtype = some m.type ∧ R.args = m.args ∧ R.props = Properties.ofPairs m.kvs ∧
    R.rest.events = rest := by
  have hw := writeMessage_reliable ⟨script, false, [], []⟩
    ⟨fun x hx h => hscript (h ▸ hx), rfl⟩ m.type m.args (Properties.ofPairs m.kvs)
    (Properties.wf_ofPairs _) (fun a ha => (hd.args_plain a ha).noNul)
  rw [hw.1] at hin
  simp only [List.nil_append] at hin
  obtain ⟨h1, h2, h3, _, h5⟩ := readMessageChunked_eq mt Properties.create input
  have hr := readMessage_outMsg mt m hd rest
  unfold OutMsg.wire at hr
  rw [hin, hr] at h1 h2 h3 h5
  exact ⟨h1, h2, h3, h5⟩

/-- **C02.** A sequence of deliverable messages written one after the other is read as the
same sequence, for every schedule of writes and reads. -/
theorem C02_message_sequence (ms : List OutMsg) (hd : ∀ m ∈ ms, Deliverable m.args m.kvs)
    (script : List WriteRes) (hscript : .fail ∉ script) (mt : Option MsgType)
    (input : ChunkIn) (rest : List InEv)
    (hin : input.events = bytes ((⟨script, false, [], []⟩ : Writer).writeAll ms).sent ++ rest) :
    (readSeqChunked ms.length mt input).map Prod.fst =
      ms.map fun m => ⟨some m.type, m.args, Properties.ofPairs m.kvs⟩ := by
  have hw := writeAll_reliable ms ⟨script, false, [], []⟩
    ⟨fun x hx h => hscript (h ▸ hx), rfl⟩ (fun m hm a ha => ((hd m hm).args_plain a ha).noNul)
  rw [hw.1] at hin
  rw [readSeqChunked_eq, hin]
  simp only [List.nil_append]
  exact readSeq_wire ms mt rest hd

/-- A message with every kind of special character. -/
def demoMsg : OutMsg :=
  ⟨.frame, [b!"file:///a b\\c.jpg", [], b!"say \"x\ny\"", b!"a b=c"], [(b!"key.1", b!"v=\"1\"\n"), (b!"k_2", [])]⟩

theorem demoMsg_deliverable : Deliverable demoMsg.args demoMsg.kvs := by
  refine ⟨by decide, ?_, by decide, by decide⟩
  intro a ha ⟨k, v, hkv, hk⟩
  have key : ∀ a ∈ demoMsg.args, ∀ n ≤ a.length, (ValidKey (a.take n) → a[n]? ≠ some 61) := by decide
  refine key a ha k.length (by rw [hkv]; simp) ?_ ?_
  · rw [hkv]; simpa using hk
  · rw [hkv]; simp

example : Deliverable demoMsg.args demoMsg.kvs := demoMsg_deliverable

/-- The hypotheses of C01 and C02 are met by partial writes and two chunkings. -/
example :
    let w : Writer := ⟨[.ok 3, .ok 0, .ok 1, .ok 100], false, [], []⟩
    let sent := (w.writeMessage demoMsg.type demoMsg.args (Properties.ofPairs demoMsg.kvs)).sent
    (⟨sent.take 5, [.data (sent.drop 5)]⟩ : ChunkIn).events = bytes sent ++ [] := by decide +kernel

/-! ## C03: chunking -/

/-- **C03.** Two ways of cutting the same bytes into non-empty chunks give the same messages
and the same logged text, for any number of reads. -/
theorem C03_chunking_irrelevant (cs cs' : List (List UInt8)) (h : cs.flatten = cs'.flatten)
    (hc : ∀ c ∈ cs, c ≠ []) (hc' : ∀ c ∈ cs', c ≠ []) (n : Nat) (mt : Option MsgType) :
    readSeqChunked n mt ⟨[], cs.map ReadRes.data⟩ = readSeqChunked n mt ⟨[], cs'.map ReadRes.data⟩ := by
  apply readSeqChunked_events
  rw [events_chunks cs hc, events_chunks cs' hc', h]

example : let cs := [b!"@@TR", b!"AX:quit \n@", b!"@"]; let cs' := [b!"@@TRAX:quit \n@@"]
    cs.flatten = cs'.flatten ∧ (∀ c ∈ cs, c ≠ []) ∧ (∀ c ∈ cs', c ≠ []) := by decide

/-! ## C04, C05: writing -/

/-- **C04.** With any schedule of partial writes that does not fail, the bytes on the wire and
the bytes given to the logger are exactly the text of the message. -/
theorem C04_partial_writes (script : List WriteRes) (hscript : .fail ∉ script) (sent log : Str)
    (t : MsgType) (args : List Str) (kvs : List (Str × Str)) (ha : ∀ a ∈ args, NoNul a) :
    let w' := (⟨script, false, sent, log⟩ : Writer).writeMessage t args (Properties.ofPairs kvs)
    w'.sent = sent ++ wire t args (Properties.ofPairs kvs).enumerate ∧
    w'.log = log ++ wire t args (Properties.ofPairs kvs).enumerate := by
  have hw := writeMessage_reliable ⟨script, false, sent, log⟩
    ⟨fun x hx h => hscript (h ▸ hx), rfl⟩ t args (Properties.ofPairs kvs) (Properties.wf_ofPairs _) ha
  exact ⟨hw.1, hw.2.1⟩

example : (.fail ∉ [.ok 1, .ok 0, .ok 7, WriteRes.ok 2]) ∧ ∀ a ∈ [b!"x\"y", [200, 10]], NoNul a := by decide

/-- **C05, violated.** A single failing write does not stop the message: here the prefix is
lost and everything else is still sent, so that what is on the wire is not a prefix of the
message. -/
theorem C05_failed_write_stops_false :
    ¬ ∀ (script : List WriteRes) (t : MsgType) (args : List Str) (kvs : List (Str × Str)),
        (∀ a ∈ args, NoNul a) →
        ((⟨script, false, [], []⟩ : Writer).writeMessage t args (Properties.ofPairs kvs)).sent <+:
          wire t args (Properties.ofPairs kvs).enumerate := by
  intro h
  have := h [.fail] .quit [] [] (by simp)
  revert this
  decide +kernel

/-- **C05, what holds (1).** If the stream fails for good (every write after the failure
fails too), what was sent is a prefix of the message, for every point of failure. Missing from
the full claim: transient failures (see `C05_failed_write_stops_false`) and the report to the
caller (see `C05_failure_not_reported` in `Props/Handle.lean`). -/
theorem C05_broken_stream_partial (script : List WriteRes) (hscript : .fail ∉ script)
    (sent log : Str) (t : MsgType) (args : List Str) (kvs : List (Str × Str)) (ha : ∀ a ∈ args, NoNul a) :
    ∃ p, p <+: wire t args (Properties.ofPairs kvs).enumerate ∧
      ((⟨script, true, sent, log⟩ : Writer).writeMessage t args (Properties.ofPairs kvs)).sent = sent ++ p := by
  rw [writeMessage_eq]
  have h := runStmts_breaking (messageStmts t args (Properties.ofPairs kvs).enumerate)
    ⟨script, true, sent, log⟩ ⟨fun x hx h => hscript (h ▸ hx), rfl⟩
  rw [messageStmts_text t args _ ha (Deliverable.noNul_enumerate (Properties.wf_ofPairs _))] at h
  exact h

/-- **C05, what holds (2).** Under every schedule, failing or not, nothing is sent that is not
in the message, and nothing is sent out of order. -/
theorem C05_any_failure_partial (w : Writer) (t : MsgType) (args : List Str)
    (kvs : List (Str × Str)) (ha : ∀ a ∈ args, NoNul a) :
    ∃ p, p.Sublist (wire t args (Properties.ofPairs kvs).enumerate) ∧
      (w.writeMessage t args (Properties.ofPairs kvs)).sent = w.sent ++ p := by
  rw [writeMessage_eq]
  obtain ⟨p, h1, h2⟩ := runStmts_sublist (messageStmts t args (Properties.ofPairs kvs).enumerate) w
  rw [messageStmts_text t args _ ha (Deliverable.noNul_enumerate (Properties.wf_ofPairs _))] at h2
  exact ⟨p, h2, h1⟩

example : ((⟨[.ok 3, .ok 4, .ok 1], true, [], []⟩ : Writer).writeMessage .quit [b!"a"] Properties.create).sent
    = b!"@@TRAX:q" := by decide +kernel

/-! ## C06, C07: framing -/

theorem escape_no_newline (s : Str) : 10 ∉ escape s := by
  induction s with
  | nil => simp [escape]
  | cons c t ih =>
    by_cases h1 : c = 34
    · subst h1; rw [escape_quote]; simp [ih]
    · by_cases h2 : c = 92
      · subst h2; rw [escape_backslash]; simp [ih]
      · by_cases h3 : c = 10
        · subst h3; rw [escape_newline]; simp [ih]
        · rw [escape_other c t h1 h2 h3]; simp [ih, Ne.symm h3]

/-- **C06.** Whatever bytes arguments and values contain, what is put on the wire starts with the
prefix and has exactly one line break, at its very end. -/
theorem C06_one_line (script : List WriteRes) (hscript : .fail ∉ script)
    (t : MsgType) (args : List Str) (kvs : List (Str × Str)) (ha : ∀ a ∈ args, NoNul a)
    (hk : ∀ kv ∈ kvs, ValidKey kv.1) (hv : ∀ kv ∈ kvs, NoNul kv.2) :
    ∃ body, ((⟨script, false, [], []⟩ : Writer).writeMessage t args (Properties.ofPairs kvs)).sent =
        b!"@@TRAX:" ++ body ++ b!"\n" ∧ 10 ∉ body := by
  rw [(C04_partial_writes script hscript [] [] t args kvs ha).1]
  have hkv : ∀ kv ∈ kvs, NoNul kv.1 ∧ NoNul kv.2 := fun kv h => ⟨(hk kv h).noNul, hv kv h⟩
  refine ⟨typeName t ++ b!" " ++ args.flatMap (fun a => quoted (escape a)) ++
    (Properties.ofPairs kvs).enumerate.flatMap (fun kv => quoted (kv.1 ++ b!"=" ++ escape kv.2)), ?_, ?_⟩
  · simp [wire]
  · simp only [List.mem_append, List.mem_flatMap, not_or, not_exists, not_and]
    refine ⟨⟨⟨?_, by decide⟩, ?_⟩, ?_⟩
    · cases t <;> decide
    · intro a _
      simp [quoted, escape_no_newline]
    · intro kv hmem
      have hval := hk kv (mem_ofPairs_enumerate hkv hmem)
      have : 10 ∉ kv.1 := fun h => (keyChar_facts (hval.chars 10 h)).2.2.2.2.1 rfl
      simp [quoted, escape_no_newline, this]

example : (∀ kv ∈ [(b!"a.b", b!"\n@@TRAX:quit \n")], ValidKey kv.1) ∧
    (∀ a ∈ [b!"\" \n@@TRAX:quit \n"], NoNul a) := by decide

/-- **C07.** The text of a deliverable message determines its type, its arguments and its
properties. -/
theorem C07_unambiguous (m m' : OutMsg) (hd : Deliverable m.args m.kvs) (hd' : Deliverable m'.args m'.kvs)
    (h : wire m.type m.args (Properties.ofPairs m.kvs).enumerate =
         wire m'.type m'.args (Properties.ofPairs m'.kvs).enumerate) :
    m.type = m'.type ∧ m.args = m'.args ∧ Properties.ofPairs m.kvs = Properties.ofPairs m'.kvs := by
  have h1 := readMessage_outMsg none m hd []
  have h2 := readMessage_outMsg none m' hd' []
  unfold OutMsg.wire at h1 h2
  rw [h, h2] at h1
  simp only [ReadResult.mk.injEq, Option.some.injEq] at h1
  exact ⟨h1.1.symm, h1.2.1.symm, h1.2.2.1.symm⟩

/-! ## C08, C09: foreign output -/

/-- A line of foreign output: 7-bit text that does not start with the protocol prefix. -/
def ForeignLine (l : Str) : Prop := (∀ c ∈ l, c.toNat < 128 ∧ c ≠ 10) ∧ ¬ b!"@@TRAX:" <+: l

theorem readLoop_foreignLines (ls : List Str) (r : Reader) (rest : List InEv) (hst : r.st = .pfx 0)
    (hc : r.complete = false) (hl : ∀ l ∈ ls, ForeignLine l) :
    readLoop r (bytes (ls.flatMap fun l => l ++ b!"\n") ++ rest) =
      readLoop { r with log := r.log ++ ls.flatMap fun l => l ++ b!"\n" } rest := by
  induction ls generalizing r with
  | nil => simp
  | cons l t ih =>
    obtain ⟨h7, hp⟩ := hl l (by simp)
    rw [List.flatMap_cons, bytes_append, List.append_assoc,
      readLoop_foreign l 0 r _ hst hc (by decide) h7 (by simpa [traxPrefix] using hp),
      ih _ rfl (by exact hc) (fun l h => hl l (by simp [h]))]
    simp [hst]

/-- **C08.** Foreign lines in front of a message (hence, by repetition, between any two
messages) change nothing but the log: the next read gives what it would give without them. -/
theorem C08_foreign_lines_ignored (ls : List Str) (hl : ∀ l ∈ ls, ForeignLine l)
    (mt : Option MsgType) (p : Properties) (rest : List InEv) :
    let R := readMessage mt p rest
    readMessage mt p (bytes (ls.flatMap fun l => l ++ b!"\n") ++ rest) =
      { R with log := (ls.flatMap fun l => l ++ b!"\n") ++ R.log } := by
  have hlog : ∀ (inp : List InEv) (r : Reader) (pre : Str),
      readLoop { r with log := pre ++ r.log } inp =
        ({ (readLoop r inp).1 with log := pre ++ (readLoop r inp).1.log }, (readLoop r inp).2) := by
    have hstep : ∀ (r : Reader) (c : UInt8) (pre : Str),
        Reader.feed { r with log := pre ++ r.log } c = { r.feed c with log := pre ++ (r.feed c).log } := by
      intro r c pre
      obtain ⟨mtype, complete, st, key, val, args, props, log⟩ := r
      simp only [Reader.feed, Reader.step]
      cases st <;>
        simp only [Reader.stepType, Reader.stepSpaceExpect, Reader.stepSpace, Reader.stepUKey, Reader.stepUVal,
          Reader.stepEscKey, Reader.stepEscVal, Reader.stepQKey, Reader.stepQVal, Reader.stepPass,
          Reader.stepPrefix, Reader.addArg, Reader.addProp, Reader.resetBufs, Reader.abandon] <;>
        (repeat' split) <;> simp
    have hfail : ∀ (r : Reader) (pre : Str),
        Reader.onFail { r with log := pre ++ r.log } = { r.onFail with log := pre ++ r.onFail.log } := by
      intro r pre
      unfold Reader.onFail
      by_cases hm : r.mtype = none
      · simp [hm]
      · simp only [hm, if_false]
        exact hstep { r with complete := true } ch%'\n' pre
    intro inp
    induction inp with
    | nil =>
      intro r pre
      simp only [readLoop]
      split
      · rfl
      · rw [hfail]
    | cons e t ih =>
      intro r pre
      simp only [readLoop]
      by_cases hc : r.complete = true
      · rw [if_pos hc, if_pos hc]
      · rw [if_neg hc, if_neg hc]
        cases e.char with
        | none => simp only; rw [hfail]
        | some c => simp only; rw [hstep, ih]
  unfold readMessage
  rw [readLoop_foreignLines ls _ rest rfl rfl hl]
  have := hlog rest (Reader.start mt p) (ls.flatMap fun l => l ++ b!"\n")
  simp only [Reader.start, List.append_nil] at this ⊢
  rw [show ([] : Str) ++ (ls.flatMap fun l => l ++ b!"\n") = ls.flatMap fun l => l ++ b!"\n" from rfl, this]

instance (l : Str) : Decidable (ForeignLine l) := inferInstanceAs (Decidable (_ ∧ _))

example : ∀ l ∈ [b!"loading model", [], b!"@@TRAX", b!" @@TRAX:quit "], ForeignLine l := by decide

/-- **C09, violated on a fresh stream.** A foreign line with a byte above 127 ("é") makes the
read fail although a message follows. -/
theorem C09_foreign_bytes_false :
    ¬ ∀ (mt : Option MsgType) (l : Str) (m : OutMsg), Deliverable m.args m.kvs →
        10 ∉ l → ¬ b!"@@TRAX:" <+: l →
        (readMessage mt Properties.create (bytes (l ++ b!"\n" ++ wire m.type m.args []))).mtype = some m.type := by
  intro h
  have := h none b!"é" ⟨.quit, [], []⟩ ⟨by simp, by simp, by simp, by simp⟩ (by decide) (by decide)
  revert this
  decide +kernel

/-- **C09, what happens.** The first byte above 127 in a foreign line ends the call: it returns
the type left by the *previous* message (an error on a fresh stream, a message that was
never sent otherwise) without arguments or properties, and the rest of the line is left in the
stream. The full claim would require the line to be skipped. -/
theorem C09_foreign_byte_partial (mt : Option MsgType) (p : Properties) (l : Str) (b : UInt8)
    (rest : List InEv) (hl : ForeignLine l) (hb : 128 ≤ b.toNat) :
    let R := readMessage mt p (bytes (l ++ [b]) ++ rest)
    R.mtype = mt ∧ R.args = [] ∧ R.props = p ∧ R.rest = rest := by
  have key : ∀ (l : Str) (r : Reader), (r.st = .pass ∨ ∃ i, r.st = .pfx i ∧ i < traxPrefix.length ∧
      ¬ traxPrefix.drop i <+: l) → r.complete = false → (∀ c ∈ l, c.toNat < 128 ∧ c ≠ 10) →
      ∃ r', readLoop r (bytes (l ++ [b]) ++ rest) = (r', rest) ∧ r'.mtype = r.mtype ∧ r'.args = r.args ∧
        r'.props = r.props := by
    intro l
    induction l with
    | nil =>
      intro r hst hc _
      simp only [List.nil_append, bytes_cons, bytes_nil, List.cons_append, readLoop, hc, InEv.char,
        if_neg (Nat.not_lt.mpr hb), Bool.false_eq_true, if_false]
      refine ⟨_, rfl, ?_⟩
      unfold Reader.onFail
      split
      · exact ⟨rfl, rfl, rfl⟩
      · rcases hst with hst | ⟨i, hst, _, _⟩
        · simp [Reader.feed, Reader.step, hst, Reader.stepPass]
        · simp only [Reader.feed, Reader.step, hst, Reader.stepPrefix]
          split <;> simp
    | cons c t ih =>
      intro r hst hc h7
      obtain ⟨ha, hn⟩ := h7 c (by simp)
      simp only [List.cons_append, bytes_cons]
      rw [readLoop_cons _ _ _ hc ha]
      have hfacts : (r.feed c).mtype = r.mtype ∧ (r.feed c).args = r.args ∧ (r.feed c).props = r.props ∧
          (r.feed c).complete = false ∧
          ((r.feed c).st = .pass ∨ ∃ i, (r.feed c).st = .pfx i ∧ i < traxPrefix.length ∧
            ¬ traxPrefix.drop i <+: t) := by
        rcases hst with hst | ⟨i, hst, hi, hp⟩
        · simp [Reader.feed, Reader.step, hst, Reader.stepPass, hn, hc]
        · by_cases hm : traxPrefix[i]? = some c
          · have hdrop : traxPrefix.drop i = c :: traxPrefix.drop (i + 1) := by
              rw [List.drop_eq_getElem_cons hi]
              congr 1
              rw [List.getElem?_eq_getElem hi] at hm
              exact Option.some.inj hm
            rw [hdrop, List.cons_prefix_cons] at hp
            have hlt : i + 1 < traxPrefix.length := by
              apply Classical.byContradiction
              intro hge
              apply hp
              rw [List.drop_eq_nil_of_le (by omega)]
              simp
            simp only [Reader.feed, Reader.step, hst, Reader.stepPrefix, hm, if_true]
            rw [if_neg (by omega)]
            refine ⟨by simp, by simp, by simp, hc, Or.inr ⟨i + 1, by simp, hlt, fun h => hp ⟨rfl, h⟩⟩⟩
          · simp only [Reader.feed, Reader.step, hst, Reader.stepPrefix, hm, if_false, hn]
            exact ⟨by simp, by simp, by simp, hc, Or.inl (by simp)⟩
      obtain ⟨f1, f2, f3, f4, f5⟩ := hfacts
      obtain ⟨r', g1, g2, g3, g4⟩ := ih (r.feed c) f5 f4 (fun c h => h7 c (by simp [h]))
      exact ⟨r', g1, by rw [g2, f1], by rw [g3, f2], by rw [g4, f3]⟩
  obtain ⟨r', h1, h2, h3, h4⟩ := key l (Reader.start mt p)
    (Or.inr ⟨0, rfl, by decide, by simpa [traxPrefix] using hl.2⟩) rfl hl.1
  simp only [readMessage, h1]
  exact ⟨h2, h3, h4, by simp⟩

example : ForeignLine b!"caf" ∧ 128 ≤ (195 : UInt8).toNat := by decide

/-! ## C10: end of stream -/

/-- **C10, violated.** Reading `n` messages and then the end of the stream does not give an
error. -/
theorem C10_eof_is_error_false :
    ¬ ∀ (ms : List OutMsg), (∀ m ∈ ms, Deliverable m.args m.kvs) →
        readSeq (ms.length + 1) none (bytes (ms.flatMap OutMsg.wire)) =
          ms.map OutMsg.received ++ [⟨none, [], Properties.create⟩] := by
  intro h
  have := h [⟨.quit, [], []⟩] (by
    intro m hm
    simp only [List.mem_singleton] at hm
    subst hm
    exact ⟨by simp, by simp, by simp, by simp⟩)
  revert this
  decide +kernel

theorem readMessage_eof (mt : Option MsgType) :
    readMessage mt Properties.create [] =
      ⟨mt, [], Properties.create, if mt = none then [] else b!"\n", []⟩ := by
  cases mt with
  | none => rfl
  | some t => cases t <;> rfl

/-- **C10, what happens after messages.** For every history: once all messages have been read,
every further read of the closed stream "receives" another message of the type of the last
one, without arguments and properties. -/
theorem C10_eof_repeats_last_type (ms : List OutMsg) (last : OutMsg) (n : Nat)
    (hd : ∀ m ∈ ms ++ [last], Deliverable m.args m.kvs) :
    readSeq (ms.length + 1 + n) none (bytes ((ms ++ [last]).flatMap OutMsg.wire)) =
      (ms ++ [last]).map OutMsg.received ++ List.replicate n ⟨some last.type, [], Properties.create⟩ := by
  have hphantom : ∀ n (t : MsgType), readSeq n (some t) [] = List.replicate n ⟨some t, [], Properties.create⟩ := by
    intro n t
    induction n with
    | zero => rfl
    | succ n ih => rw [readSeq, readMessage_eof]; simp only; rw [ih]; rfl
  have hgen : ∀ (ms : List OutMsg) (mt : Option MsgType), (∀ m ∈ ms, m.Deliverable) →
      readSeq (ms.length + n) mt (bytes (ms.flatMap OutMsg.wire)) =
        ms.map OutMsg.received ++ readSeq n ((ms.getLast?.map fun m => some m.type).getD mt) [] := by
    intro ms
    induction ms with
    | nil => intro mt _; simp
    | cons a t ih =>
      intro mt hd
      rw [List.flatMap_cons, bytes_append, List.length_cons,
        show t.length + 1 + n = (t.length + n) + 1 by omega, readSeq,
        readMessage_outMsg mt a (hd a (by simp))]
      simp only [List.map_cons, List.cons_append]
      rw [ih _ (fun m h => hd m (by simp [h]))]
      congr 2
      cases t with
      | nil => rfl
      | cons b s => simp [List.getLast?_cons]
  have := hgen (ms ++ [last]) none (fun m hm => hd m hm)
  rw [List.length_append] at this
  simp only [List.length_singleton] at this
  rw [this]
  simp [hphantom]

/-- **C10, what holds.** On a stream from which no message has been read yet, foreign lines
followed by a message that is cut off before its type is complete give an error. Missing
from the full claim: streams with earlier messages (`C10_eof_repeats_last_type`) and messages
cut off later, which are delivered incomplete (`C10_truncated_delivered`). -/
theorem C10_fresh_eof_partial (ls : List Str) (hl : ∀ l ∈ ls, ForeignLine l) (t : MsgType) (n : Nat) :
    readMessage none Properties.create
        (bytes ((ls.flatMap fun l => l ++ b!"\n") ++ (b!"@@TRAX:" ++ typeName t).take n)) =
      ⟨none, [], Properties.create, (ls.flatMap fun l => l ++ b!"\n") ++ (b!"@@TRAX:" ++ typeName t).take n, []⟩ := by
  rw [bytes_append, C08_foreign_lines_ignored ls hl]
  have hall : ∀ n ≤ 17, ∀ t : MsgType, readMessage none Properties.create (bytes ((b!"@@TRAX:" ++ typeName t).take n)) =
      ⟨none, [], Properties.create, (b!"@@TRAX:" ++ typeName t).take n, []⟩ := by
    have hk : ∀ n ≤ 17, ∀ t ∈ [MsgType.hello, .initialize, .frame, .quit, .state],
        readMessage none Properties.create (bytes ((b!"@@TRAX:" ++ typeName t).take n)) =
        ⟨none, [], Properties.create, (b!"@@TRAX:" ++ typeName t).take n, []⟩ := by decide +kernel
    intro n hn t
    exact hk n hn t (by cases t <;> simp)
  have hn : (b!"@@TRAX:" ++ typeName t).take n = (b!"@@TRAX:" ++ typeName t).take (min n 17) := by
    by_cases h : n ≤ 17
    · rw [Nat.min_eq_left h]
    · rw [Nat.min_eq_right (by omega), List.take_of_length_le, List.take_of_length_le]
      · cases t <;> decide
      · have : (b!"@@TRAX:" ++ typeName t).length ≤ 17 := by cases t <;> decide
        omega
  rw [hn, hall _ (Nat.min_le_right _ _)]

/-- **C10, incomplete messages are delivered.** A message that is cut off after its first
arguments is delivered as if it had been complete, with the arguments that made it. -/
theorem C10_truncated_delivered (mt : Option MsgType) (t : MsgType) (args lost : List Str)
    (kvs : List (Str × Str)) (hd : Deliverable args kvs) :
    ∃ n, n < (wire t (args ++ b!"x" :: lost) kvs).length ∧
      let R := readMessage mt Properties.create (bytes ((wire t (args ++ b!"x" :: lost) kvs).take n))
      R.mtype = some t ∧ R.args = args := by
  refine ⟨(b!"@@TRAX:" ++ typeName t ++ b!" " ++ args.flatMap (fun a => quoted (escape a))).length, ?_, ?_⟩
  · simp [wire]; omega
  · have htake : (wire t (args ++ b!"x" :: lost) kvs).take
        (b!"@@TRAX:" ++ typeName t ++ b!" " ++ args.flatMap (fun a => quoted (escape a))).length =
        b!"@@TRAX:" ++ typeName t ++ b!" " ++ args.flatMap (fun a => quoted (escape a)) := by
      have : wire t (args ++ b!"x" :: lost) kvs =
          (b!"@@TRAX:" ++ typeName t ++ b!" " ++ args.flatMap (fun a => quoted (escape a))) ++
          ((b!"x" :: lost).flatMap (fun a => quoted (escape a)) ++
            kvs.flatMap (fun kv => quoted (kv.1 ++ b!"=" ++ escape kv.2)) ++ b!"\n") := by
        simp [wire, List.flatMap_append]
      rw [this, List.take_left]
    simp only
    rw [htake, bytes_append, readMessage, readLoop_head t _ _ rfl rfl rfl]
    obtain ⟨k, v, h⟩ := readLoop_args args
      { Reader.start mt Properties.create with
          mtype := some t, st := .space, key := [], val := [],
          log := (Reader.start mt Properties.create).log ++ (b!"@@TRAX:" ++ typeName t ++ b!" ") } []
      rfl rfl hd.args_plain hd.args_clear
    rw [List.append_nil] at h
    rw [h]
    simp [readLoop, Reader.start, Reader.onFail, Reader.feed, Reader.step, Reader.stepSpace]

/-! ## C11: malformed messages -/

/-- **C11, violated.** An unknown message type that is directly followed by the end of the line
swallows the next message. -/
theorem C11_malformed_line_false :
    ¬ ∀ (l : Str) (m : OutMsg), Deliverable m.args m.kvs → (∀ c ∈ l, c.toNat < 128 ∧ c ≠ 10) →
        (∀ t, ¬ Spelling t (l.takeWhile (· != 32))) →
        (readMessage none Properties.create (bytes (b!"@@TRAX:" ++ l ++ b!"\n" ++ wire m.type m.args []))).mtype
          = some m.type := by
  intro h
  have := h b!"abort" ⟨.quit, [], []⟩ ⟨by simp, by simp, by simp, by simp⟩ (by decide) (by intro t; cases t <;> decide)
  revert this
  decide +kernel

/-- **C11, violated (2).** A missing separator after a quoted argument loses the next message
and lets the arguments of the broken message appear in the one after it. -/
theorem C11_stray_character_leaks :
    let broken := b!"@@TRAX:frame \"secret\"x\n"
    let next := wire .state [b!"1"] []
    let afterNext := wire .state [b!"2"] []
    readMessage none Properties.create (bytes (broken ++ next ++ afterNext)) =
      ⟨some .state, [b!"secret", b!"2"], Properties.create, broken ++ next ++ afterNext, []⟩ := by
  decide +kernel

/-- **C11, violated (3).** The stray character even becomes a part of the next message type: a
"hello" is received that nobody sent. -/
theorem C11_stray_character_forges :
    readMessage none Properties.create (bytes b!"@@TRAX:frame \"a\"h\n@@TRAX:ello \n") =
      ⟨some .hello, [b!"a"], Properties.create, b!"@@TRAX:frame \"a\"h\n@@TRAX:ello \n", []⟩ := by
  decide +kernel

/-- **C11, what holds.** A line with an unknown type that is followed by something on the line
(a space, or any other character that cannot be in a type name) is skipped as a whole: the
next read gives what it would give without the line. Missing from the full claim: the
lines of the counterexamples above. -/
theorem C11_unknown_type_partial (name tail : Str) (sep : UInt8) (mt : Option MsgType) (m : OutMsg)
    (rest : List InEv) (hname : ∀ c ∈ name, isAlnum c = true) (htail : ∀ c ∈ tail, c.toNat < 128 ∧ c ≠ 10)
    (hsep : sep.toNat < 128 ∧ sep ≠ 10 ∧ isAlnum sep = false)
    (hunknown : sep = ch%' ' → ∀ t, ¬ Spelling t name) (hd : Deliverable m.args m.kvs) :
    let line := b!"@@TRAX:" ++ name ++ [sep] ++ tail ++ b!"\n"
    let text := wire m.type m.args (Properties.ofPairs m.kvs).enumerate
    readMessage mt Properties.create (bytes line ++ (bytes text ++ rest)) =
      ⟨some m.type, m.args, Properties.ofPairs m.kvs, line ++ text, rest⟩ := by
  intro line text
  obtain ⟨h7, hnl, hal⟩ := hsep
  have hNoNul : NoNul name := fun c hc => (isAlnum_facts (hname c hc)).1
  have hline : bytes line ++ (bytes text ++ rest) = bytes b!"@@TRAX:" ++ (bytes name ++
      (.byte sep :: (bytes (tail ++ [10]) ++ (bytes text ++ rest)))) := by
    simp [line, bytes]
  unfold readMessage
  rw [hline, readLoop_prefix _ _ rfl rfl,
    readLoop_type name _ _ rfl rfl hname, readLoop_cons _ _ _ rfl h7]
  have hfeed : ∃ mt'', Reader.feed
      { Reader.start mt Properties.create with
          st := .type, key := (Reader.start mt Properties.create).key ++ name,
          log := (Reader.start mt Properties.create).log ++ (b!"@@TRAX:") ++ name } sep =
      { Reader.start mt'' Properties.create with st := .pass, log := (b!"@@TRAX:") ++ name ++ [sep] } := by
    by_cases hs : sep = 32
    · refine ⟨none, ?_⟩
      simp [Reader.feed, Reader.step, Reader.stepType, hs, show isAlnum 32 = false by decide,
        Reader.start, cstr_of_noNul hNoNul, parse_none (hunknown hs), Reader.resetBufs]
    · refine ⟨mt, ?_⟩
      simp [Reader.feed, Reader.step, Reader.stepType, hal, hs, hnl, Reader.start]
  obtain ⟨mt'', hf⟩ := hfeed
  rw [hf, readLoop_pass tail _ _ rfl rfl htail]
  obtain ⟨k, v, hw⟩ := readLoop_wire m.type m.args (Properties.ofPairs m.kvs).enumerate
    { Reader.start mt'' Properties.create with st := .pfx 0, log := (b!"@@TRAX:") ++ name ++ [sep] ++ (tail ++ [10]) }
    rest rfl rfl rfl (deliverable_enumerate hd)
  rw [show ({ ({ Reader.start mt'' Properties.create with
        st := .pass, log := (b!"@@TRAX:") ++ name ++ [sep] } : Reader) with
          st := .pfx 0, log := (b!"@@TRAX:") ++ name ++ [sep] ++ (tail ++ [10]) } : Reader) =
    { Reader.start mt'' Properties.create with st := .pfx 0, log := (b!"@@TRAX:") ++ name ++ [sep] ++ (tail ++ [10]) }
    from rfl, hw]
  have hfold : (Properties.ofPairs m.kvs).enumerate.foldl (fun p kv => p.set kv.1 kv.2)
      (Reader.start mt'' Properties.create).props = Properties.ofPairs m.kvs :=
    Properties.foldl_set_enumerate (Properties.wf_ofPairs _)
  rw [hfold]
  simp [Reader.start, line, text, traxPrefix]

example : (∀ c ∈ b!"abort", isAlnum c = true) ∧ (∀ c ∈ b!"now \"x", c.toNat < 128 ∧ c ≠ 10) ∧
    ∀ t, ¬ Spelling t b!"abort" := ⟨by decide, by decide, by intro t; cases t <;> decide⟩

/-! ## C12: 8-bit text -/

/-- **C12, violated.** An argument with a byte above 127 is not delivered. -/
theorem C12_eight_bit_false :
    ¬ ∀ (t : MsgType) (a : Str), NoNul a → ¬ LooksLikeProperty a →
        (readMessage none Properties.create (bytes (wire t [a] []))).args = [a] := by
  intro h
  have := h .frame b!"é" (by decide) (by
    rintro ⟨k, v, hkv, -⟩
    have h61 : (61 : UInt8) ∈ b!"é" := by rw [hkv]; simp
    exact absurd h61 (by decide))
  revert this
  decide +kernel

/-- **C12, what happens.** The message is cut at the first byte above 127 inside an argument:
the reader reports success with the arguments before the damaged one, no properties, and
leaves the rest of the message in the stream. Missing from the full claim: everything. -/
theorem C12_eight_bit_partial (mt : Option MsgType) (t : MsgType) (args : List Str) (a : Str) (b : UInt8)
    (rest : List InEv) (hd : Deliverable args []) (ha : Plain a) (hc : ArgSafe [] a) (hb : 128 ≤ b.toNat) :
    let R := readMessage mt Properties.create
      (bytes (b!"@@TRAX:" ++ typeName t ++ b!" " ++ args.flatMap (fun a => quoted (escape a)) ++ b!"\"" ++ escape a ++ [b])
        ++ rest)
    R.mtype = some t ∧ R.args = args ∧ R.props = Properties.create ∧ R.rest = rest := by
  simp only [readMessage]
  rw [bytes_append, bytes_append, bytes_append, bytes_append, List.append_assoc, List.append_assoc,
    List.append_assoc, List.append_assoc, readLoop_head t _ _ rfl rfl rfl]
  obtain ⟨k, v, h⟩ := readLoop_args args
    { Reader.start mt Properties.create with
        mtype := some t, st := .space, key := [], val := [],
        log := (Reader.start mt Properties.create).log ++ (b!"@@TRAX:" ++ typeName t ++ b!" ") }
    (bytes b!"\"" ++ (bytes (escape a) ++ (bytes [b] ++ rest)))
    rfl rfl hd.args_plain hd.args_clear
  rw [h]
  simp only [bytes_cons, bytes_nil, List.cons_append, List.nil_append]
  rw [readLoop_cons _ _ _ (by rfl) (by decide)]
  have h1 : ∀ (r : Reader), r.st = .space → r.feed 34 = { r with st := .qKey, key := [], val := [], log := r.log ++ [34] } := by
    intro r hst
    simp [Reader.feed, Reader.step, hst, Reader.stepSpace]
  rw [h1 _ rfl, readLoop_qKey_escape a _ _ rfl (by rfl) ha.ascii (by exact hc)]
  rw [readLoop]
  simp [Reader.start, InEv.char, Nat.not_lt.mpr hb, Reader.onFail, Reader.feed, Reader.step, Reader.stepQKey]

example : Deliverable [b!"x"] [] ∧ Plain b!"/tmp/caf" ∧ ArgSafe [] b!"/tmp/caf" := by
  refine ⟨⟨by decide, ?_, by simp, by simp⟩, by decide, argSafe_of_clear ?_⟩
  · intro a ha ⟨k, v, hkv, _⟩
    simp only [List.mem_singleton] at ha
    have : (61 : UInt8) ∈ a := by rw [hkv]; simp
    rw [ha] at this; exact absurd this (by decide)
  · rintro ⟨k, v, hkv, -⟩
    have : (61 : UInt8) ∈ b!"/tmp/caf" := by rw [hkv]; simp
    exact absurd this (by decide)

/-! ## C13, C14: arguments, properties and keys -/

/-- **C13, violated.** An argument of the form `key=value` arrives as a property. -/
theorem C13_argument_stays_argument_false :
    ¬ ∀ (t : MsgType) (a : Str), Plain a →
        (readMessage none Properties.create (bytes (wire t [a] []))).args = [a] := by
  intro h
  have := h .state b!"x=1" (by decide)
  revert this
  decide +kernel

/-- **C13, exactly.** For every 7-bit argument: if it is `key=value` with a valid key it is received
as that property, otherwise it is received as that argument; a property is always received as
that property. Missing from the full claim: the first case. -/
theorem C13_classification_partial (mt : Option MsgType) (t : MsgType) (a : Str) (ha : Plain a)
    (rest : List InEv) :
    (∀ k v, a = k ++ b!"=" ++ v → ValidKey k →
      let R := readMessage mt Properties.create (bytes (wire t [a] []) ++ rest)
      R.mtype = some t ∧ R.args = [] ∧ R.props = Properties.ofPairs [(k, v)] ∧ R.rest = rest) ∧
    (¬ LooksLikeProperty a →
      let R := readMessage mt Properties.create (bytes (wire t [a] []) ++ rest)
      R.mtype = some t ∧ R.args = [a] ∧ R.props = Properties.create ∧ R.rest = rest) := by
  constructor
  · intro k v hkv hk
    have hv : Plain v := fun c hc => ha c (by rw [hkv]; simp [hc])
    have hesc : escape a = k ++ b!"=" ++ escape v := by
      rw [hkv]
      have : ∀ (k : Str), (∀ c ∈ k, keyChar c = true) → escape (k ++ b!"=" ++ v) = k ++ b!"=" ++ escape v := by
        intro k hk
        induction k with
        | nil => simp [escape]
        | cons c t ih =>
          obtain ⟨_, _, h1, h2, h3, _⟩ := keyChar_facts (hk c (by simp))
          simp only [List.cons_append]
          rw [escape_other _ _ h1 h2 h3]
          rw [show t ++ b!"=" ++ v = (t ++ b!"=") ++ v from rfl, ih (fun c hc => hk c (by simp [hc]))]
      exact this k hk.chars
    have hw : wire t [a] [] = wire t [] [(k, v)] := by
      simp [wire, hesc]
    simp only
    rw [hw, readMessage_wire _ _ _ _ _ _ ⟨by simp, by simp, by simpa using hk, by simpa using hv⟩]
    exact ⟨rfl, rfl, rfl, rfl⟩
  · intro hn
    simp only
    rw [readMessage_wire _ _ _ _ _ _ ⟨by simpa using ha, by simpa using hn, by simp, by simp⟩]
    exact ⟨rfl, rfl, rfl, rfl⟩

example : Plain b!"width=3" ∧ b!"width=3" = b!"width" ++ b!"=" ++ b!"3" ∧ ValidKey b!"width" := by decide

/-- **C14, violated.** `trax_properties_set` accepts every key, and a key with quotes and line
breaks injects a message of its own: the receiver gets a "quit" that was not sent. -/
theorem C14_invalid_key_false :
    (∀ (p : Properties), p.WF → ∀ key value, (p.set key value).has key = true) ∧
    let p := Properties.create.set b!"a\" \n@@TRAX:quit \n\"" b!"x"
    (readSeq 2 none (bytes (((⟨[], false, [], []⟩ : Writer).writeMessage .frame [] p).sent))).map InMsg.type =
      [some .frame, some .quit] := by
  refine ⟨fun p hp key value => ?_, by decide +kernel⟩
  rw [Properties.has_eq, Properties.get_set hp]
  simp

/-- A new object is well-formed, and so is what any calls make of it (`Properties.wf_set`). -/
example : (Properties.create.set b!"a" b!"b").WF := Properties.wf_set Properties.wf_create _ _

/-- **C14, what holds.** Valid keys are harmless: whatever the values, exactly one line with
exactly these pairs is sent and received (C01, C06); keys are stored without validation, so
"refused" is missing from the full claim. -/
theorem C14_valid_keys_partial (t : MsgType) (kvs : List (Str × Str)) (mt : Option MsgType)
    (hk : ∀ kv ∈ kvs, ValidKey kv.1) (hv : ∀ kv ∈ kvs, Plain kv.2) (rest : List InEv) :
    let R := readMessage mt Properties.create
      (bytes ((⟨[], false, [], []⟩ : Writer).writeMessage t [] (Properties.ofPairs kvs)).sent ++ rest)
    R.mtype = some t ∧ R.args = [] ∧ R.props = Properties.ofPairs kvs ∧ R.rest = rest := by
  simp only
  rw [(C04_partial_writes [] (by simp) [] [] t [] kvs (by simp)).1]
  have := readMessage_outMsg mt ⟨t, [], kvs⟩ ⟨by simp, by simp, hk, hv⟩ rest
  unfold OutMsg.wire at this
  simp only [List.nil_append]
  rw [this]
  exact ⟨rfl, rfl, rfl, rfl⟩

/-! ## C15: reading terminates and consumes -/

/-- **C15.** Every call returns (the model functions are total: the loop makes at most one
iteration per event), leaves a suffix of the input and consumes at least one event unless
the input is exhausted. On chunked input the bound on the iterations is never the reason to
stop: the result is that of the plain reader. -/
theorem C15_read_consumes (mt : Option MsgType) (p : Properties) (inp : List InEv) (s : ChunkIn) :
    (∃ consumed, inp = consumed ++ (readMessage mt p inp).rest ∧ (inp ≠ [] → consumed ≠ [])) ∧
    (readMessageChunked mt p s).mtype = (readMessage mt p s.events).mtype ∧
    (readMessageChunked mt p s).rest.events = (readMessage mt p s.events).rest := by
  refine ⟨readLoop_suffix _ inp rfl, ?_, ?_⟩
  · exact (readMessageChunked_eq mt p s).1
  · exact (readMessageChunked_eq mt p s).2.2.2.2

end Trax
