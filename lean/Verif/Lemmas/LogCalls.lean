import Verif.Spec.LogCalls
import Verif.Lemmas.Python
import Verif.Lemmas.MessageOps
import Mathlib.Data.List.Forall2

/-!
# Lemmas on loggers
-/

namespace Trax
open Spec

/-- The text of a call. -/
def LogCall.str : LogCall → Str
  | .text s => s
  | .flush => []

/-! ## Writing -/

namespace Writer

theorem loopCalls_append {α : Type} (out : Writer → α → Writer) (calls : Writer → α → List LogCall) (a b : List α) (w : Writer) :
    loopCalls out calls w (a ++ b) = loopCalls out calls w a ++ loopCalls out calls (a.foldl out w) b := by
  induction a generalizing w with
  | nil => rfl
  | cons x a ih => simp [loopCalls, ih]

/-- The calls of statements. -/
def stmtsCalls (w : Writer) (ss : List (List Str)) : List LogCall := loopCalls (fun w ps => (w.writePieces ps).1) piecesCalls w ss

theorem stmtsCalls_append (w : Writer) (a b : List (List Str)) : w.stmtsCalls (a ++ b) = w.stmtsCalls a ++ (w.runStmts a).stmtsCalls b :=
  loopCalls_append _ _ a b w

theorem piecesCalls_singleton (w : Writer) (s : Str) : w.piecesCalls [s] = w.bufferCalls s := by
  simp [piecesCalls]

theorem stringCalls_eq (w : Writer) (s : Str) : w.stringCalls s = w.stmtsCalls [[cstr s]] := by
  simp [stmtsCalls, loopCalls, piecesCalls_singleton, stringCalls]

theorem escapedCalls_eq (w : Writer) (s : Str) : w.escapedCalls (cstr s) = w.stmtsCalls [escPieces [] (cstr s)] := by
  simp only [stmtsCalls, loopCalls, List.append_nil, escapedCalls]
  split
  · next h =>
    have : cstr s = [] := by cases hs : cstr s <;> simp_all
    rw [this]
    simp [escPieces, piecesCalls, bufferCalls]
  · rfl

theorem loopCalls_flatMap {α : Type} (out : Writer → α → Writer) (calls : Writer → α → List LogCall) (g : α → List (List Str))
    (ho : ∀ w a, out w a = w.runStmts (g a)) (hc : ∀ w a, calls w a = w.stmtsCalls (g a)) (l : List α) (w : Writer) :
    loopCalls out calls w l = w.stmtsCalls (l.flatMap g) := by
  induction l generalizing w with
  | nil => rfl
  | cons a l ih => rw [loopCalls, ih, hc, ho, List.flatMap_cons, stmtsCalls_append]

theorem outArg_eq (w : Writer) (a : Str) : w.outArg a = w.runStmts [[cstr b!"\""], escPieces [] (cstr a), [cstr b!"\" "]] := by
  simp only [outArg, outString_eq, outEscaped_eq, ← runStmts_append]
  rfl

theorem outProperty_eq (w : Writer) (kv : Str × Str) :
    w.outProperty kv = w.runStmts [[cstr b!"\""], [cstr kv.1], [cstr b!"="], escPieces [] (cstr kv.2), [cstr b!"\" "]] := by
  simp only [outProperty, outString_eq, outEscaped_eq, ← runStmts_append]
  rfl

theorem messageCalls_eq (w : Writer) (t : MsgType) (args : List Str) (props : Properties) :
    w.messageCalls t args props = w.stmtsCalls (messageStmts t args props.enumerate) ++ [.flush] := by
  unfold messageCalls messageStmts
  simp only
  rw [loopCalls_flatMap outArg argCalls (fun a => [[cstr b!"\""], escPieces [] (cstr a), [cstr b!"\" "]]) outArg_eq,
    loopCalls_flatMap outProperty propertyCalls
      (fun kv => [[cstr b!"\""], [cstr kv.1], [cstr b!"="], escPieces [] (cstr kv.2), [cstr b!"\" "]]) outProperty_eq,
    runStmts_flatMap outArg _ outArg_eq, runStmts_flatMap outProperty _ outProperty_eq]
  · simp only [stringCalls_eq, outString_eq, ← runStmts_append, ← stmtsCalls_append, List.append_assoc]
    simp only [← List.append_assoc, ← stmtsCalls_append, ← runStmts_append]
    simp only [List.append_assoc, List.cons_append, List.nil_append]
  · intro w kv
    simp only [propertyCalls, stringCalls_eq, escapedCalls_eq, outString_eq, outEscaped_eq, ← runStmts_append, ← stmtsCalls_append]
    rfl
  · intro w a
    simp only [argCalls, stringCalls_eq, escapedCalls_eq, outString_eq, outEscaped_eq, ← runStmts_append, ← stmtsCalls_append]
    rfl

/-- On a connection that does not fail, every piece is logged that is not empty. -/
theorem piecesCalls_reliable (ps : List Str) (w : Writer) (hw : w.Reliable) : w.piecesCalls ps = (ps.filter (· ≠ [])).map .text := by
  induction ps generalizing w with
  | nil => rfl
  | cons p ps ih =>
    have h1 := writePieces_reliable [p] w hw
    have hb : (w.writeBuffer p).2 = true := by
      have := h1.2.2.2
      simp only [writePieces] at this
      split at this
      · next h => rw [h]
      · cases this
    have hr : (w.writeBuffer p).1.Reliable := by rw [← writePieces_singleton]; exact h1.2.2.1
    rw [piecesCalls, hb, if_pos rfl, ih _ hr, bufferCalls, hb]
    cases p with
    | nil => simp
    | cons a p => simp

theorem stmtsCalls_reliable (ss : List (List Str)) (w : Writer) (hw : w.Reliable) :
    w.stmtsCalls ss = (ss.flatten.filter (· ≠ [])).map .text := by
  induction ss generalizing w with
  | nil => rfl
  | cons ps ss ih =>
    have := ih _ (writePieces_reliable ps w hw).2.2.1
    simp only [stmtsCalls, loopCalls] at this ⊢
    rw [this, piecesCalls_reliable ps w hw]
    simp

end Writer

theorem flatMap_str_text (ps : List Str) : ((ps.filter (· ≠ [])).map LogCall.text).flatMap LogCall.str = ps.flatten := by
  induction ps with
  | nil => rfl
  | cons p ps ih =>
    cases p with
    | nil => simpa using ih
    | cons a p =>
      have : (a :: p) ≠ [] := by simp
      simp only [List.filter_cons, this, ne_eq, not_false_eq_true, decide_true, if_true, List.map_cons, List.flatMap_cons, List.flatten_cons]
      rw [show LogCall.str (.text (a :: p)) = a :: p from rfl]
      exact congrArg _ ih

theorem flatMap_str_chars (s : Str) : (s.map fun c => LogCall.text [c]).flatMap LogCall.str = s := by
  induction s with
  | nil => rfl
  | cons c s ih => simpa [LogCall.str] using ih

/-! ## Reading -/

theorem step_log (r : Reader) (c : UInt8) : (r.step c).log = r.log := by
  unfold Reader.step
  cases r.st <;>
    simp only [Reader.stepType, Reader.stepSpaceExpect, Reader.stepSpace, Reader.stepUKey, Reader.stepUVal, Reader.stepEscKey, Reader.stepEscVal, Reader.stepQKey,
        Reader.stepQVal, Reader.stepPass, Reader.stepPrefix, Reader.abandon, Reader.resetBufs, Reader.addArg, Reader.addProp] <;>
    (repeat' split) <;> rfl

theorem feed_log (r : Reader) (c : UInt8) : (r.feed c).log = r.log ++ [c] := step_log _ c

theorem char_some {e : InEv} {c : UInt8} (h : e.char = some c) : e = .byte c ∧ c.toNat < 128 := by
  cases e with
  | fail => cases h
  | byte b =>
    simp only [InEv.char] at h
    split at h
    · next hb => cases h; exact ⟨rfl, hb⟩
    · cases h

theorem noMore_cons {e : InEv} (t : List InEv) (h : e.char = none) : NoMore (e :: t) t := by
  cases e with
  | fail => exact .inr (.inl rfl)
  | byte b =>
    refine .inr (.inr ⟨b, ?_, rfl⟩)
    simp only [InEv.char] at h
    split at h
    · cases h
    · omega

/-- What the loop of the reader logs. -/
theorem readLoop_log (inp : List InEv) (r : Reader) :
    ∃ text, (readLoop r inp).1.log = r.log ++ text ∧ (∀ c ∈ text, c.toNat < 128 ∧ (c = 0 → .byte 0 ∈ inp)) ∧
      (inp = bytes text ++ (readLoop r inp).2 ∨ ∃ got tail, inp = bytes got ++ tail ∧ NoMore tail (readLoop r inp).2 ∧
        (((readLoop r inp).1.mtype = none ∧ text = got) ∨ text = got ++ [10])) := by
  have hfail : ∀ r : Reader, ∃ text, r.onFail.log = r.log ++ text ∧ (∀ c ∈ text, c.toNat < 128 ∧ c ≠ 0) ∧
      ((r.onFail.mtype = none ∧ text = []) ∨ text = [10]) := by
    intro r
    unfold Reader.onFail
    split
    · next h => exact ⟨[], by simp, by simp, .inl ⟨h, rfl⟩⟩
    · exact ⟨[10], by rw [feed_log], by decide, .inr rfl⟩
  induction inp generalizing r with
  | nil =>
    rw [readLoop]
    split
    · exact ⟨[], by simp, by simp, .inl rfl⟩
    · obtain ⟨text, h1, h2, h3⟩ := hfail r
      exact ⟨text, h1, fun c hc => ⟨(h2 c hc).1, fun h => absurd h (h2 c hc).2⟩, .inr ⟨[], [], rfl, .inl ⟨rfl, rfl⟩, h3⟩⟩
  | cons e t ih =>
    rw [readLoop]
    split
    · exact ⟨[], by simp, by simp, .inl rfl⟩
    · cases he : e.char with
      | none =>
        obtain ⟨text, h1, h2, h3⟩ := hfail r
        exact ⟨text, h1, fun c hc => ⟨(h2 c hc).1, fun h => absurd h (h2 c hc).2⟩, .inr ⟨[], e :: t, rfl, noMore_cons t he, h3⟩⟩
      | some c =>
        obtain ⟨rfl, hc⟩ := char_some he
        obtain ⟨text, h1, h2, h3⟩ := ih (r.feed c)
        refine ⟨c :: text, by rw [h1, feed_log]; simp, ?_, ?_⟩
        · intro d hd
          rcases List.mem_cons.1 hd with rfl | hd
          · exact ⟨hc, fun h => by rw [h]; simp⟩
          · exact ⟨(h2 d hd).1, fun h => List.mem_cons_of_mem _ ((h2 d hd).2 h)⟩
        · rcases h3 with h3 | ⟨got, tail, g1, g2, g3⟩
          · exact .inl (by rw [bytes_cons, List.cons_append, ← h3])
          · refine .inr ⟨c :: got, tail, by rw [bytes_cons, List.cons_append, ← g1], g2, ?_⟩
            rcases g3 with ⟨g3, rfl⟩ | rfl
            · exact .inl ⟨g3, rfl⟩
            · exact .inr rfl

/-- A message is logged as it passed. -/
theorem calls_passed (s : LogStep) (hs : LogProper s) :
    ∃ text, Passed s text ∧ s.calls.flatMap LogCall.str = text ∧ ∃ cs, s.calls = cs ++ [.flush] := by
  cases s with
  | read mtype props input =>
    obtain ⟨text, h1, -, h3⟩ := readLoop_log input (Reader.start mtype props)
    have hl : (readMessage mtype props input).log = text := by simpa [readMessage, Reader.start] using h1
    refine ⟨text, h3, ?_, _, rfl⟩
    simp only [LogStep.calls, readCalls, hl, List.flatMap_append, flatMap_str_chars]
    simp [LogCall.str]
  | write w t args props =>
    obtain ⟨h1, h2, ⟨kvs, rfl⟩, h4⟩ := hs
    have hw : w.Reliable := ⟨fun x hx e => h1 (e ▸ hx), h2⟩
    refine ⟨_, ?_, rfl, _, Writer.messageCalls_eq ..⟩
    simp only [Passed, LogStep.calls, Writer.messageCalls_eq, Writer.stmtsCalls_reliable _ w hw, writeMessage_eq, (runStmts_reliable _ w hw).1,
      List.flatMap_append, flatMap_str_text]
    simp [LogCall.str]

/-! ## The file -/

theorem fileLoggerRun_append (spill : Nat → Nat) (a b : List LogCall) (i : Nat) (f : BufFile) :
    fileLoggerRun spill i (a ++ b) f = fileLoggerRun spill (i + a.length) b (fileLoggerRun spill i a f) := by
  induction a generalizing i f with
  | nil => rfl
  | cons c a ih => simp only [List.cons_append, fileLoggerRun, ih, List.length_cons]; congr 1; omega

theorem fileLoggerRun_text (spill : Nat → Nat) (cs : List LogCall) (i : Nat) (f : BufFile) :
    let g := fileLoggerRun spill i cs f
    g.disk ++ g.pending = f.disk ++ f.pending ++ cs.flatMap LogCall.str ∧ f.disk <+: g.disk := by
  induction cs generalizing i f with
  | nil => simp [fileLoggerRun]
  | cons c cs ih =>
    obtain ⟨h1, h2⟩ := ih (i + 1) (fileLogger f c (spill i))
    simp only [fileLoggerRun]
    have h3 : (fileLogger f c (spill i)).disk ++ (fileLogger f c (spill i)).pending = f.disk ++ f.pending ++ c.str := by
      cases c with
      | flush => simp [fileLogger, BufFile.flush, LogCall.str]
      | text s => simp [fileLogger, BufFile.write, LogCall.str]
    have h4 : f.disk <+: (fileLogger f c (spill i)).disk := by
      cases c with
      | flush => exact List.prefix_append _ _
      | text s => exact List.prefix_append _ _
    exact ⟨by rw [h1, h3]; simp, h4.trans h2⟩

theorem fileLoggerRun_flush (spill : Nat → Nat) (cs : List LogCall) (i : Nat) (f : BufFile) :
    (fileLoggerRun spill i (cs ++ [.flush]) f).pending = [] := by
  rw [fileLoggerRun_append]; rfl

/-! ## Python -/

namespace Py

theorem encode_append {a b : Text} {x y : Str} (ha : a.encode = some x) (hb : b.encode = some y) : Text.encode (a ++ b) = some (x ++ y) := by
  induction a generalizing x with
  | nil => cases ha; exact hb
  | cons c a ih =>
    simp only [Text.encode] at ha
    cases h1 : utf8 c with
    | none => rw [h1] at ha; cases ha
    | some u =>
      cases h2 : Text.encode a with
      | none => rw [h1, h2] at ha; cases ha
      | some v =>
        rw [h1, h2] at ha
        cases ha
        rw [List.cons_append, Text.encode, h1, ih h2, List.append_assoc]

theorem decode_append {x y : Str} {a b : Text} (ha : decode x = some a) (hb : decode y = some b) : decode (x ++ y) = some (a ++ b) :=
  decode_encode (encode_append (encode_decode ha) (encode_decode hb))

/-- A character is one special byte, or bytes that are not special. -/
theorem utf8_special {c : Nat} {s : Str} (h : utf8 c = some s) : (∃ b : UInt8, s = [b]) ∨ ∀ b ∈ s, isSpecial b = false := by
  have key : ∀ n : Nat, 128 ≤ n → n < 256 → isSpecial (.ofNat n) = false := by
    intro n h1 h2
    have : ∀ m : Fin 256, 128 ≤ m.val → isSpecial (.ofNat m.val) = false := by decide +kernel
    exact this ⟨n, h2⟩ h1
  unfold utf8 at h
  split_ifs at h with h1 h2 h3 h4 h5
  · cases h; exact .inl ⟨_, rfl⟩
  all_goals
    cases h
    refine .inr fun b hb => ?_
    simp only [List.mem_cons, List.not_mem_nil, or_false] at hb
    rcases hb with rfl | rfl | rfl | rfl <;> exact key _ (by omega) (by omega)

theorem escPieces_plain (u v pend : Str) (h : ∀ b ∈ u, isSpecial b = false) : escPieces pend (u ++ v) = escPieces (pend ++ u) v := by
  induction u generalizing pend with
  | nil => simp
  | cons b u ih =>
    rw [List.cons_append, escPieces, h b (by simp), if_neg (by decide), ih _ fun x hx => h x (by simp [hx])]
    simp

/-- The pieces of an escaped text are texts. -/
theorem escPieces_decode {t : Text} : ∀ {s : Str}, t.encode = some s → ∀ pend, (decode pend).isSome → ∀ p ∈ escPieces pend s, (decode p).isSome := by
  induction t with
  | nil =>
    intro s h pend hp p hm
    cases h
    simp only [escPieces, List.mem_singleton] at hm
    rw [hm]; exact hp
  | cons c t ih =>
    intro s h pend hp p hm
    simp only [Text.encode] at h
    cases h1 : utf8 c with
    | none => rw [h1] at h; cases h
    | some u =>
      cases h2 : Text.encode t with
      | none => rw [h1, h2] at h; cases h
      | some v =>
        rw [h1, h2] at h
        cases h
        have hu : decode u = some [c] := decode_encode (by simp [Text.encode, h1])
        obtain ⟨q, hq⟩ := Option.isSome_iff_exists.1 hp
        by_cases hs : ∀ b ∈ u, isSpecial b = false
        · rw [escPieces_plain u v pend hs] at hm
          exact ih h2 _ (by rw [decode_append hq hu]; rfl) p hm
        · obtain ⟨b, rfl⟩ := (utf8_special h1).resolve_right hs
          have hb : isSpecial b = true := by simpa using hs
          rw [List.cons_append, List.nil_append, escPieces, if_pos hb] at hm
          split at hm
          · simp only [List.mem_cons] at hm
            rcases hm with rfl | rfl | rfl | hm
            · exact hp
            · rfl
            · rfl
            · exact ih h2 [] rfl p hm
          · simp only [List.mem_cons] at hm
            rcases hm with rfl | rfl | hm
            · exact hp
            · rfl
            · exact ih h2 _ (by rw [hu]; rfl) p hm

theorem escPieces_noNul (s : Str) : ∀ pend, NoNul pend → NoNul s → ∀ p ∈ escPieces pend s, NoNul p := by
  induction s with
  | nil => intro pend hp _ p hm; simp only [escPieces, List.mem_singleton] at hm; rw [hm]; exact hp
  | cons c s ih =>
    intro pend hp hs p hm
    have hc : NoNul [c] := fun x hx => hs x (by simp only [List.mem_singleton] at hx; simp [hx])
    have hs' : NoNul s := fun x hx => hs x (List.mem_cons_of_mem _ hx)
    rw [escPieces] at hm
    split at hm
    · split at hm
      · simp only [List.mem_cons] at hm
        rcases hm with rfl | rfl | rfl | hm
        · exact hp
        · unfold NoNul; decide
        · unfold NoNul; decide
        · exact ih [] (fun x hx => absurd hx (by simp)) hs' p hm
      · simp only [List.mem_cons] at hm
        rcases hm with rfl | rfl | hm
        · exact hp
        · unfold NoNul; decide
        · exact ih _ hc hs' p hm
    · refine ih _ (fun x hx => ?_) hs' p hm
      rcases List.mem_append.1 hx with hx | hx
      · exact hp x hx
      · exact hc x hx

/-- A piece that Python can take. -/
def GoodPiece (p : Str) : Prop := NoNul p ∧ (decode p).isSome

/-- The pieces of a message of texts are texts without NUL. -/
theorem messageStmts_decode (t : MsgType) (args : List Str) (props : List (Str × Str)) (ha : ∀ a ∈ args, GoodPiece a)
    (hp : ∀ e ∈ props, GoodPiece e.1 ∧ GoodPiece e.2) :
    ∀ p ∈ (messageStmts t args props).flatten, GoodPiece p := by
  have hesc : ∀ a : Str, GoodPiece a → ∀ p ∈ escPieces [] (cstr a), GoodPiece p := by
    rintro a ⟨hn, hd⟩ p hm
    rw [cstr_of_noNul hn] at hm
    obtain ⟨x, hx⟩ := Option.isSome_iff_exists.1 hd
    exact ⟨escPieces_noNul a [] (fun x hx => absurd hx (by simp)) hn p hm, escPieces_decode (encode_decode hx) [] rfl p hm⟩
  have hkey : ∀ a : Str, GoodPiece a → GoodPiece (cstr a) := fun a h => by rw [cstr_of_noNul h.1]; exact h
  have c1 : GoodPiece (cstr b!"\"") := by unfold GoodPiece NoNul; decide
  have c2 : GoodPiece (cstr b!"\" ") := by unfold GoodPiece NoNul; decide
  have c3 : GoodPiece (cstr b!"=") := by unfold GoodPiece NoNul; decide
  have c4 : GoodPiece (cstr b!" ") := by unfold GoodPiece NoNul; decide
  have c5 : GoodPiece (cstr b!"\n") := by unfold GoodPiece NoNul; decide
  have c6 : GoodPiece (cstr traxPrefix) := by unfold GoodPiece NoNul; decide
  have c7 : GoodPiece (cstr t.name) := by cases t <;> (unfold GoodPiece NoNul; decide)
  intro p hm
  simp only [messageStmts, List.mem_flatten, List.mem_append, List.mem_cons, List.not_mem_nil, or_false, List.mem_flatMap] at hm
  obtain ⟨l, ((((rfl | rfl | rfl) | ⟨a, hm, rfl | rfl | rfl⟩) | ⟨e, hm, rfl | rfl | rfl | rfl | rfl⟩) | rfl), hl⟩ := hm
  all_goals try simp only [List.mem_singleton] at hl
  · rw [hl]; exact c6
  · rw [hl]; exact c7
  · rw [hl]; exact c4
  · rw [hl]; exact c1
  · exact hesc a (ha a hm) p hl
  · rw [hl]; exact c2
  · rw [hl]; exact c1
  · rw [hl]; exact hkey _ (hp e hm).1
  · rw [hl]; exact c3
  · exact hesc _ (hp e hm).2 p hl
  · rw [hl]; exact c2
  · rw [hl]; exact c5

/-- A call that Python can take. -/
def GoodCall : LogCall → Prop
  | .text s => s ≠ [] ∧ GoodPiece s
  | .flush => True

theorem cstr_append {p : Str} (h : NoNul p) (q : Str) : cstr (p ++ q) = p ++ cstr q := by
  induction p with
  | nil => rfl
  | cons c p ih =>
    have hc : (c != 0) = true := by simpa using h c (by simp)
    have := ih fun x hx => h x (List.mem_cons_of_mem _ hx)
    simp only [cstr] at this ⊢
    rw [List.cons_append, List.takeWhile_cons, if_pos hc, this, List.cons_append]

theorem loggerMessage_text {s : Str} (h : s ≠ []) (hs : GoodPiece s) (after : Str) :
    ∃ m, decode s = some m ∧ loggerMessage (.text s) after = some m := by
  obtain ⟨m, hm⟩ := Option.isSome_iff_exists.1 hs.2
  refine ⟨m, hm, ?_⟩
  simp only [loggerMessage, charP, cstr_append hs.1, LogCall.length, List.take_left]
  rw [if_neg (by simp [h]), hm]

/-- What a logger makes of calls that it can take. -/
theorem logger_run (after : Nat → Str) (ends : Nat → Handled) (cs : List LogCall) (hc : ∀ c ∈ cs, GoodCall c) (i : Nat) (l : Logger) :
    ∃ t, decode (cs.flatMap Trax.LogCall.str) = some t ∧ (Logger.run after ends i cs l).messages.flatten = l.messages.flatten ++ t ∧
      ((Logger.run after ends i cs l).interrupted = true ↔
        l.interrupted = true ∨ ∃ j s, cs[j]? = some (.text s) ∧ ends (i + j) = .interrupt) := by
  induction cs generalizing i l with
  | nil => exact ⟨[], rfl, by simp [Logger.run], by simp [Logger.run]⟩
  | cons c cs ih =>
    obtain ⟨t, h1, h2, h3⟩ := ih (fun x hx => hc x (List.mem_cons_of_mem _ hx)) (i + 1) (l.call c (after i) (ends i))
    have hshift : (∃ j s, (c :: cs)[j]? = some (.text s) ∧ ends (i + j) = .interrupt) ↔
        (∃ s, c = .text s ∧ ends i = .interrupt) ∨ ∃ j s, cs[j]? = some (.text s) ∧ ends (i + 1 + j) = .interrupt := by
      constructor
      · rintro ⟨j, s, e1, e2⟩
        cases j with
        | zero => exact .inl ⟨s, by simpa using e1, e2⟩
        | succ j => exact .inr ⟨j, s, by simpa using e1, by rw [show i + 1 + j = i + (j + 1) from by omega]; exact e2⟩
      · rintro (⟨s, e1, e2⟩ | ⟨j, s, e1, e2⟩)
        · exact ⟨0, s, by simp [e1], e2⟩
        · exact ⟨j + 1, s, by simpa using e1, by rw [show i + (j + 1) = i + 1 + j from by omega]; exact e2⟩
    simp only [Logger.run]
    cases c with
    | flush =>
      have hl : l.call .flush (after i) (ends i) = l := by simp [Logger.call, loggerMessage, charP]
      rw [hl] at h2 h3
      refine ⟨t, by simpa [Trax.LogCall.str] using h1, by rw [hl]; exact h2, ?_⟩
      rw [hl, h3, hshift]
      simp
    | text s =>
      obtain ⟨hne, hg⟩ := hc (.text s) (by simp)
      obtain ⟨m, hm, hlm⟩ := loggerMessage_text hne hg (after i)
      have hl : l.call (.text s) (after i) (ends i) = ⟨l.messages ++ [m], l.interrupted || ends i = .interrupt⟩ := by simp [Logger.call, hlm]
      rw [hl] at h2 h3 ⊢
      refine ⟨m ++ t, ?_, by rw [h2]; simp, ?_⟩
      · rw [List.flatMap_cons]
        exact decode_append hm h1
      · rw [h3, hshift]
        simp [or_assoc]

theorem fileHandle_text (after : Nat → Str) (spill : Nat → Nat) (cs : List LogCall) (hc : ∀ c ∈ cs, GoodCall c) (i : Nat) (f : BufFile) :
    (fileHandle after spill i cs f).disk ++ (fileHandle after spill i cs f).pending = f.disk ++ f.pending ++ cs.flatMap Trax.LogCall.str := by
  induction cs generalizing i f with
  | nil => simp [fileHandle]
  | cons c cs ih =>
    simp only [fileHandle]
    rw [ih (fun x hx => hc x (List.mem_cons_of_mem _ hx))]
    cases c with
    | flush => simp [loggerMessage, charP, Trax.LogCall.str]
    | text s =>
      obtain ⟨hne, hg⟩ := hc (.text s) (by simp)
      obtain ⟨m, hm, hlm⟩ := loggerMessage_text hne hg (after i)
      simp [hlm, encode_decode hm, BufFile.write, Trax.LogCall.str]

/-- The calls of a message of texts. -/
theorem calls_good (s : LogStep) (hs : LogProper s) (ht : TextProper s) : ∀ c ∈ s.calls, GoodCall c := by
  cases s with
  | read mtype props input =>
    obtain ⟨text, h1, h2, -⟩ := readLoop_log input (Reader.start mtype props)
    have hl : (readMessage mtype props input).log = text := by simpa [readMessage, Reader.start] using h1
    intro c hc
    simp only [LogStep.calls, readCalls, hl, List.mem_append, List.mem_map, List.mem_singleton] at hc
    rcases hc with ⟨b, hb, rfl⟩ | rfl
    · obtain ⟨h3, h4⟩ := h2 b hb
      refine ⟨by simp, fun x hx => ?_, ?_⟩
      · simp only [List.mem_singleton] at hx
        rw [hx]
        exact fun h => ht (h4 h)
      · have : Text.encode [b.toNat] = some [b] := by simp [Text.encode, utf8, h3]
        rw [decode_encode this]; rfl
    · trivial
  | write w t args props =>
    obtain ⟨h1, h2, ⟨kvs, rfl⟩, h4⟩ := hs
    have hw : w.Reliable := ⟨fun x hx e => h1 (e ▸ hx), h2⟩
    intro c hc
    simp only [LogStep.calls, Writer.messageCalls_eq, Writer.stmtsCalls_reliable _ w hw, List.mem_append, List.mem_map, List.mem_singleton, List.mem_filter] at hc
    rcases hc with ⟨p, ⟨hp, hne⟩, rfl⟩ | rfl
    · have hn := Deliverable.noNul_enumerate (Properties.wf_ofPairs kvs)
      exact ⟨by simpa using hne, messageStmts_decode t args _ (fun a ha => ⟨h4 a ha, ht.1 a ha⟩)
        (fun e he => ⟨⟨(hn e he).1, (ht.2 e he).1⟩, (hn e he).2, (ht.2 e he).2⟩) p hp⟩
    · trivial

theorem dropWhile_nil {α : Type} (q : α → Bool) (l : List α) : l.dropWhile q = [] ↔ ∀ x ∈ l, q x = true := by
  induction l with
  | nil => simp
  | cons a l ih =>
    rw [List.dropWhile_cons]
    split
    · next h => rw [ih]; simp [h]
    · next h => simp [h]

/-- The directory of a file name with a slash. -/
theorem dirname_ne {p : Text} : dirname p = [] ↔ 47 ∉ p := by
  unfold dirname
  have h1 : ∀ l : Text, l.dropWhile (· ≠ 47) = [] ↔ 47 ∉ l := by
    intro l
    simp only [dropWhile_nil]
    constructor
    · intro h hm; simpa using h 47 hm
    · intro h x hx; simp only [ne_eq, decide_not, Bool.not_eq_true', decide_eq_false_iff_not]; rintro rfl; exact h hx
  simp only
  split
  · rw [List.reverse_eq_nil_iff, h1]; simp
  · next h =>
    constructor
    · intro he
      rw [List.reverse_eq_nil_iff, dropWhile_nil] at he
      exact absurd (by rw [List.all_eq_true]; intro x hx; exact he x (by simpa using hx)) h
    · intro hm
      have : (p.reverse.dropWhile (· ≠ 47)) = [] := (h1 _).2 (by simpa using hm)
      rw [this] at h
      exact absurd rfl h

end Py

end Trax
