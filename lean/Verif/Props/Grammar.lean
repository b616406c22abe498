import Verif.Lemmas.Grammar
import Verif.Lemmas.MessageOps
import Verif.Spec.PropertyMap

/-!
# Messages from other implementations (C100, C101)

The texts that are messages, and what they mean, are specified in `Verif/Spec/Grammar.lean`.
-/

namespace Trax
open Spec

/-- **C100.** However a message is written - with or without quotes, with any characters escaped,
with more spaces than needed or none at the end of the line, with positional and named arguments
mixed, with its name in capitals - it is received with the type, the positional arguments in
order and the named arguments (the last one counts) that are meant, whatever the
pieces in which it arrives, and reading stops behind its end of line. -/
theorem C100_any_writing (t : MsgType) (fs : List Field) (line : Str) (h : Writes t fs line)
    (mt : Option MsgType) (input : ChunkIn) (rest : List InEv) (hin : input.events = bytes line ++ rest) :
    let R := readMessageChunked mt Properties.create input
    R.mtype = some t ∧ R.args = fs.filterMap Field.arg ∧
    (∀ k, NoNul k → R.props.get k = (fs.filterMap Field.named).foldl (fun m kv => m.set kv.1 kv.2) AMap.empty k) ∧
    R.log = line ∧ R.rest.events = rest := by
  intro R
  obtain ⟨h1, h2, h3, h4, h5⟩ := readMessageChunked_eq mt Properties.create input
  obtain ⟨r, e, hr⟩ := readLoop_writes h (Reader.start mt Properties.create) rfl rfl rfl rest
  have hread : readMessage mt Properties.create input.events = ⟨r.mtype, r.args, r.props, r.log, rest⟩ := by
    unfold readMessage
    rw [hin, e]
  rw [hread] at h1 h2 h3 h4 h5
  refine ⟨h1.trans hr.mtype, h2.trans (by simpa [Reader.start] using hr.args), ?_,
    h4.trans (by simpa [Reader.start] using hr.log), h5⟩
  intro k hk
  rw [show R.props = setAll Properties.create (fs.filterMap Field.named) from h3.trans hr.props]
  exact get_setAll _ (fun kv hkv => named_noNul h hkv) hk

/-- A message that this library would not write: capitals, an argument without quotes, an escaped
equals sign, a named argument between positional ones, a carriage return before the end
of the line. -/
example : Writes .state
    [.bareArg ch%'5' [.plain ch%',', .plain ch%'1'], .bareNamed b!"time" [.plain ch%'3', .escaped ch%' '],
     .quotedArg [.plain ch%'a', .escaped ch%'=', .plain ch%' ', .escaped ch%'"']]
    b!"@@TRAX:STATUS 5,1  time=3\\  \"a\\= \\\"\" \r\n" := by
  refine ⟨b!"@@TRAX:STATUS 5,1  time=3\\  \"a\\= \\\"\"", ?_, Or.inr ⟨b!" \r", ⟨b!"\r", rfl, by decide⟩, rfl⟩⟩
  refine Head.field [_, _] b!"@@TRAX:STATUS 5,1  time=3\\ " b!" " _ ?_ ⟨[], rfl, by simp⟩
    ⟨by simp [Piece.InQuotes], ?_⟩
  · refine Head.field [_] b!"@@TRAX:STATUS 5,1" b!"  " _ ?_ ⟨b!" ", rfl, by decide⟩
      ⟨by decide, by decide, by simp [Piece.Bare]⟩
    refine Head.field [] b!"@@TRAX:STATUS" b!" " _ (Head.name b!"STATUS" (Or.inr ⟨rfl, by decide⟩))
      ⟨[], rfl, by simp⟩ ⟨by simp [Piece.Bare], by decide, by decide, by simp [Piece.Bare], ?_⟩
    intro a b hab
    match a, hab with
    | [], h => simp at h
    | [_], h => simp at h
    | _ :: _ :: a, h => simp at h
  · intro a b hab
    match a, hab with
    | [], h => simp at h
    | [_], h => simp at h
    | [_, _], h => simp at h
    | [_, _, _], h => simp at h
    | _ :: _ :: _ :: _ :: a, h => simp at h

/-- **C101.** A message that breaks off - a backslash with nothing to escape at the end of its line,
or a stray character right behind closing quotes - is never returned as a message: if only lines
that are no messages follow it until the connection ends, the call reports an error. (What
happens to messages that do follow is the subject of C11.) -/
theorem C101_broken_is_error (t : MsgType) (line : Str) (h : Broken t line) (ls : List Str)
    (hl : ∀ l ∈ ls, (∀ c ∈ l, c.toNat < 128 ∧ c ≠ ch%'\n') ∧ ¬ b!"@@TRAX:" <+: l)
    (mt : Option MsgType) (p : Properties) (input : ChunkIn) (rest : List InEv)
    (hrest : rest = [] ∨ ∃ e, rest = .fail :: e)
    (hin : input.events = bytes line ++ (bytes (ls.flatMap fun l => l ++ b!"\n") ++ rest)) :
    (readMessageChunked mt p input).mtype = none := by
  obtain ⟨h1, -⟩ := readMessageChunked_eq mt p input
  obtain ⟨r, e, hm, hc, hst⟩ := readLoop_broken h (Reader.start mt p) rfl rfl rfl
  rw [h1]
  unfold readMessage
  rw [hin, e]
  exact readLoop_foreign_end ls hl r hm hc hst rest hrest

example : Broken .frame b!"@@TRAX:frame \"/a\" path\\\n" :=
  Broken.bareEscape [.quotedArg [.plain ch%'/', .plain ch%'a']] b!"@@TRAX:frame \"/a\"" b!" " ch%'p'
    [.plain ch%'a', .plain ch%'t', .plain ch%'h']
    (Head.field [] b!"@@TRAX:frame" b!" " _ (Head.name b!"frame" (Or.inl (by decide)))
      ⟨[], rfl, by simp⟩ ⟨by simp [Piece.InQuotes], by
        intro a b hab
        match a, hab with
        | [], h => simp at h
        | [_], h => simp at h
        | _ :: _ :: a, h => simp at h⟩)
    ⟨[], rfl, by simp⟩ (by simp [Piece.Bare]) (by decide) (by decide) (by simp [Piece.Bare])

end Trax
