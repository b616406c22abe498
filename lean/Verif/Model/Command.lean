import Verif.Model.Bytes
import Verif.Model.Outcome

/-!
# Splitting the command of a tracker (`support/client/process.cpp` 57–163)
-/

namespace Trax

/-- The loop of `__next_token` (`support/client/process.cpp` 64–81) from position `i` on. `prev` is
`str[i - 1]`, `s` the start of the token once it is known, the list is the rest of the string. The
result are the values of `s`, `e`, `i` and `quotes` after the loop. -/
def scanToken (prev : Byte) (i : Nat) (s : Option Nat) (quotes : Bool) : Str → Option Nat × Option Nat × Nat × Bool
  | [] => (s, none, i, quotes)
  | c :: cs =>
    match s with
    | none =>
      if c ≠ ch%' ' then
        (if c = ch%'"' then scanToken c (i + 1) (some (i + 1)) true cs else scanToken c (i + 1) (some i) quotes cs)
      else scanToken c (i + 1) none quotes cs
    | some s =>
      if (!quotes && c == ch%' ') || (quotes && c == ch%'"' && prev != ch%'\'') then (some s, some i, i, quotes)
      else scanToken c (i + 1) (some s) quotes cs

/-- `__next_token` (`support/client/process.cpp` 57–98); `none` stands for the result -1, otherwise the
token (the contents of `buffer`) and the position returned. The test `i == start` (75) is never
relevant, because the token has no start yet at that position. Reading from a start behind the end of the string is
undefined behaviour. -/
def nextToken (str : Str) (start : Nat) (len : Nat) : Outcome (Option (Str × Nat)) :=
  if start > str.length then .ub else
  match scanToken 0 start none false (str.drop start) with
  | (none, _) => .ok none
  | (some s, e, i, quotes) =>
    match (match e with | some e => some e | none => if quotes then none else some i) with
    | none => .ok none
    | some e =>
      if e - s > len - 1 then .ok none
      else .ok (some ((str.drop s).take (e - s), if e = str.length then e else if quotes then e + 2 else e + 1))

/-- The loop of `parse_command` (`support/client/process.cpp` 108–129). `tokens` are the tokens so far;
the array has as many places as the string has bytes, and a write behind it is undefined behaviour, as is an endless
loop (`fuel` bounds the number of turns). The buffer for a token has one byte more than the string, enough for any
part of it. `none` stands for the result `NULL`. -/
def parseTokens (command : Str) : Nat → Nat → List Str → Outcome (Option (List Str))
  | 0, _, _ => .ub
  | fuel + 1, position, tokens =>
    (nextToken command position 1024).bind fun
      | none => .ok none
      | some (token, position) =>
        if tokens.length < command.length then
          let tokens := tokens ++ [token]
          if position ≥ command.length then .ok (some tokens) else parseTokens command fuel position tokens
        else .ub

/-- `parse_command` (`support/client/process.cpp` 100–142). -/
def parseCommand (command : Str) : Outcome (Option (List Str)) := parseTokens command (command.length + 1) 0 []

/-- What the constructor `Process::Process` (`support/client/process.cpp` 145–163) keeps: program and
arguments. It looks at the first element of the result without testing it for `NULL`. -/
def processCommand (command : Str) : Outcome (List Str) :=
  (parseCommand command).bind fun
    | none => .ub
    | some tokens => .ok tokens

end Trax
