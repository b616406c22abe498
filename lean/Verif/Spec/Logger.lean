import Verif.Model.Logger

/-!
# What the log of a tracker process has to contain
-/

namespace Trax.Spec

/-- No line end inside. -/
def OneLine (l : Str) : Prop := ∀ c ∈ l, c ≠ ch%'\n'

/-- The bytes the tracker printed. -/
def printed : List LogEvent → Str
  | [] => []
  | .byte c :: es => c :: printed es
  | .idle :: es => printed es

/-- `Limited t text log`: `log` is `text` with every line cut so that, with its line end, it is at
most `t` bytes long. The last line has no line end yet; it gets one when it is cut. -/
inductive Limited (t : Nat) : Str → Str → Prop
  | last (l : Str) : OneLine l → l.length < t → Limited t l l
  | lastCut (l : Str) : OneLine l → t ≤ l.length → Limited t l (l.take (t - 1) ++ [ch%'\n'])
  | line (l text log : Str) : OneLine l → Limited t text log →
      Limited t (l ++ ch%'\n' :: text) (l.take (t - 1) ++ ch%'\n' :: log)

/-- Every line of the text, without its line end, has fewer than `n` bytes. -/
def LinesShorter (n : Nat) (text : Str) : Prop :=
  ∀ pre l post, text = pre ++ l ++ post → OneLine l → l.length < n

/-- The last thing that happened was the end of a line or an explicit flush. -/
def Settled (es : List LogEvent) : Prop := es.getLast? = some .idle ∨ es.getLast? = some (.byte ch%'\n')

end Trax.Spec
