import Verif.Model.ChildStatus

/-!
# What is said of a child
-/

namespace Trax.Child.Spec

/-- The status of a child that has ended: its code (what is left of it in eight bits), or the number of the signal, negative. -/
def status : Fate → Int
  | .exit code => code % 256
  | .signal n _ => -n

/-- Signals have the numbers 1 to 64. -/
def Real : Fate → Prop
  | .exit _ => True
  | .signal n _ => 1 ≤ n ∧ n ≤ 64

/-- What is known of a child: it runs; it has ended, but nobody has asked since; it has ended, and the object knows. -/
inductive Known where
  | running
  | ended (f : Fate)
  | noticed (f : Fate)

/-- The replies that are expected while no other child is started. -/
def expected (sp : Spawned) : Known → List Step → List Reply
  | _, [] => []
  | k, .start _ :: rest => .done false :: expected sp k rest
  | .running, .isAlive :: rest => .alive true (some 0) :: expected sp .running rest
  | .ended f, .isAlive :: rest => .alive false (some (status f)) :: expected sp (.noticed f) rest
  | .noticed f, .isAlive :: rest => .alive false (some (status f)) :: expected sp (.noticed f) rest
  | .ended f, .stop :: rest => .done true :: expected sp (.noticed f) rest
  | .ended f, .kill :: rest => .done true :: expected sp (.noticed f) rest
  | k, .stop :: rest => .done true :: expected sp k rest
  | k, .kill :: rest => .done true :: expected sp k rest
  | .noticed f, .input :: rest => .number (some (-1)) :: expected sp (.noticed f) rest
  | .noticed f, .output :: rest => .number (some (-1)) :: expected sp (.noticed f) rest
  | .noticed f, .error :: rest => .number (some (-1)) :: expected sp (.noticed f) rest
  | .noticed f, .handle :: rest => .number (some 0) :: expected sp (.noticed f) rest
  | k, .input :: rest => .number (some sp.stdin) :: expected sp k rest
  | k, .output :: rest => .number (some sp.stdout) :: expected sp k rest
  | k, .error :: rest => .number (some sp.stderr) :: expected sp k rest
  | k, .handle :: rest => .number (some sp.pid) :: expected sp k rest
  | .running, .ends f :: rest => expected sp (.ended f) rest
  | k, .ends _ :: rest => expected sp k rest

end Trax.Child.Spec
