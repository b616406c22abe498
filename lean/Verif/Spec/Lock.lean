import Verif.Model.Lock

/-!
# What a recursive lock is meant to guarantee
-/

namespace Trax.Lock.Spec

/-- How often thread `t` has taken the lock without giving it back: a release by a thread that has not taken it does not count. -/
def depth (t : Nat) : List Event → Nat
  | [] => 0
  | e :: earlier => match e with
    | .acquired u => if u = t then depth t earlier + 1 else depth t earlier
    | .released u => if u = t then depth t earlier - 1 else depth t earlier

/-- The same for a log in which the latest event is the last one. -/
def held (t : Nat) (log : List Event) : Nat := depth t log.reverse

end Trax.Lock.Spec
