import Verif.Model.Descriptors

/-!
# Descriptors, as the user of the library sees them
-/

namespace Trax.Fds.Spec
open Trax.Fds

/-- An end of a pipe. -/
def PipeEnd : File → Prop
  | .user _ => False
  | .readEnd _ => True
  | .writeEnd _ => True

/-- A file is open in the client or in one of the trackers that are running. The reader of a pipe sees
its end only if the other end is not open any more. -/
def Held (s : Sys) (f : File) : Prop :=
  (∃ fd, s.table.get fd = some f) ∨ ∃ j t, s.children j = some t ∧ ∃ fd, t.get fd = some f

/-- Before the first tracker: the client has files of its own. -/
def Initial (s : Sys) : Prop :=
  (∀ fd f, s.table.get fd = some f → ¬ PipeEnd f) ∧ (∀ k, s.procs k = none) ∧ ∀ k, s.children k = none

/-- What the theorems ask for: an object is started once, making its pipes does not fail, and the user
closes no descriptors but theirs. -/
def Careful (s : Sys) : Op → Prop
  | .launch k _ _ result => s.procs k = none ∧ ∀ n, result ≠ .noPipe n
  | .userClose fd => ∀ f, s.table.get fd = some f → ¬ PipeEnd f
  | _ => True

/-- A history all of whose events are careful. -/
def CarefulRun : Sys → List Op → Prop
  | _, [] => True
  | s, o :: os => Careful s o ∧ CarefulRun (s.step o) os

/-- The state can be reached. -/
def Reachable (s : Sys) : Prop := ∃ s0 h, Initial s0 ∧ CarefulRun s0 h ∧ s0.run h = s

/-- An event that is not an action of the user. -/
def Library : Op → Prop
  | .userOpen _ => False
  | .userClose _ => False
  | _ => True

/-- No tracker is started. -/
def NoLaunch : Op → Prop
  | .launch .. => False
  | _ => True

end Trax.Fds.Spec
