import Verif.Model.Sockets

/-!
# Specification for C134: sockets and descriptors
-/

namespace Trax.Net.Spec

/-- The system gives new descriptors only: none that is in use (POSIX). -/
structure Fresh {σ : Type} (K : Kernel σ) : Prop where
  socket : ∀ t w fd, (K.socket t w).1 = some fd → t fd = none
  accept : ∀ t w fd, (K.accept t w).1 = some fd → t fd = none

/-- No call of `setsockopt` fails, everyone who connects says `hello`, and the descriptor 0 is in use so that no socket gets it. -/
structure Obliging {σ : Type} (K : Kernel σ) : Prop where
  reuse : ∀ w, (K.call .reuse w).1 = true
  nodelay : ∀ w, (K.call .nodelay w).1 = true
  hello : ∀ w, (K.call .hello w).1 = true
  zero : ∀ t w, (K.socket t w).1 ≠ some 0

/-- What the program does itself is in order: a file that it opens gets a descriptor that is not in use, it closes only files that it has
opened, and it does not overwrite an object or a handle that it still has. -/
def InOrder {σ : Type} (s : Sys σ) : Op → Prop
  | .openFile fd => s.table fd = none
  | .closeFile fd => s.table fd = some .user
  | .construct k => s.listeners k = none
  | .accept h _ => s.handles h = none
  | .files h _ _ => s.handles h = none
  | .connect h _ => s.handles h = none
  | .destroy _ | .cleanup _ => True

/-- A program all of whose steps are in order. -/
inductive Program {σ : Type} (K : Kernel σ) : List Op → Sys σ → Prop
  | nil {s} : Program K [] s
  | held {op ops s} : s.waiting = true → Program K (op :: ops) s
  | cons {op ops s} : InOrder s op → (∀ s', step K s op = .ok s' → Program K ops s') → Program K (op :: ops) s

/-- A process with no files and no objects. -/
def start {σ : Type} (w : σ) : Sys σ := ⟨fun _ => none, fun _ => none, fun _ => none, false, w⟩

/-- Is this file of the user open after a step, if it was open or not before? -/
def userFile (fd : Nat) (before : Bool) : Op → Bool
  | .openFile n => if n = fd then true else before
  | .closeFile n => if n = fd then false else before
  | _ => before

/-- Which files the user has open, going by the user's own calls alone. -/
def userFiles (ops : List Op) (fd : Nat) : Bool := ops.foldl (userFile fd) false

end Trax.Net.Spec
