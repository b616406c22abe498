import Verif.Model.TrackerProcess

/-!
# What the tracker process is meant to guarantee
-/

namespace Trax.Proc.Spec

/-- Every frame and every wait goes to a tracker that was initialized before. -/
def Ordered (log : List Event) : Prop :=
  ∀ before e g after, log = before ++ .exchange e g :: after → e ≠ .init → .exchange .init g ∈ before

/-- Was the current tracker process given a target? `known` says so before a call; calls that may have started another process
make it unknown, an initialization without an exception makes it known. -/
def known (before : Bool) : Op × Result → Bool
  | (.query, .value false) => before
  | (.query, _) => false
  | (.reset, _) => false
  | (.init, .value _) => true
  | (.init, .thrown) => false
  | _ => before

/-- A history in which the program initializes the tracker after each start of a process, before it sends frames or waits. -/
def Disciplined : Bool → List (Op × Result) → Prop
  | _, [] => True
  | b, x :: rest => (x.1 = .wait ∨ x.1 = .frame → b = true) ∧ Disciplined (known b x) rest

/-- The world after `n` questions to the operating system. -/
def after {σ : Type} (W : World σ) : Nat → σ → σ
  | 0, w => w
  | n + 1, w => after W n (W.poll w).2

/-- The answer to question number `n`. -/
def answer {σ : Type} (W : World σ) (n : Nat) (w : σ) : Poll := (W.poll (after W n w)).1

/-- The exit status for an answer that says that the process is gone. -/
def ended : Poll → Option Int
  | .exited code => some code
  | .signalled sig => some (-sig)
  | _ => none

end Trax.Proc.Spec
