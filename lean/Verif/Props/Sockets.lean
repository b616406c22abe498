import Verif.Lemmas.Sockets

/-!
# Property theorem C134: sockets and descriptors
-/

namespace Trax

open Net Net.Spec

/-- The history of the files of the user that belongs to a program. -/
theorem net_run_inv {σ : Type} {K : Kernel σ} (hK : Fresh K) : ∀ (ops : List Op) (s s' : Sys σ), Inv s → Program K ops s → run K ops s = .ok s' →
    Inv s' ∧ ∃ done, done <+: ops ∧ (s'.waiting = false → done = ops) ∧ ∀ n, s'.table n = some .user ↔ done.foldl (UserAfter n) (s.table n = some .user)
  | [], s, s', hi, _, h => by
    cases h
    exact ⟨hi, [], List.prefix_refl _, fun _ => rfl, fun _ => Iff.rfl⟩
  | op :: ops, s, s', hi, hp, h => by
    unfold run at h
    by_cases hw : s.waiting = true
    · rw [if_pos hw] at h
      cases h
      exact ⟨hi, [], List.nil_prefix, fun e => (by rw [hw] at e; cases e), fun _ => Iff.rfl⟩
    · rw [if_neg hw] at h
      cases hp with
      | held e => exact absurd e hw
      | cons ho hp =>
        cases e : step K s op with
        | ok s₁ =>
          rw [e] at h
          obtain ⟨hi₁, hu⟩ := step_inv hK hi ho e
          obtain ⟨hi', done, h1, h2, h3⟩ := net_run_inv hK ops s₁ s' hi₁ (hp s₁ e) h
          refine ⟨hi', op :: done, ?_, fun e => by rw [h2 e], fun n => ?_⟩
          · obtain ⟨r, hr⟩ := h1
            exact ⟨r, by rw [← hr]; rfl⟩
          · rw [h3 n, List.foldl_cons, propext (hu n)]
        | abort => rw [e] at h; cases h
        | ub => rw [e] at h; cases h

theorem userFiles_iff (n : Nat) : ∀ (ops : List Op) (b : Bool), (ops.foldl (userFile n) b = true) ↔ ops.foldl (UserAfter n) (b = true)
  | [], _ => Iff.rfl
  | op :: ops, b => by
    simp only [List.foldl_cons]
    rw [userFiles_iff n ops]
    have : ∀ p q : Prop, (p ↔ q) → (ops.foldl (UserAfter n) p ↔ ops.foldl (UserAfter n) q) := fun p q h => by rw [propext h]
    apply this
    cases op <;> simp only [UserAfter, userFile]
    all_goals split <;> simp_all

/-- **C134, the files of the user.** Whatever the system answers and whatever the program does with trackers, clients, servers and files of
its own: the files of the user that are open are those that the user has opened and not closed. The library never closes one of
them. (If the program is held up in a call, the steps after it do not count.) -/
theorem C134_user_files {σ : Type} (K : Kernel σ) (hK : Fresh K) (ops : List Op) (w : σ) (hp : Program K ops (start w)) (s : Sys σ)
    (h : run K ops (start w) = .ok s) :
    ∃ done, done <+: ops ∧ (s.waiting = false → done = ops) ∧ ∀ n, s.table n = some .user ↔ userFiles done n = true := by
  obtain ⟨-, done, h1, h2, h3⟩ := net_run_inv hK ops (start w) s ⟨fun _ _ e => (by cases e), fun _ _ e => by cases e⟩ hp h
  refine ⟨done, h1, h2, fun n => ?_⟩
  rw [h3 n]
  unfold userFiles
  rw [userFiles_iff n done false]
  exact iff_of_eq (congrArg (fun p => done.foldl (UserAfter n) p) (by simp [start]))

theorem net_run_owned {σ : Type} {K : Kernel σ} (hK : Fresh K) (hO : Obliging K) : ∀ (ops : List Op) (s s' : Sys σ), Inv s → Owned s → Program K ops s →
    run K ops s = .ok s' → s'.waiting = false → Owned s'
  | [], s, s', _, hw, _, h, _ => by cases h; exact hw
  | op :: ops, s, s', hi, how, hp, h, hf => by
    unfold run at h
    by_cases hw : s.waiting = true
    · rw [if_pos hw] at h
      cases h
      rw [hw] at hf
      cases hf
    · rw [if_neg hw] at h
      cases hp with
      | held e => exact absurd e hw
      | cons ho hp =>
        cases e : step K s op with
        | ok s₁ =>
          rw [e] at h
          by_cases hw₁ : s₁.waiting = true
          · have : s' = s₁ := by
              cases ops with
              | nil => cases h; rfl
              | cons op' ops =>
                simp only [Outcome.bind_ok, run, if_pos hw₁] at h
                exact (Outcome.ok.inj h).symm
            rw [this, hw₁] at hf
            cases hf
          · exact net_run_owned hK hO ops s₁ s' (step_inv hK hi ho e).1 (step_owned hK hO hi how ho e (by simpa using hw₁)) (hp s₁ e) h hf
        | abort => rw [e] at h; cases h
        | ub => rw [e] at h; cases h

/-- **C134, no descriptor is lost, if `setsockopt` does not fail, everyone who connects says `hello` and descriptor 0 is in use.** At every
point of a program that is not held up in a call, every open descriptor is a file of the user, the listening socket of a tracker object
that still exists, or the socket of a handle that has not been cleaned up. So when these are gone only the files of the user are open. -/
theorem C134_no_descriptor_lost_partial {σ : Type} (K : Kernel σ) (hK : Fresh K) (hO : Obliging K) (ops : List Op) (w : σ)
    (hp : Program K ops (start w)) (s : Sys σ) (h : run K ops (start w) = .ok s) (hw : s.waiting = false) :
    (∀ n f, s.table n = some f → f = .user ∨ (∃ k, s.listeners k = some (n : Int)) ∨ ∃ h, s.handles h = some (.socket n)) ∧
    ((∀ k, s.listeners k = none) → (∀ h, s.handles h = none) → ∀ n, (s.table n).isSome ↔ userFiles ops n = true) := by
  have ho := net_run_owned hK hO ops (start w) s ⟨fun _ _ e => (by cases e), fun _ _ e => by cases e⟩ ⟨fun _ _ e => (by cases e), fun _ _ e => by cases e⟩ hp h hw
  have hall : ∀ n f, s.table n = some f → f = .user ∨ (∃ k, s.listeners k = some (n : Int)) ∨ ∃ h, s.handles h = some (.socket n) := fun n f e => by
    cases f with
    | user => exact .inl rfl
    | listener k => exact .inr (.inl ⟨k, ho.listener n k e⟩)
    | connection k => exact .inr (.inr ⟨k, ho.handle n k e⟩)
  refine ⟨hall, fun hl hh n => ?_⟩
  obtain ⟨done, -, hd, hu⟩ := C134_user_files K hK ops w hp s h
  rw [← hd hw, ← hu n]
  constructor
  · intro hs
    obtain ⟨f, hf⟩ := Option.isSome_iff_exists.1 hs
    rcases hall n f hf with e | ⟨k, e⟩ | ⟨k, e⟩
    · rw [hf, e]
    · rw [hl k] at e; cases e
    · rw [hh k] at e; cases e
  · intro e; rw [e]; rfl

/-- The lowest of the first descriptors that is not in use. -/
def lowestFree (t : Table) : Option Nat := (List.range 64).find? fun n => (t n).isNone

/-- A system in which each call of a kind fails or not, always in the same way. -/
def demoKernel (works : Call → Bool) : Kernel Unit := ⟨fun t w => (lowestFree t, w), fun t w => (lowestFree t, w), fun c w => (works c, w)⟩

theorem demoKernel_fresh (works : Call → Bool) : Fresh (demoKernel works) := by
  have : ∀ t fd, lowestFree t = some fd → t fd = none := fun t fd h => by
    have := List.find?_some h
    simpa using this
  exact ⟨fun t w fd h => this t fd h, fun t w fd h => this t fd h⟩

/-- A system that is obliging: its sockets begin at 3. -/
def obligingKernel : Kernel Unit :=
  ⟨fun t w => ((List.range 64).find? fun n => decide (n ≥ 3) && (t n).isNone, w), fun t w => (lowestFree t, w), fun _ w => (true, w)⟩

/-- The hypotheses are met: a client with two trackers over sockets and a file of its own; at the end the file is open and nothing
else. -/
example : Fresh obligingKernel ∧ Obliging obligingKernel ∧
    (let ops : List Op := [.openFile 0, .construct 0, .accept 0 3, .construct 1, .accept 1 5, .cleanup 0, .destroy 0, .accept 2 5, .cleanup 1, .cleanup 2, .destroy 1]
     Program obligingKernel ops (start ()) ∧ ∃ s, run obligingKernel ops (start ()) = .ok s ∧ s.waiting = false ∧
       (∀ n, n < 10 → ((s.table n).isSome ↔ n = 0))) := by
  refine ⟨⟨fun t w fd h => ?_, fun t w fd h => ?_⟩, ⟨fun _ => rfl, fun _ => rfl, fun _ => rfl, fun t w h => ?_⟩, ?_, _, rfl, rfl, ?_⟩
  · have := List.find?_some h
    simp only [Bool.and_eq_true, Option.isNone_iff_eq_none] at this
    exact this.2
  · have := List.find?_some h
    simpa using this
  · have := List.find?_some h
    simp at this
  · repeat (refine .cons (by first | rfl | trivial) fun s' e => ?_; cases Outcome.ok.inj e)
    exact .nil
  · decide +kernel

/-- **C134, violated: a tracker that connects and does not say `hello`.** `trax_client_setup_socket` gives NULL and leaves the connection
open; there is no handle with which it could be closed. -/
theorem C134_no_hello_false :
    let K := demoKernel fun c => decide (c ≠ .hello)
    let ops : List Op := [.openFile 0, .construct 0, .accept 0 1, .destroy 0]
    Program K ops (start ()) ∧ ∃ s, run K ops (start ()) = .ok s ∧ s.waiting = false ∧ (∀ k, s.listeners k = none) ∧ (∀ h, s.handles h = none) ∧
      s.table 2 = some (.connection 0) := by
  refine ⟨?_, _, rfl, rfl, fun k => ?_, fun _ => rfl, by decide +kernel⟩
  · repeat (refine .cons (by first | rfl | trivial) fun s' e => ?_; cases Outcome.ok.inj e)
    exact .nil
  · show upd (upd _ 0 _) 0 none k = none
    unfold upd
    split <;> rfl

/-- **C134, violated: `setsockopt` fails.** The new socket of a tracker object, or the accepted connection, stays open. -/
theorem C134_setsockopt_false :
    (let K := demoKernel fun c => decide (c ≠ .reuse)
     ∃ s, run K [.openFile 0, .construct 0] (start ()) = .ok s ∧ s.listeners 0 = none ∧ ∀ n, n < 10 → (s.table (n + 1)).isSome) ∧
    (let K := demoKernel fun c => decide (c ≠ .nodelay)
     ∃ s, run K [.openFile 0, .construct 0, .accept 0 1] (start ()) = .ok s ∧ s.handles 0 = none ∧ s.table 2 = some (.connection 0)) := by
  refine ⟨⟨_, rfl, by decide +kernel, by decide +kernel⟩, _, rfl, by decide +kernel, by decide +kernel⟩

/-- **C134, violated: descriptor 0.** In a program whose standard input is closed the first socket gets descriptor 0; the constructor
takes this for a failure, tries the next port, and forgets the first socket. -/
theorem C134_descriptor_zero_false :
    let K := demoKernel fun _ => true
    ∃ s, run K [.construct 0, .destroy 0] (start ()) = .ok s ∧ s.listeners 0 = none ∧ s.table 0 = some (.listener 0) := by
  exact ⟨_, rfl, by decide +kernel, by decide +kernel⟩

/-- **C134, violated: the server side.** If `setsockopt` fails, `trax_server_setup` closes its socket and then tries forever, whatever
the client does, to connect with it: after any number of rounds it is still there. If there is no descriptor left it uses a stream
that is not there. -/
theorem C134_connect_false {σ : Type} (K : Kernel σ) (hK : Fresh K) (s : Sys σ) (h rounds : Nat) :
    (∀ fd, (K.socket s.table s.world).1 = some fd → (∀ w, (K.call .nodelay w).1 = false) →
      ∃ s', step K s (.connect h rounds) = .ok s' ∧ s'.waiting = true ∧ s'.handles h = s.handles h ∧ s'.table = s.table) ∧
    ((K.socket s.table s.world).1 = none → step K s (.connect h rounds) = .ub) := by
  constructor
  · intro fd hs hn
    have hf := hK.socket _ _ _ hs
    simp only [step, socketConnect]
    generalize K.socket s.table s.world = q at hs
    obtain ⟨o, w⟩ := q
    cases hs
    simp only [Kernel.on, hn w, Bool.false_and, close_opened hf]
    have hl := connectLoop_closed (K := K) (t := s.table) (sid := fd) (by simp [Table.isOpen, hf]) rounds (K.call .nodelay w).2
    generalize connectLoop K s.table fd rounds (K.call .nodelay w).2 = q at hl
    obtain ⟨b, w'⟩ := q
    cases hl
    exact ⟨_, rfl, rfl, rfl, rfl⟩
  · intro hs
    simp only [step, socketConnect]
    generalize K.socket s.table s.world = q at hs
    obtain ⟨o, w⟩ := q
    cases hs
    rfl

/-- The hypotheses are met. -/
example : (∀ w, ((demoKernel fun c => decide (c ≠ .nodelay)).call .nodelay w).1 = false) ∧
    ((demoKernel fun c => decide (c ≠ .nodelay)).socket (start ()).table ()).1 = some 0 ∧
    ((demoKernel fun _ => true).socket (fun _ => some .user) ()).1 = none := by
  exact ⟨fun _ => rfl, by decide +kernel, by decide +kernel⟩

end Trax
