import Verif.Model.Port

/-!
# Property theorem C68: the port given to the tracker
-/

namespace Trax

theorem tryPorts_spec (free : Int → Bool) (n : Nat) : ∀ next : Int, 9090 ≤ next → next ≤ 65535 →
    9090 ≤ (tryPorts free n next).2 ∧ (tryPorts free n next).2 ≤ 65535 ∧
    ∀ port, (tryPorts free n next).1 = some port → free port = true ∧ 9090 ≤ port ∧ port ≤ 65535 ∧
      (port ≠ 65535 → (tryPorts free n next).2 = port + 1) := by
  induction n with
  | zero => intro next h1 h2; exact ⟨h1, h2, by simp [tryPorts]⟩
  | succ n ih =>
    intro next h1 h2
    unfold tryPorts
    have hn : 9090 ≤ (if next + 1 > 65535 then traxDefaultPort else next + 1) ∧
        (if next + 1 > 65535 then traxDefaultPort else next + 1) ≤ 65535 := by
      unfold traxDefaultPort
      split <;> omega
    by_cases hf : free next = true
    · simp only [hf, if_true]
      refine ⟨hn.1, hn.2, ?_⟩
      intro port hp
      cases hp
      refine ⟨hf, h1, h2, fun hne => ?_⟩
      rw [if_neg (by omega)]
    · simp only [hf]
      exact ih _ hn.1 hn.2

/-- **C68** (partial): in every history of tracker processes, whatever ports are taken by others at
each time, a process that was set up listens on a port that was free, between 9090 and 65535, and
gives this port to the tracker, unless it is port 65535.

Missing: port 65535, for which it is false (`C68_wrap_false`). -/
theorem C68_port_partial (history : List (Int → Bool)) (i : Nat) (s : ServerSocket)
    (h : (openServerSockets traxDefaultPort history)[i]? = some (some s)) :
    (∃ free, history[i]? = some free ∧ free s.listening = true) ∧ 9090 ≤ s.listening ∧ s.listening ≤ 65535 ∧
      (s.listening ≠ 65535 → s.socketPort = s.listening) := by
  have key : ∀ (history : List (Int → Bool)) (next : Int), 9090 ≤ next → next ≤ 65535 → ∀ (i : Nat) (s : ServerSocket),
      (openServerSockets next history)[i]? = some (some s) →
      (∃ free, history[i]? = some free ∧ free s.listening = true) ∧ 9090 ≤ s.listening ∧ s.listening ≤ 65535 ∧
      (s.listening ≠ 65535 → s.socketPort = s.listening) := by
    intro history
    induction history with
    | nil => intro next _ _ i s h; simp [openServerSockets] at h
    | cons free rest ih =>
      intro next h1 h2 i s h
      obtain ⟨g1, g2, g3⟩ := tryPorts_spec free 10 next h1 h2
      have e2 : (openServerSocket free next).2 = (tryPorts free 10 next).2 := by
        unfold openServerSocket; split <;> simp_all
      rw [openServerSockets, e2] at h
      cases i with
      | succ i => exact ih _ g1 g2 i s (by simpa using h)
      | zero =>
        rw [List.getElem?_cons_zero, Option.some.injEq] at h
        unfold openServerSocket at h
        split at h
        · next port next' he =>
          rw [he] at g3
          cases h
          obtain ⟨k1, k2, k3, k4⟩ := g3 port rfl
          refine ⟨⟨free, rfl, k1⟩, k2, k3, fun hne => ?_⟩
          have := k4 hne
          simp only at this ⊢
          omega
        · cases h
  exact key history traxDefaultPort (by decide) (by decide) i s h

/-- The first port is taken by another program, and the second process takes the next port. -/
example : openServerSockets traxDefaultPort [fun p => p != 9090, fun p => p != 9090 && p != 9091, fun _ => false] =
    [some ⟨9091, 9091⟩, some ⟨9092, 9092⟩, none] := by decide +kernel

theorem openServerSockets_free (n : Nat) : ∀ next : Int, 9090 ≤ next → next + n ≤ 65535 → ∀ free : Int → Bool, free (next + n) = true →
    (openServerSockets next (List.replicate n (fun _ => true) ++ [free]))[n]? = (openServerSockets (next + n) [free])[0]? := by
  induction n with
  | zero => intro next _ _ free _; simp
  | succ n ih =>
    intro next h1 h2 free hf
    have e2 : (openServerSocket (fun _ => true) next).2 = next + 1 := by
      unfold openServerSocket tryPorts
      simp only [if_true]
      rw [if_neg (by push_cast at h2; omega)]
    rw [List.replicate_succ, List.cons_append, openServerSockets, List.getElem?_cons_succ, e2]
    have e3 : next + ((n + 1 : Nat) : Int) = next + 1 + n := by push_cast; omega
    rw [e3] at hf ⊢
    exact ih (next + 1) (by omega) (by push_cast at h2; omega) free hf

/-- The full claim of C68 is false: a program that has run 56445 tracker processes gives port 9089
to the next one, but listens on port 65535. -/
theorem C68_wrap_false (n : Nat) (hn : n = 56445) :
    (openServerSockets traxDefaultPort (List.replicate n (fun _ => true) ++ [fun _ => true]))[n]? = some (some ⟨65535, 9089⟩) := by
  rw [openServerSockets_free n traxDefaultPort (by decide) (by subst hn; decide) _ rfl]
  have : traxDefaultPort + (n : Int) = 65535 := by subst hn; rfl
  rw [this]
  decide +kernel

end Trax
