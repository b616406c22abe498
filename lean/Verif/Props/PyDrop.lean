import Verif.Spec.PyDrop
import Verif.Lemmas.LogCalls
import Verif.Props.Handle
import Verif.Props.PyStart

/-!
# Properties: the end of clients and servers in Python
-/

namespace Trax

open Handle Py.Drop
open Trax.Spec (wire)

private theorem told_eq (l : List LogCall) : Told l = l.flatMap LogCall.str := by
  induction l with
  | nil => rfl
  | cons c l ih => cases c <;> simp [Told, LogCall.str, ih]

private theorem cleanup_dead {h : Handle} (ha : h.isAlive = false) : h.cleanup.2 = h.stream.out := by
  have : h.clearError.alive = false := ha
  simp only [cleanup, terminate, this, Bool.false_eq_true, not_false_eq_true, if_true]
  rfl

private theorem others (s : Session) (n : Nat) : releaseAll s (List.replicate n .other) = .ok s := by
  induction n with
  | zero => rfl
  | succ n ih => simp [List.replicate_succ, releaseAll, release, Outcome.bind_ok, ih]

/-- The two kinds of objects go in the same way: first the log function, then the handle. -/
private theorem drop_eq {s : Session} {h : Handle} (hs : IsSession s h) {s' : Session} (ha : s'.attrs = s.attrs) :
    drop s' = releaseHandle { s' with callback := if s'.callback = .null then .null else .released } := by
  have key : ∀ o : Outcome Session, o.bind (fun s => .ok s) = o := fun o => by cases o <;> rfl
  obtain ⟨attrs, handle, callback, log⟩ := s'
  dsimp only at ha
  unfold drop
  rcases hs with rfl | ⟨log, rfl⟩
  · simp only [ha, clientObject, List.cons_append, List.nil_append, releaseAll, release, Outcome.bind_ok, others, key]
  · simp only [ha, serverObject, releaseAll, release, Outcome.bind_ok, key]

private theorem handle_eq {s : Session} {h : Handle} (hs : IsSession s h) : s.handle = .running h := by
  rcases hs with rfl | ⟨log, rfl⟩ <;> rfl

private theorem calls_dead {h : Handle} (ha : h.isAlive = false) (r : Option Str) : terminateCalls h r = [] := by
  have : h.alive = false := ha
  simp [terminateCalls, this]

private theorem calls_alive {h : Handle} (ha : h.isAlive = true) (r : Option Str) : terminateCalls h r ≠ [] := by
  have : h.alive = true := ha
  simp [terminateCalls, this, Writer.messageCalls]

/-- C145: a Python program drops its client or server. If the session has ended before, or if nothing is logged, then the handle is released, and the peer is told the
end of the session if it has not been before.

Missing: open sessions with a log (`C145_drop_false`). -/
theorem C145_drop_partial (s : Session) (h : Handle) (hs : IsSession s h) (hsafe : h.isAlive = false ∨ s.callback = .null) :
    ∃ s' out, drop s = .ok s' ∧ s'.handle = .ended out ∧
      (h.isAlive = false → out.sent = h.stream.out.sent) ∧
      (h.isAlive = true → h.stream.out.Reliable → out.sent = h.stream.out.sent ++ wire .quit [] []) := by
  refine ⟨{ s with callback := if s.callback = .null then .null else .released, handle := .ended h.cleanup.2 }, h.cleanup.2,
    (drop_eq hs rfl).trans ?_, rfl, fun ha => by rw [cleanup_dead ha], fun ha hout => ?_⟩
  · simp only [releaseHandle, handle_eq hs]
    rcases hsafe with ha | hn
    · rw [calls_dead ha]
      unfold report
      cases s.callback <;> rfl
    · simp only [report, hn, if_true]
      rfl
  · have h1 := ((C52_terminate_once Demo.env h ha hout none nofun).2 [] [] _ (.nil _)).1
    simpa [cleanup] using h1

/-- A server without log whose session is open, and a client whose session has ended. -/
example : ((Demo.server 4 []).any fun h => h.isAlive && decide ((serverObject false h).callback = .null) && decide h.stream.out.Reliable) = true ∧
    ((Demo.client 4 []).any fun h => (h.terminate none).2.isAlive == false) = true := by decide +kernel

/-- C145 does not hold for clients and for servers with a log while the session is open: the memory of the log function is released before the handle, and
`trax_cleanup` calls the function when it sends the message that ends the session. -/
theorem C145_drop_false (s : Session) (h : Handle) (hs : IsSession s h) (ha : h.isAlive = true) (hlog : s.callback ≠ .null) : drop s = .ub := by
  rw [drop_eq hs rfl]
  simp only [releaseHandle, handle_eq hs, report, if_neg hlog, if_neg (calls_alive ha none)]
  rfl

/-- This is the case of every client, and of every server with a log. -/
example : (∀ h, (clientObject h).callback ≠ .null) ∧ ∀ h, (serverObject true h).callback ≠ .null := ⟨fun _ h => (by cases h), fun _ h => (by cases h)⟩

/-- C145: the session of an object has ended when the peer has ended it. -/
theorem C145_peer (env : Env) (h : Handle) (props : Option Properties) :
    (∀ w, h.clientWait env props = .ok w → w.ret = TRAX_QUIT → ∃ s', drop (clientObject w.handle) = .ok s') ∧
    ∀ fuel w log, h.serverWaitMot env fuel props = some (.ok w) → w.ret = TRAX_QUIT → ∃ s', drop (serverObject log w.handle) = .ok s' := by
  have dead : ∀ h : Handle, h.terminated = true → h.isAlive = false := fun h ht => by simp [isAlive, alive, ht]
  refine ⟨fun w hw hq => ?_, fun fuel w log hw hq => ?_⟩
  · obtain ⟨s', -, h1, -⟩ := C145_drop_partial (clientObject w.handle) w.handle (.inl rfl) (.inl (dead _ ((C53_quit_terminates env h props none).2.1 w hw hq)))
    exact ⟨s', h1⟩
  · obtain ⟨s', -, h1, -⟩ := C145_drop_partial (serverObject log w.handle) w.handle (.inr ⟨log, rfl⟩) (.inl (dead _ ((C53_quit_terminates env h props none).2.2.2 fuel w hw hq)))
    exact ⟨s', h1⟩

example : (Demo.waitMot b!"@@TRAX:quit \n").map (·.ret) = some TRAX_QUIT := by decide +kernel

private theorem quit_told {h : Handle} (ha : h.isAlive = true) (hout : h.stream.out.Reliable) (r : Option Str) (hr : ∀ s, r = some s → NoNul s) :
    Told (terminateCalls h r) = wire .quit [] (reasonPairs r) ∧ (h.terminate r).2.stream.out.sent = h.stream.out.sent ++ wire .quit [] (reasonPairs r) ∧
    (h.terminate r).2.isAlive = false := by
  have hp : (r.map fun s => (b!"trax.reason", s)).toList = reasonPairs r := by cases r <;> rfl
  obtain ⟨h1, -, -, h4, -⟩ := (C52_terminate_once Demo.env h ha hout r hr).2 [] [] _ (.nil _)
  rw [hp] at h1
  refine ⟨?_, h1, h4⟩
  have ha' : h.alive = true := ha
  have hpr : Trax.Spec.LogProper (.write h.stream.out .quit [] (quitProperties r)) := by
    refine ⟨fun hx => hout.1 _ hx rfl, hout.2, ?_, nofun⟩
    cases r with
    | none => exact ⟨[], rfl⟩
    | some s => exact ⟨[(b!"trax.reason", s)], rfl⟩
  obtain ⟨text, p1, p2, -⟩ := calls_passed _ hpr
  have e1 : (h.terminate r).2.stream.out = h.stream.out.writeMessage .quit [] (quitProperties r) := by
    have : h.clearError.alive = true := ha
    simp only [terminate, this, not_true_eq_false, if_false]
    rfl
  have e2 : h.stream.out.sent ++ text = h.stream.out.sent ++ wire .quit [] (reasonPairs r) := by
    rw [← h1, e1]; exact p1.symm
  rw [told_eq]
  simp only [terminateCalls, ha', not_true_eq_false, if_false]
  exact p2.trans (List.append_cancel_left e2)

/-- C145: when the program ends the session with `quit` before it drops the object, with or without a reason, all is well: the peer gets one message, the log function
is told exactly this message, and the handle is released. The same holds for a server, whose handle is released by `quit`. -/
theorem C145_quit (h : Handle) (ha : h.isAlive = true) (hout : h.stream.out.Reliable) (reason : Option Py.Text) (r : Option Str)
    (hr : reason.map Py.Text.encode = r.map some) (hn : ∀ s, r = some s → NoNul s) :
    (∃ s1 s2 out, clientEnd (clientObject h) reason = .ok (.ok (), s1) ∧ drop s1 = .ok s2 ∧ s2.handle = .ended out ∧
      out.sent = h.stream.out.sent ++ wire .quit [] (reasonPairs r) ∧ Told s2.log = wire .quit [] (reasonPairs r)) ∧
    ∀ log, ∃ s1 s2 out, serverEnd (serverObject log h) reason = .ok (.ok (), s1) ∧ s1.handle = .ended out ∧ drop s1 = .ok s2 ∧ s2.handle = .ended out ∧
      out.sent = h.stream.out.sent ++ wire .quit [] (reasonPairs r) ∧ (log = true → Told s2.log = wire .quit [] (reasonPairs r)) := by
  have hrc : reasonC reason = .ok r := by
    cases reason with
    | none => cases r with
      | none => rfl
      | some s => simp at hr
    | some t => cases r with
      | none => simp at hr
      | some s =>
        simp only [Option.map_some, Option.some.injEq] at hr
        simp only [reasonC, Py.toC, hr, cstr_of_noNul (hn s rfl)]
        rfl
  obtain ⟨t1, t2, t3⟩ := quit_told ha hout r hn
  have hc := cleanup_dead t3
  refine ⟨?_, fun log => ?_⟩
  · refine ⟨{ clientObject h with log := terminateCalls h r, handle := .running (h.terminate r).2 },
      { clientObject h with log := terminateCalls h r, callback := .released, handle := .ended (h.terminate r).2.cleanup.2 },
      (h.terminate r).2.cleanup.2, ?_, ?_, ?_, ?_, ?_⟩
    · simp [clientEnd, clientObject, hrc, report]
      rfl
    · refine (drop_eq (s := clientObject h) (h := h) (.inl rfl)
        (s' := { clientObject h with log := terminateCalls h r, handle := .running (h.terminate r).2 }) rfl).trans ?_
      simp only [releaseHandle, calls_dead t3, clientObject, report]
      rfl
    · rfl
    · rw [hc, t2]
    · exact t1
  · refine ⟨{ serverObject log h with log := if log then terminateCalls h r else [], handle := .ended (h.terminate r).2.cleanup.2 },
      { serverObject log h with
        log := if log then terminateCalls h r else [], callback := if log then .released else .null, handle := .ended (h.terminate r).2.cleanup.2 },
      (h.terminate r).2.cleanup.2, ?_, ?_, ?_, ?_, ?_, ?_⟩
    · cases log <;> simp [serverEnd, serverObject, hrc, report, Outcome.bind_ok, releaseHandle, calls_dead t3] <;> rfl
    · rfl
    · refine (drop_eq (s := serverObject log h) (h := h) (.inr ⟨log, rfl⟩)
        (s' := { serverObject log h with log := if log then terminateCalls h r else [], handle := .ended (h.terminate r).2.cleanup.2 }) rfl).trans ?_
      cases log <;> rfl
    · rfl
    · rw [hc, t2]
    · rintro rfl
      exact t1

example : ((Demo.client 4 []).any fun h => h.isAlive && decide h.stream.out.Reliable) = true ∧
    (some t!"done").map Py.Text.encode = (some b!"done").map some ∧ (∀ s, some b!"done" = some s → NoNul s) := by
  refine ⟨by decide +kernel, by decide +kernel, ?_⟩
  rintro s ⟨⟩
  unfold NoNul
  decide

/-- C145 does not hold for a server that quits twice, as it does when the program calls `quit` in a `with` block: an exception is raised. -/
theorem C145_twice_false (s s1 : Session) (reason reason' : Option Py.Text) (h1 : serverEnd s reason = .ok (.ok (), s1)) :
    serverEnd s1 reason' = .ok (.error .attribute, s1) := by
  unfold serverEnd at h1
  split at h1
  · simp at h1
  · next h hh =>
    split at h1
    · simp at h1
    · next r hr =>
      obtain ⟨s2, h2, h1⟩ := Region.bind_eq_ok h1
      obtain ⟨s3, h3, h1⟩ := Region.map_eq_ok h1
      simp only [Prod.mk.injEq, true_and] at h1
      subst h1
      simp only [releaseHandle] at h3
      obtain ⟨s4, h4, h3⟩ := Region.map_eq_ok h3
      subst h3
      simp [serverEnd]

end Trax
