import Verif.Props.MexExchange

/-!
# C130: the life of a session of the MATLAB function `traxserver`
-/

namespace Trax
open Mex Spec Region Handle

theorem not_anyCase {op name : Str} (hop : NoNul op) (hn : ∀ c ∈ name, 97 ≤ c.toNat ∧ c.toNat ≤ 122) (h : ¬ AnyCase op name) :
    lower (cstr op) ≠ name := by
  rw [cstr_of_noNul hop]
  exact fun e => h ((anyCase_lower hn).mp e)

theorem yes_anyCase {op name : Str} (hn : ∀ c ∈ name, 97 ≤ c.toNat ∧ c.toNat ≤ 122) (h : AnyCase op name) : lower (cstr op) = name := by
  rw [cstr_of_noNul (anyCase_noNul hn h)]
  exact (anyCase_lower hn).mpr h

/-- A client that waits for a reply hears that the server quits. -/
theorem quit_heard (env : Env) (receiver : Handle) (hr : receiver.isAlive = true) (hsrv : receiver.server = false) (hobj : 0 < receiver.objects) (reason : Str)
    (hreason : Plain reason) (rest : List InEv) (hin : receiver.stream.input = bytes (wire .quit [] (quitProperties (some reason)).enumerate) ++ rest) :
    ∃ a, Cpp.clientWaitRegion env (some receiver) none Properties.create = .ok a ∧ a.ret = TRAX_QUIT ∧ a.props.get b!"trax.reason" = some reason := by
  have hwf : (quitProperties (some reason)).WF := Properties.wf_set Properties.wf_create _ _
  have hread := receiver.stream.read_wire .quit [] _ hwf (quit_deliverable hreason) rest hin
  have ha : receiver.terminated = false := by simpa [isAlive, alive] using hr
  have hget : (copyAll (quitProperties (some reason)) Properties.create).get b!"trax.reason" = some reason := by
    rw [copyAll_get hwf Properties.wf_create (by decide)]
    have : (quitProperties (some reason)).get b!"trax.reason" = some reason := by
      unfold quitProperties
      rw [Properties.get_set Properties.wf_create, if_pos rfl, cstr_of_noNul (plain_noNul hreason)]
    rw [this]; rfl
  obtain ⟨k, hk⟩ : ∃ k, receiver.objects = k + 1 := ⟨receiver.objects - 1, by omega⟩
  refine ⟨⟨TRAX_QUIT, none, none, copyAll (quitProperties (some reason)) Properties.create, some { receiver with
      terminated := true, stream := { receiver.stream with mtype := some .quit, input := rest } }⟩, ?_, rfl, hget⟩
  simp only [Cpp.clientWaitRegion, clientWait, hsrv, alive, ha, hk, clientWaitLoop, hread]
  rfl

/-- **C130, what is not a call.** A call whose first argument is not a text, or not one of the four operations, is an error and changes nothing. -/
theorem C130_unknown_partial (sr : Surroundings) (fuel nlhs : Nat) (args : List Arg) (st : Mex.State)
    (h : ∀ op rest, args = .mx (.text op) :: rest → NoNul op ∧ ∀ w ∈ [b!"setup", b!"wait", b!"status", b!"quit"], ¬ AnyCase op w) :
    traxserver sr fuel nlhs args st = some (.ok (.error, st)) := by
  match args, h with
  | [], _ => rfl
  | .cell _ _ _ :: _, _ => rfl
  | .struct _ :: _, _ => rfl
  | .logical _ :: _, _ => rfl
  | .mx (.bytes _ _ _) :: _, _ => rfl
  | .mx (.double _ _ _) :: _, _ => rfl
  | .mx (.file _ _) :: _, _ => rfl
  | .mx (.text op) :: rest, h =>
    obtain ⟨h1, h2⟩ := h op rest rfl
    unfold traxserver
    dsimp only [List.head?_cons]
    rw [if_neg (not_anyCase h1 (by decide) (h2 _ (by decide))), if_neg (not_anyCase h1 (by decide) (h2 _ (by decide))),
      if_neg (not_anyCase h1 (by decide) (h2 _ (by decide))), if_neg (not_anyCase h1 (by decide) (h2 _ (by decide)))]

/-- **C130, before and after a session.** Without a session, `quit` does nothing, every call but `setup` is an error, whatever the other arguments,
and there is still no session. -/
theorem C130_no_session_partial (sr : Surroundings) (fuel nlhs : Nat) (op : Str) (hn : NoNul op) (hop : ¬ AnyCase op b!"setup") (rest : List Arg)
    (closed : List Writer) :
    ∃ r, traxserver sr fuel nlhs (.mx (.text op) :: rest) ⟨none, closed⟩ = some (.ok (r, ⟨none, closed⟩)) ∧
      (AnyCase op b!"quit" → r = .values []) ∧ (¬ AnyCase op b!"quit" → r = .error) := by
  unfold traxserver
  dsimp only [List.head?_cons]
  rw [if_neg (not_anyCase hn (by decide) hop)]
  by_cases h4 : AnyCase op b!"quit"
  · have e := yes_anyCase (by decide) h4
    rw [e, if_neg (by decide), if_neg (by decide), if_pos rfl]
    exact ⟨_, rfl, fun _ => rfl, fun h => absurd h4 h⟩
  · refine ⟨.error, ?_, fun h => absurd h h4, fun _ => rfl⟩
    rw [if_neg (not_anyCase (name := b!"quit") hn (by decide) h4)]
    split_ifs <;> rfl

/-- **C130, the client ends the session.** The wait gives empty results, as many as are asked for. The server object is gone: there is no session any more, and nothing
more was sent. -/
theorem C130_client_quits_partial (sr : Surroundings) (c s : Handle) (n : Nat) (hc : Connected c s n) (closed : List Writer) (reason : Option Str)
    (hr : ∀ t, reason = some t → Plain t) (fuel nlhs : Nat) (hf : 1 ≤ fuel) (hn : nlhs ≤ 3) (args : List Arg) (b : Bool) (hargs : WaitArgs args b) :
    traxserver sr fuel nlhs args ⟨some (deliver c (c.terminate reason).2 s), closed⟩ =
      some (.ok (.values (List.replicate nlhs .empty), ⟨none, closed ++ [s.stream.out]⟩)) := by
  have hsent : (c.terminate reason).2.stream.out.sent = c.stream.out.sent ++ wire .quit [] (quitProperties reason).enumerate := by
    have := ((C52_terminate_once Demo.env c hc.alive.1 hc.reliable.1 reason (fun t ht => plain_noNul (hr t ht))).2 [] [] _ (.nil _)).1
    rw [this, quitProperties_enumerate]
    cases reason with
    | none => rfl
    | some t => simp [cstr_of_noNul (plain_noNul (hr t rfl))]
  have hwf : (quitProperties reason).WF := by
    cases reason with
    | none => exact Properties.wf_create
    | some t => exact Properties.wf_set Properties.wf_create _ _
  have hdel : Deliverable [] (quitProperties reason).enumerate := by
    cases reason with
    | none => exact ⟨by simp, by simp, by rw [quitProperties_enumerate]; simp, by rw [quitProperties_enumerate]; simp⟩
    | some t => exact quit_deliverable (hr t rfl)
  rw [deliver_new hc.quiet.2 hsent]
  have hread := Stream.read_wire { s.stream with input := bytes (wire .quit [] (quitProperties reason).enumerate) } .quit [] _ hwf hdel []
    (by simp)
  have ha : s.terminated = false := by simpa [Handle.isAlive, Handle.alive] using hc.alive.2
  have hcount : ∃ k, ImageList.count s.metadata.channels = .ok k := by
    rw [count_eq]
    have : s.metadata.channels.toNat < 2 ^ 31 := by
      have h := congrArg UInt32.toNat hc.known
      rw [UInt32.toNat_and] at h
      have := Nat.and_le_right (n := s.metadata.channels.toNat) (m := (7 : UInt32).toNat)
      have e : (7 : UInt32).toNat = 7 := rfl
      omega
    rw [if_pos this]
    exact ⟨_, rfl⟩
  obtain ⟨k, hk⟩ := hcount
  obtain ⟨w1, op, rest, rfl, hop⟩ := waitArgs_ok hargs
  obtain ⟨fuel, rfl⟩ : ∃ f, fuel = f + 1 := ⟨fuel - 1, by omega⟩
  have hsw : ∃ p, Cpp.serverWaitRegion sr.env (fuel + 1) (some { s with stream := { s.stream with input := bytes (wire .quit [] (quitProperties reason).enumerate) } })
      none Properties.create = some (.ok ⟨TRAX_QUIT, none, none, p, some { s.clearError with terminated := true, stream := { s.stream with mtype := some .quit, input := [] } }⟩) := by
    refine ⟨copyExternal (quitProperties reason) Properties.create, ?_⟩
    unfold Cpp.serverWaitRegion Handle.serverWaitMot
    dsimp only
    rw [if_neg (by simp [hc.sides.2]), if_neg (by simp [Handle.clearError, Handle.alive, ha])]
    simp only [Handle.clearError] at *
    rw [hk]
    dsimp only
    unfold Handle.waitMotLoop
    dsimp only
    rw [hread]
    rfl
  obtain ⟨p, hsw⟩ := hsw
  unfold traxserver
  dsimp only [List.head?_cons]
  rw [yes_anyCase (by decide) hop, if_neg (by decide), if_pos rfl]
  unfold wait
  dsimp only
  rw [w1]
  dsimp only
  rw [if_neg (by omega), hsw, Option.map_some, Outcome.bind_ok]
  unfold Mex.received
  dsimp only
  rw [if_neg (by decide), if_neg (by decide), if_neg (by decide)]
  match nlhs, hn with
  | 0, _ => rfl
  | 1, _ => rfl
  | 2, _ => rfl
  | 3, _ => rfl

/-- **C130, the tracker ends the session.** `traxserver('quit', reason)` says so to the client, once, with the reason, and there is no session any more. A
client that waits for a reply hears it. -/
theorem C130_tracker_quits_partial (sr : Surroundings) (c s : Handle) (n : Nat) (hc : Connected c s n) (closed : List Writer) (reason : Str) (hr : Plain reason)
    (op : Str) (hop : AnyCase op b!"quit") (fuel nlhs : Nat) :
    ∃ w news, traxserver sr fuel nlhs [.mx (.text op), .mx (.text reason)] ⟨some s, closed⟩ = some (.ok (.values [], ⟨none, closed ++ [w]⟩)) ∧
      w.sent = s.stream.out.sent ++ news ∧
      ∀ (env : Env) (receiver : Handle) (rest : List InEv), receiver.isAlive = true → receiver.server = false → 0 < receiver.objects →
        receiver.stream.input = bytes news ++ rest →
        ∃ a, Cpp.clientWaitRegion env (some receiver) none Properties.create = .ok a ∧ a.ret = TRAX_QUIT ∧ a.props.get b!"trax.reason" = some reason := by
  have h0 : NoNul reason := plain_noNul hr
  refine ⟨(s.terminate (some reason)).2.cleanup.2, wire .quit [] (quitProperties (some reason)).enumerate, ?_, ?_, fun env receiver rest h1 h2 h3 h4 => ?_⟩
  · unfold traxserver
    dsimp only [List.head?_cons]
    rw [yes_anyCase (by decide) hop, if_neg (by decide), if_neg (by decide), if_neg (by decide), if_pos rfl]
    unfold quit
    dsimp only
    rw [if_neg (by simp)]
    have e : argAt [Arg.mx (.text op), .mx (.text reason)] 1 = .ok (.mx (.text reason)) := rfl
    rw [e, Outcome.bind_ok, getString_text h0, Outcome.bind_ok]
    rfl
  · have := ((C52_terminate_once Demo.env s hc.alive.2 hc.reliable.2 (some reason) (by rintro t ⟨⟩; exact h0)).2 [] [] _ (.nil _)).2.2.1
    rw [this, terminate_sent s hc.alive.2 hc.reliable.2 reason hr]
  · exact quit_heard env receiver h1 h2 h3 reason hr rest h4

/-- **C130 fails.** `traxserver('quit')`, as the documentation and the test programs write it, reads beyond its arguments if there is a session. So does a `wait` with one more
argument. A second `setup` makes a new session, but the first is never ended. -/
theorem C130_life_false :
    (∃ c s, Connected c s 0 ∧ traxserver Demo.matlab 9 0 [.mx (.text b!"quit")] ⟨some s, []⟩ = some .ub ∧
      traxserver Demo.matlab 9 0 [.mx (.text b!"wait"), .mx (.text b!"PropStruct")] ⟨some s, []⟩ = some .ub) ∧
    ∃ c s s', Connected c s 0 ∧ traxserver Demo.matlab 9 0 [.mx (.text b!"setup"), .mx (.text b!"rectangle"), .mx (.text b!"path")] ⟨some s, []⟩ =
      some (.ok (.values [], ⟨some s', []⟩)) ∧ s'.objects = 0 := by
  have : (Demo.pair.any fun (c, s) => decide (Connected c s 0) &&
      (traxserver Demo.matlab 9 0 [.mx (.text b!"quit")] ⟨some s, []⟩ matches some .ub) &&
      (traxserver Demo.matlab 9 0 [.mx (.text b!"wait"), .mx (.text b!"PropStruct")] ⟨some s, []⟩ matches some .ub) &&
      match traxserver Demo.matlab 9 0 [.mx (.text b!"setup"), .mx (.text b!"rectangle"), .mx (.text b!"path")] ⟨some s, []⟩ with
      | some (.ok (.values [], ⟨some s', []⟩)) => decide (s'.objects = 0)
      | _ => false) = true := by decide +kernel
  obtain ⟨⟨c, s⟩, -, h⟩ := any_some this
  simp only [Bool.and_eq_true, decide_eq_true_eq] at h
  obtain ⟨⟨⟨h1, h2⟩, h3⟩, h4⟩ := h
  refine ⟨⟨c, s, h1, ?_, ?_⟩, c, s, ?_⟩
  · split at h2
    · assumption
    · cases h2
  · split at h3
    · assumption
    · cases h3
  · split at h4
    · next s' e => exact ⟨s', h1, e, by simpa using h4⟩
    · cases h4

/-- A session, the end by the client, and the end by the tracker. -/
example : ∃ c s, Connected c s 0 ∧ WaitArgs [.mx (.text b!"wait")] false := by
  have : (Demo.pair.any fun (c, s) => decide (Connected c s 0)) = true := by decide +kernel
  obtain ⟨⟨c, s⟩, -, h⟩ := any_some this
  exact ⟨c, s, by simpa using h, .plain _ ((anyCase_lower (by decide)).mp rfl)⟩

end Trax
