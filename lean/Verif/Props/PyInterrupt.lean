import Verif.Spec.PyInterrupt
import Verif.Props.PyStart
import Verif.Lemmas.ReaderAscii

/-!
# Property theorems C157, C158: interrupted clients and failing constructors of Python programs
-/

namespace Trax
open Py Py.Spec Handle
open Trax.Spec (WellFormed)

/-! ## Lemmas -/

theorem clientSend_arguments (env : Env) (start : Bool) (h : Handle) (images : List (Text × Image)) (objects : Option (List (Region × Dict))) (properties : Dict) :
    clientSend env start h images objects properties = (callArguments env images objects properties).bind fun a => match a with
      | .error e => .ok (.error e, h)
      | .ok (timage, tobjects, tproperties) =>
        (if start then Handle.clientInitialize env h timage tobjects (some tproperties) else Handle.clientFrame env h timage (some tobjects) (some tproperties)).map fun (ret, h) =>
          (if statusDecode ret = some t!"error" then .error .trax else .ok (), h) := by
  unfold clientSend callArguments
  rw [wrapImages_ok]
  dsimp only [Outcome.bind]
  cases objects with
  | none => rfl
  | some objects =>
    dsimp only
    cases wrapObjects env objects with
    | ok x =>
      dsimp only [Outcome.bind]
      cases x with
      | error e => rfl
      | ok l =>
        cases propNew properties with
        | error e => rfl
        | ok p => rfl
    | abort => rfl
    | ub => rfl

theorem propSetAll_error : ∀ {d : Dict} {p : Properties} {e : Exc}, propSetAll p d = .error e → e = .unicode
  | [], _, _, h => by cases h
  | (k, v) :: d, p, e, h => by
    unfold propSetAll propSet toC at h
    cases hk : Text.encode k with
    | none => rw [hk] at h; cases h; rfl
    | some a =>
      rw [hk] at h
      cases hv : Text.encode v with
      | none => rw [hv] at h; cases h; rfl
      | some b => rw [hv] at h; exact propSetAll_error (d := d) h

theorem wrapObjectsLoop_error (env : Env) : ∀ {l : List (Region × Dict)} {i : Nat} {acc : ObjList} {e : Exc}, wrapObjectsLoop env l i acc = .ok (.error e) → e = .unicode
  | [], _, _, _, h => by cases h
  | (r, d) :: l, i, acc, e, h => by
    unfold wrapObjectsLoop at h
    cases hp : propNew d with
    | error x => rw [hp] at h; cases h; exact propSetAll_error hp
    | ok p =>
      rw [hp] at h
      dsimp only at h
      cases hs : ObjList.set env.legacy env.fresh acc i (some r) with
      | abort => rw [hs] at h; cases h
      | ub => rw [hs] at h; cases h
      | ok l' =>
        rw [hs] at h
        dsimp only [Outcome.bind] at h
        cases hq : ObjList.properties l' i with
        | none => rw [hq] at h; cases h
        | some q => rw [hq] at h; exact wrapObjectsLoop_error env h

theorem callArguments_error {env : Env} {images : List (Text × Image)} {objects : Option (List (Region × Dict))} {properties : Dict} {e : Exc}
    (h : callArguments env images objects properties = .ok (.error e)) : e ≠ .trax := by
  unfold callArguments at h
  rw [wrapImages_ok] at h
  dsimp only [Outcome.bind] at h
  cases objects with
  | none => cases h; exact fun h => nomatch h
  | some objects =>
    dsimp only at h
    cases hw : wrapObjects env objects with
    | abort => rw [hw] at h; cases h
    | ub => rw [hw] at h; cases h
    | ok x =>
      rw [hw] at h
      dsimp only [Outcome.bind] at h
      cases x with
      | error e' =>
        cases h
        rw [wrapObjectsLoop_error env hw]
        exact fun h => nomatch h
      | ok l =>
        cases hp : propNew properties with
        | error e' =>
          rw [hp] at h
          cases h
          rw [propSetAll_error hp]
          exact fun h => nomatch h
        | ok p => rw [hp] at h; cases h

theorem sendObjects_input (env : Env) (formats : UInt32) : ∀ (l : ObjList) (s s' : Stream), sendObjects env formats s l = .ok s' → s'.input = s.input
  | [], s, s', h => by cases h; rfl
  | (r, p) :: rest, s, s', h => by
    unfold sendObjects at h
    cases hr : regionArgument env formats r with
    | abort => rw [hr] at h; cases h
    | ub => rw [hr] at h; cases h
    | ok args =>
      rw [hr] at h
      exact (sendObjects_input env formats rest _ _ h).trans rfl

theorem clientFrame_input {env : Env} {h h' : Handle} {images : ImageList} {objects : Option ObjList} {props : Option Properties} {ret : Int}
    (e : Handle.clientFrame env h images objects props = .ok (ret, h')) : h'.stream.input = h.stream.input := by
  have hsend : ∀ g : Handle, ((encodeImages g.metadata.channels images channelIndexes).map fun args =>
        match args with
        | none => (TRAX_ERROR, g.setErrorGarbled)
        | some args => (TRAX_OK, { g with stream := g.stream.write .frame args (props.getD Properties.create) })) = .ok (ret, h') → h'.stream.input = g.stream.input := by
    intro g hg
    cases ha : encodeImages g.metadata.channels images channelIndexes with
    | abort => rw [ha] at hg; cases hg
    | ub => rw [ha] at hg; cases hg
    | ok args =>
      rw [ha] at hg
      cases args <;> (cases hg; rfl)
  unfold Handle.clientFrame at e
  dsimp only at e
  split at e
  · cases e
  split at e
  · cases e; rfl
  split at e
  · split at e
    · cases e; rfl
    · cases hs : sendObjects env h.clearError.metadata.regions h.clearError.stream (objects.getD []) with
      | abort => rw [hs] at e; cases e
      | ub => rw [hs] at e; cases e
      | ok st =>
        rw [hs] at e
        exact (hsend { h.clearError with stream := st, objects := h.clearError.objects + (objects.getD []).length } e).trans (sendObjects_input env _ _ h.clearError.stream st hs)
  · split at e
    · cases e; rfl
    · exact hsend h.clearError e

theorem clientInitialize_input {env : Env} {h h' : Handle} {images : ImageList} {objects : ObjList} {props : Option Properties} {ret : Int}
    (e : Handle.clientInitialize env h images objects props = .ok (ret, h')) : h'.stream.input = h.stream.input := by
  unfold Handle.clientInitialize at e
  dsimp only at e
  split at e
  · cases e
  split at e
  · cases e; rfl
  split at e
  · cases e; rfl
  split at e
  · cases e; rfl
  split at e
  · refine (clientFrame_input e).trans ?_
    split <;> rfl
  · split at e
    · cases e
    split at e
    · cases e
    · rename_i r _ _
      cases ha : encodeImages h.clearError.metadata.channels images channelIndexes with
      | abort => rw [ha] at e; cases e
      | ub => rw [ha] at e; cases e
      | ok args =>
        rw [ha] at e
        cases args with
        | none => cases e; rfl
        | some args =>
          dsimp only [Outcome.bind] at e
          cases hr : regionArgument env h.clearError.metadata.regions (some r) with
          | abort => rw [hr] at e; cases e
          | ub => rw [hr] at e; cases e
          | ok d => rw [hr] at e; cases e; rfl

/-! ## C157 -/

theorem send_plain (env : Env) (start : Bool) (s : Session) (images : List (Text × Image)) (objects : Option (List (Region × Dict))) (properties : Dict) (during : Bool)
    {x : Except Raised Unit} {s' : Session} (e : s.send env start images objects properties during = .ok (x, s')) :
    ∃ r, clientSend env start s.handle images objects properties = .ok (r, s'.handle) ∧ s'.handle.stream.input = s.handle.stream.input ∧
      ((Made r ∧ s'.interrupted = (s.interrupted || during) ∧
          x = (if s.interrupted || during then .error .keyboard else undisturbed (match r with | .ok () => .ok () | .error e => .error (.exc e)))) ∨
        ∃ e, e ≠ .trax ∧ r = .error e ∧ x = .error (.failed (.exc e)) ∧ s' = s) := by
  unfold Session.send at e
  rw [clientSend_arguments]
  cases ha : callArguments env images objects properties with
  | abort => rw [ha] at e; cases e
  | ub => rw [ha] at e; cases e
  | ok a =>
    rw [ha] at e
    cases a with
    | error ex =>
      cases e
      exact ⟨.error ex, rfl, rfl, .inr ⟨ex, callArguments_error ha, rfl, rfl, rfl⟩⟩
    | ok t =>
      obtain ⟨ti, to', tp⟩ := t
      dsimp only [Outcome.bind] at e ⊢
      cases hl : (if start then Handle.clientInitialize env s.handle ti to' (some tp) else Handle.clientFrame env s.handle ti (some to') (some tp)) with
      | abort => rw [hl] at e; cases e
      | ub => rw [hl] at e; cases e
      | ok q =>
        obtain ⟨ret, h⟩ := q
        rw [hl] at e
        dsimp only [Outcome.map, Outcome.bind] at e ⊢
        have hin : h.stream.input = s.handle.stream.input := by
          cases start
          · exact clientFrame_input hl
          · exact clientInitialize_input hl
        cases hb : (s.interrupted || during) with
        | true =>
          rw [hb, if_pos rfl] at e
          cases e
          refine ⟨_, rfl, hin, .inl ⟨?_, rfl, rfl⟩⟩
          split
          · exact .inr rfl
          · exact .inl rfl
        | false =>
          rw [hb, if_neg (by simp)] at e
          by_cases hs : statusDecode ret = some t!"error"
          · rw [if_pos hs] at e
            cases e
            refine ⟨.error .trax, by rw [if_pos hs], hin, .inl ⟨.inr rfl, rfl, ?_⟩⟩
            rfl
          · rw [if_neg hs] at e
            cases e
            refine ⟨.ok (), by rw [if_neg hs], hin, .inl ⟨.inl rfl, rfl, ?_⟩⟩
            rfl

theorem receive_plain (env : Env) (s : Session) (h0 : s.interrupted = false) :
    s.receive env false = (clientReceive env s.handle).map fun (r, h) => (undisturbed r, ⟨h, false⟩) := by
  unfold Session.receive clientReceive
  cases hw : Handle.clientWait env s.handle (some Properties.create) with
  | abort => rfl
  | ub => rfl
  | ok r =>
    dsimp only [Outcome.bind]
    rw [h0]
    simp only [Bool.or_self, Bool.false_eq_true, if_false]
    split
    · rfl
    split
    · cases propGet (r.props.getD Properties.create) t!"trax.reason" none <;> rfl
    · cases wrapObjectList env r.objects <;> rfl

/-- **C157, calls without interrupt.** As long as the user does not interrupt the logger, `initialize` and `frame` send what they send without logger, and then give the answer that is taken
from the input (what these are: C139); `quit` ends the session. -/
theorem C157_quiet (env : Env) (start : Bool) (h : Handle) (images : List (Text × Image)) (objects : Option (List (Region × Dict))) (properties : Dict)
    (arrives : Writer → List InEv) :
    (∀ e h', clientSend env start h images objects properties = .ok (.error e, h') →
      Session.call env start ⟨h, false⟩ images objects properties arrives false false = .ok (.error (.failed (.exc e)), ⟨h', false⟩)) ∧
    (∀ h', clientSend env start h images objects properties = .ok (.ok (), h') →
      Session.call env start ⟨h, false⟩ images objects properties arrives false false =
        (clientReceive env (after arrives h')).map fun (r, h) => (undisturbed r, ⟨h, false⟩)) ∧
    ∀ reason, Session.quit ⟨h, false⟩ reason false =
      (match (clientQuit h reason).1 with | .ok () => .ok () | .error e => .error (.failed (.exc e)), ⟨(clientQuit h reason).2, false⟩) := by
  have hsend : ∀ r h', clientSend env start h images objects properties = .ok (r, h') →
      Session.send env start ⟨h, false⟩ images objects properties false = .ok (match r with | .ok () => .ok () | .error e => .error (.failed (.exc e)), ⟨h', false⟩) := by
    intro r h' e
    rw [clientSend_arguments] at e
    unfold Session.send
    cases ha : callArguments env images objects properties with
    | abort => rw [ha] at e; cases e
    | ub => rw [ha] at e; cases e
    | ok a =>
      rw [ha] at e
      cases a with
      | error ex => cases e; rfl
      | ok t =>
        obtain ⟨ti, to', tp⟩ := t
        dsimp only [Outcome.bind] at e ⊢
        cases hl : (if start then Handle.clientInitialize env h ti to' (some tp) else Handle.clientFrame env h ti (some to') (some tp)) with
        | abort => rw [hl] at e; cases e
        | ub => rw [hl] at e; cases e
        | ok q =>
          obtain ⟨ret, g⟩ := q
          rw [hl] at e
          dsimp only [Outcome.map, Outcome.bind] at e ⊢
          simp only [Bool.or_self, Bool.false_eq_true, if_false]
          by_cases hs : statusDecode ret = some t!"error"
          · rw [if_pos hs] at e ⊢
            cases e; rfl
          · rw [if_neg hs] at e ⊢
            cases e; rfl
  refine ⟨fun e h' he => ?_, fun h' he => ?_, fun reason => ?_⟩
  · unfold Session.call
    rw [hsend _ _ he]
    rfl
  · unfold Session.call
    rw [hsend _ _ he]
    exact receive_plain env ⟨after arrives h', false⟩ rfl
  · unfold Session.quit clientQuit
    cases reason with
    | none => rfl
    | some t =>
      dsimp only
      cases toC t <;> rfl

/-- **C157, interrupts.** A call of a client that was not interrupted before raises `KeyboardInterrupt` exactly if the user interrupts the logger while the request is sent or while the client waits
for the answer. Missing from the full claim: calls after that one. -/
theorem C157_interrupt_partial (env : Env) (start : Bool) (s s' : Session) (images : List (Text × Image)) (objects : Option (List (Region × Dict))) (properties : Dict)
    (arrives : Writer → List InEv) (sending waiting : Bool) (r : Except Raised (List (Option Region × Dict))) (h0 : s.interrupted = false)
    (e : s.call env start images objects properties arrives sending waiting = .ok (r, s')) :
    ∃ sent h, clientSend env start s.handle images objects properties = .ok (sent, h) ∧
      (r = .error .keyboard ↔ Made sent ∧ (sending = true ∨ (sent = .ok () ∧ waiting = true))) ∧
      (Made sent → sending = true → s'.handle = h ∧ h.stream.input = s.handle.stream.input) ∧ (s'.interrupted = true ↔ r = .error .keyboard) := by
  unfold Session.call at e
  cases hs : s.send env start images objects properties sending with
  | abort => rw [hs] at e; cases e
  | ub => rw [hs] at e; cases e
  | ok q =>
    obtain ⟨x, s₁⟩ := q
    obtain ⟨sent, h1, hin, h2⟩ := send_plain env start s images objects properties sending hs
    rw [hs] at e
    dsimp only [Outcome.bind] at e
    refine ⟨sent, s₁.handle, h1, ?_⟩
    rw [h0, Bool.false_or] at h2
    rcases h2 with ⟨hm, hi, rfl⟩ | ⟨ex, hex, rfl, rfl, rfl⟩
    · cases sending with
      | true =>
        rw [if_pos rfl] at e
        cases e
        exact ⟨⟨fun _ => ⟨hm, .inl rfl⟩, fun _ => rfl⟩, fun _ _ => ⟨rfl, hin⟩, ⟨fun _ => rfl, fun _ => hi⟩⟩
      | false =>
        rw [if_neg (by simp)] at e
        rcases hm with rfl | rfl
        · dsimp only [undisturbed] at e
          unfold Session.receive at e
          dsimp only at e
          rw [hi] at e
          change ((Handle.clientWait env (after arrives s₁.handle) (some Properties.create)).bind _) = _ at e
          cases hw : Handle.clientWait env (after arrives s₁.handle) (some Properties.create) with
          | abort => rw [hw] at e; cases e
          | ub => rw [hw] at e; cases e
          | ok w =>
            rw [hw] at e
            dsimp only [Outcome.bind] at e
            cases waiting with
            | true =>
              simp only [Bool.or_true, if_true] at e
              cases e
              exact ⟨⟨fun _ => ⟨.inl rfl, .inr ⟨rfl, rfl⟩⟩, fun _ => rfl⟩, fun _ h => (nomatch h), ⟨fun _ => rfl, fun _ => rfl⟩⟩
            | false =>
              simp only [Bool.or_self, Bool.false_eq_true, if_false] at e
              have key : r ≠ .error .keyboard ∧ s'.interrupted = false := by
                split at e
                · cases e; exact ⟨fun h => (nomatch h), rfl⟩
                split at e
                · cases hp : propGet (w.props.getD Properties.create) t!"trax.reason" none with
                  | error ex => rw [hp] at e; cases e; exact ⟨fun h => (nomatch h), rfl⟩
                  | ok reason => rw [hp] at e; cases e; exact ⟨fun h => (nomatch h), rfl⟩
                · cases hp : wrapObjectList env w.objects with
                  | abort => rw [hp] at e; cases e
                  | ub => rw [hp] at e; cases e
                  | ok l => rw [hp] at e; cases e; exact ⟨fun h => (nomatch h), rfl⟩
              refine ⟨⟨fun h => absurd h key.1, ?_⟩, fun _ h => (nomatch h), ⟨fun h => ?_, fun h => absurd h key.1⟩⟩
              · rintro ⟨-, h | ⟨-, h⟩⟩ <;> cases h
              · rw [key.2] at h; cases h
        · cases e
          refine ⟨⟨fun h => (nomatch h), ?_⟩, fun _ h => (nomatch h), ⟨fun h => ?_, fun h => (nomatch h)⟩⟩
          · rintro ⟨-, h | ⟨h, -⟩⟩ <;> cases h
          · rw [hi] at h; cases h
    · cases e
      refine ⟨⟨fun h => (nomatch h), ?_⟩, ?_, ⟨fun h => ?_, fun h => (nomatch h)⟩⟩
      · rintro ⟨h | h, -⟩
        · cases h
        · cases h; exact absurd rfl hex
      · rintro (h | h)
        · cases h
        · cases h; exact absurd rfl hex
      · rw [h0] at h; cases h

/-- **C157, violated after an interrupt**: no call of the client returns any more, whatever it is and although nobody interrupts it; and nothing that the tracker answers is read, though requests are sent
to it. -/
theorem C157_later_false (env : Env) : ∀ (cs : List ClientCall) (s s' : Session) (rs : List (Option Raised)), s.interrupted = true → s.history env cs = .ok (rs, s') →
    (∀ r ∈ rs, r ≠ none) ∧ rs.length = cs.length ∧ s'.handle.stream.input = s.handle.stream.input ∧ s'.interrupted = true
  | [], s, s', rs, h0, e => by
    cases e
    exact ⟨by simp, rfl, rfl, h0⟩
  | c :: cs, s, s', rs, h0, e => by
    unfold Session.history at e
    cases hstep : s.step env c with
    | abort => rw [hstep] at e; cases e
    | ub => rw [hstep] at e; cases e
    | ok q =>
      obtain ⟨r, s₁⟩ := q
      rw [hstep] at e
      dsimp only [Outcome.bind] at e
      have key : r ≠ none ∧ s₁.handle.stream.input = s.handle.stream.input ∧ s₁.interrupted = true := by
        cases c with
        | request start images objects properties arrives sending waiting =>
          dsimp only [Session.step, Session.call] at hstep
          cases hs : s.send env start images objects properties sending with
          | abort => rw [hs] at hstep; cases hstep
          | ub => rw [hs] at hstep; cases hstep
          | ok q =>
            obtain ⟨x, s₂⟩ := q
            obtain ⟨sent, -, hin, h2⟩ := send_plain env start s images objects properties sending hs
            rw [hs] at hstep
            rw [h0, Bool.true_or, if_pos rfl] at h2
            rcases h2 with ⟨-, hi, rfl⟩ | ⟨ex, -, -, rfl, rfl⟩
            · cases hstep
              exact ⟨fun h => (nomatch h), hin, hi⟩
            · cases hstep
              exact ⟨fun h => (nomatch h), rfl, h0⟩
        | quit reason during =>
          have hterm : ∀ t, (s.handle.terminate t).2.stream.input = s.handle.stream.input := by
            intro t
            unfold Handle.terminate
            dsimp only
            split <;> rfl
          dsimp only [Session.step, Session.quit] at hstep
          cases reason with
          | none =>
            dsimp only at hstep
            rw [h0, Bool.true_or, if_pos rfl] at hstep
            cases hstep
            exact ⟨fun h => (nomatch h), hterm _, rfl⟩
          | some t =>
            dsimp only at hstep
            cases ht : toC t with
            | error ex =>
              rw [ht] at hstep
              cases hstep
              exact ⟨fun h => (nomatch h), rfl, h0⟩
            | ok b =>
              rw [ht] at hstep
              dsimp only [Except.map] at hstep
              rw [h0, Bool.true_or, if_pos rfl] at hstep
              cases hstep
              exact ⟨fun h => (nomatch h), hterm _, rfl⟩
      cases hh : s₁.history env cs with
      | abort => rw [hh] at e; cases e
      | ub => rw [hh] at e; cases e
      | ok q =>
        obtain ⟨rs', s₂⟩ := q
        rw [hh] at e
        cases e
        obtain ⟨i1, i2, i3, i4⟩ := C157_later_false env cs s₁ _ rs' key.2.2 hh
        refine ⟨?_, by simp [i2], i3.trans key.2.1, i4⟩
        intro x hx
        rcases List.mem_cons.1 hx with rfl | hx
        · exact key.1
        · exact i1 x hx

namespace Demo

/-- A client that was introduced to a tracker for several objects, before the first call. -/
def pyClient : Option Session := match serverSetup 0 metadata ⟨none, [], out⟩ 4 with
  | .ok s => match clientSetup ⟨none, Trax.Spec.bytes s.stream.out.sent, out⟩ with
    | .ok (some c) => some ⟨c, false⟩
    | _ => none
  | _ => none

/-- What the tracker answers to the request, whatever it was. -/
def pyAnswer : Writer → List InEv := fun _ => Trax.Spec.bytes b!"@@TRAX:state \"1.0000,2.0000,3.0000,4.0000\" \n"

/-- A request that starts tracking, and the interrupts during it. -/
def pyRequest (sending waiting : Bool) : ClientCall := .request true [(t!"color", image)] (some [(rectangle, [])]) [] pyAnswer sending waiting

end Demo

/-- Calls for which the hypotheses are met: the first returns; it raises `KeyboardInterrupt` when it is interrupted in one half or the other, and so do a later request and `quit`. -/
example : ((Demo.pyClient.map fun s => s.history Demo.env [Demo.pyRequest false false]).map fun o => o.map Prod.fst) = some (.ok [none]) ∧
    ((Demo.pyClient.map fun s => s.history Demo.env [Demo.pyRequest false true, Demo.pyRequest false false, .quit none false]).map fun o => o.map Prod.fst) =
      some (.ok [some .keyboard, some .keyboard, some .keyboard]) ∧
    ((Demo.pyClient.map fun s => s.history Demo.env [Demo.pyRequest true false, .quit (some [0xD800]) false]).map fun o => o.map Prod.fst) =
      some (.ok [some .keyboard, some (.failed (.exc .unicode))]) := by
  decide +kernel

/-! ## C158 -/

theorem clientSetup_alive {stream : Stream} {c : Handle} (h : clientSetup stream = .ok (some c)) : c.isAlive = true := by
  unfold clientSetup at h
  dsimp only at h
  split at h
  · cases h
  split at h
  · cases h
  obtain ⟨version, -, h⟩ := Region.bind_eq_ok h
  split at h
  · cases h
  split at h
  · cases h
  obtain ⟨channels, -, h⟩ := Region.bind_eq_ok h
  obtain ⟨multi, -, h⟩ := Region.bind_eq_ok h
  obtain ⟨m, hm, h⟩ := Region.map_eq_ok h
  cases h
  rfl

theorem serverSetup_alive {junk : UInt32} {m : Metadata} {stream : Stream} {v : Int} {c : Handle} (h : serverSetup junk m stream v = .ok c) : c.isAlive = true := by
  unfold serverSetup at h
  split at h
  · obtain ⟨m', -, h⟩ := Region.map_eq_ok h
    cases h
    rfl
  · cases h

theorem propSetAll_encodable : ∀ {d : Dict} (p : Properties), (∀ e ∈ d, Encodable e.1 ∧ Encodable e.2) → ∃ q, propSetAll p d = .ok q
  | [], p, _ => ⟨p, rfl⟩
  | (k, v) :: d, p, h => by
    obtain ⟨h1, h2⟩ := h (k, v) (by simp)
    obtain ⟨a, ha⟩ := encode_isSome.2 h1
    obtain ⟨b, hb⟩ := encode_isSome.2 h2
    obtain ⟨q, hq⟩ := propSetAll_encodable (d := d) (p.set (cstr a) (cstr b)) fun e he => h e (by simp [he])
    refine ⟨q, ?_⟩
    simp only [propSetAll, propSet, toC, ha, hb, Except.bind]
    exact hq

theorem propSetAll_unencodable : ∀ {d : Dict} (p : Properties), (∃ e ∈ d, ¬ (Encodable e.1 ∧ Encodable e.2)) → propSetAll p d = .error .unicode
  | [], _, h => by obtain ⟨e, he, -⟩ := h; simp at he
  | (k, v) :: d, p, h => by
    cases hp : propSetAll p ((k, v) :: d) with
    | error e => rw [propSetAll_error hp]
    | ok q =>
      exfalso
      unfold propSetAll propSet toC at hp
      cases hk : Text.encode k with
      | none => rw [hk] at hp; cases hp
      | some a =>
        rw [hk] at hp
        cases hv : Text.encode v with
        | none => rw [hv] at hp; cases hp
        | some b =>
          rw [hv] at hp
          obtain ⟨e, he, hn⟩ := h
          rcases List.mem_cons.1 he with rfl | he
          · exact hn ⟨encode_isSome.1 ⟨_, hk⟩, encode_isSome.1 ⟨_, hv⟩⟩
          · have := propSetAll_unencodable (d := d) (p.set (cstr a) (cstr b)) ⟨e, he, hn⟩
            change propSetAll (p.set (cstr a) (cstr b)) d = .ok q at hp
            rw [this] at hp
            cases hp

theorem seven_fromC {s : Str} (h : Seven s) : ∃ t, fromC s = .ok t := by
  have h' : ∀ c ∈ s.map UInt8.toNat, c < 128 := by
    intro c hc
    obtain ⟨b, hb, rfl⟩ := List.mem_map.1 hc
    exact h b hb
  have he : ascii (s.map UInt8.toNat) = s := by
    unfold ascii
    rw [List.map_map]
    conv_rhs => rw [← List.map_id s]
    exact List.map_congr_left fun b _ => UInt8.ofNat_toNat
  have := decode_encode (ascii_encode h')
  rw [he] at this
  exact ⟨_, by unfold fromC; rw [this]⟩

theorem clientSetup_texts {stream : Stream} {c : Handle} (h : clientSetup stream = .ok (some c)) :
    ∀ t, (c.metadata.name = some t ∨ c.metadata.family = some t ∨ c.metadata.description = some t) → Seven t := by
  have key : ∀ k t, (Option.map cstr (stream.read.1.props.get k)) = some t → Seven t := by
    intro k t ht
    obtain ⟨v, hv, rfl⟩ := Option.map_eq_some_iff.1 ht
    exact ((readMessage_ascii stream.mtype stream.input).1 k v hv).cstr
  unfold clientSetup at h
  dsimp only at h
  split at h
  · cases h
  split at h
  · cases h
  obtain ⟨version, -, h⟩ := Region.bind_eq_ok h
  split at h
  · cases h
  split at h
  · cases h
  obtain ⟨channels, -, h⟩ := Region.bind_eq_ok h
  obtain ⟨multi, -, h⟩ := Region.bind_eq_ok h
  obtain ⟨m, hm, h⟩ := Region.map_eq_ok h
  unfold Metadata.create at hm
  split at hm
  · cases hm
    cases h
    rintro t (ht | ht | ht)
    · exact key _ t ht
    · exact key _ t ht
    · exact key _ t ht
  · cases hm

theorem clientInfo_ok {stream : Stream} {c : Handle} (h : clientSetup stream = .ok (some c)) : ∃ i, clientInfo c = .ok i := by
  have key : ∀ o : Option Str, (∀ t, o = some t → Seven t) → ∃ x, textOrEmpty o = .ok x := by
    intro o ho
    cases o with
    | none => exact ⟨_, rfl⟩
    | some s => exact seven_fromC (ho s rfl)
  obtain ⟨n, hn⟩ := key c.metadata.name fun t ht => clientSetup_texts h t (.inl ht)
  obtain ⟨f, hf⟩ := key c.metadata.family fun t ht => clientSetup_texts h t (.inr (.inl ht))
  obtain ⟨d, hd⟩ := key c.metadata.description fun t ht => clientSetup_texts h t (.inr (.inr ht))
  unfold clientInfo
  rw [hn, hf, hd]
  exact ⟨_, rfl⟩

/-- **C158, clients.** Whatever arrives: if a tracker introduces itself, the constructor of a client with logger succeeds, unless it is interrupted, and the new client counts as not interrupted; and when it raises an exception, no handle remains that nobody
releases. Missing from the full claim: interrupted constructors. -/
theorem C158_client_partial (log : Bool) (stream : Stream) (r : Except Raised (ClientInfo × Session)) (rem : Remains) (e : clientNew log stream false = .ok (r, rem)) :
    rem.lost = [] ∧ (log = true → ((∃ h, clientSetup stream = .ok (some h)) ↔ ∃ a, r = .ok a)) ∧ ∀ i s, r = .ok (i, s) → s.interrupted = false := by
  unfold clientNew at e
  cases log with
  | false => cases e; exact ⟨rfl, fun h => (nomatch h), fun _ _ h => (nomatch h)⟩
  | true =>
    rw [if_neg (by decide)] at e
    obtain ⟨handle, hs, e⟩ := Region.map_eq_ok e
    rw [if_neg (by decide)] at e
    rw [hs]
    cases handle with
    | none =>
      cases e
      refine ⟨rfl, fun _ => ⟨?_, ?_⟩, fun _ _ h => (nomatch h)⟩
      · rintro ⟨h, h'⟩; cases h'
      · rintro ⟨a, h⟩; cases h
    | some c =>
      dsimp only at e
      rw [if_pos (clientSetup_alive hs)] at e
      obtain ⟨i, hi⟩ := clientInfo_ok hs
      rw [hi] at e
      cases e
      refine ⟨rfl, fun _ => ⟨fun _ => ⟨_, rfl⟩, fun _ => ⟨c, rfl⟩⟩, fun i s h => ?_⟩
      cases h
      rfl

/-- **C158, clients that are not interrupted** succeed and fail as C140 describes. -/
theorem C158_client_same (log : Bool) (stream : Stream) : ((clientNew log stream false).map fun x => (match x.1 with
      | .ok (i, s) => Except.ok (i, s.handle)
      | .error (.failed (.exc e)) => .error e
      | .error _ => .error .assertion : Except Exc (ClientInfo × Handle))) = clientInit log stream := by
  unfold clientNew clientInit
  cases log with
  | false => rfl
  | true =>
    rw [if_neg (by decide), if_neg (by decide)]
    cases clientSetup stream with
    | abort => rfl
    | ub => rfl
    | ok h =>
      cases h with
      | none => rfl
      | some h =>
        dsimp only [Outcome.map, Outcome.bind]
        rw [if_neg (by decide)]
        by_cases ha : h.isAlive
        · rw [if_pos ha, if_pos ha]
          cases clientInfo h <;> rfl
        · rw [if_neg ha, if_neg ha]

/-- **C158, servers.** When the constructor of a server returns or raises an exception, the description of the tracker that it made is released, whatever is declared, if the custom properties are texts
that can be encoded; and it succeeds and fails as C140 describes. Missing from the full claim: other properties. -/
theorem C158_server_partial (junk : UInt32) (a : ServerArgs) (stream : Stream) :
    (serverNew junk a stream).map Prod.fst = serverInit junk a stream ∧
    ∀ r lost, (∀ e ∈ a.custom, Encodable e.1 ∧ Encodable e.2) → serverNew junk a stream = .ok (r, lost) → lost = [] := by
  constructor
  · unfold serverNew serverInit ServerArgs.metadata
    cases a.encoded with
    | error e => rfl
    | ok t =>
      obtain ⟨⟨r, i, c⟩, n, d, f⟩ := t
      dsimp only
      cases Metadata.create (.ofNat r) (.ofNat i) (.ofNat c) (some n) (some d) (some f) (if a.multiobject then 1 else 0) with
      | abort => rfl
      | ub => rfl
      | ok m =>
        dsimp only [Outcome.bind, Outcome.map]
        cases propSetAll m.custom a.custom with
        | error e => rfl
        | ok custom =>
          dsimp only [Except.map]
          cases serverSetup junk { m with custom } stream 0 <;> rfl
  · intro r lost he e
    unfold serverNew at e
    cases ha : a.encoded with
    | error x => rw [ha] at e; cases e; rfl
    | ok t =>
      rw [ha] at e
      obtain ⟨⟨r', i, c⟩, n, d, f⟩ := t
      dsimp only at e
      obtain ⟨m, -, e⟩ := Region.bind_eq_ok e
      obtain ⟨q, hq⟩ := propSetAll_encodable (d := a.custom) m.custom he
      rw [hq] at e
      obtain ⟨h, -, e⟩ := Region.map_eq_ok e
      cases e
      rfl

/-- A client whose tracker has a name that is not UTF-8, and one whose tracker says something else first. -/
example : (clientNew true ⟨none, Trax.Spec.bytes (b!"@@TRAX:hello \"trax.version=4\" \"trax.region=rectangle;\" \"trax.image=path;\" \"trax.channels=color;\" \"trax.name=" ++ [0xFF] ++ b!"\" \n"),
      Demo.out⟩ false).map (fun x => (x.1.toOption.isSome, x.2.lost.length)) = .ok (true, 0) ∧
    (clientNew true ⟨none, Trax.Spec.bytes b!"@@TRAX:quit \n", Demo.out⟩ false).map (fun x => (x.1.toOption.isSome, x.2.lost.length)) = .ok (false, 0) := by
  decide +kernel

/-- **C158, violated for interrupted constructors**: the handle of a tracker that has introduced itself is lost, alive, and nothing is sent to the tracker. -/
theorem C158_interrupted_false (stream : Stream) (h : Handle) (hs : clientSetup stream = .ok (some h)) :
    clientNew true stream true = .ok (.error .keyboard, ⟨[h], []⟩) ∧ h.isAlive = true ∧ h.stream.out = stream.out := by
  refine ⟨?_, clientSetup_alive hs, ?_⟩
  · unfold clientNew
    rw [if_neg (by decide), hs]
    rfl
  · unfold clientSetup at hs
    dsimp only at hs
    split at hs
    · cases hs
    split at hs
    · cases hs
    obtain ⟨version, -, hs⟩ := Region.bind_eq_ok hs
    split at hs
    · cases hs
    split at hs
    · cases hs
    obtain ⟨channels, -, hs⟩ := Region.bind_eq_ok hs
    obtain ⟨multi, -, hs⟩ := Region.bind_eq_ok hs
    obtain ⟨m, hm, hs⟩ := Region.map_eq_ok hs
    cases hs
    rfl

/-- Such a tracker. -/
example : Demo.pyClient.isSome = true := by decide +kernel

/-- **C158, violated for custom properties that cannot be encoded**: of every server that could start, a description remains when one of its custom properties is replaced by such a text. -/
theorem C158_metadata_false (junk : UInt32) (a : ServerArgs) (stream : Stream) (s : Handle) (hs : serverInit junk a stream = .ok (.ok s)) (custom : Dict)
    (hc : ∃ e ∈ custom, ¬ (Encodable e.1 ∧ Encodable e.2)) :
    ∃ m, serverNew junk { a with custom } stream = .ok (.error .unicode, [m]) := by
  unfold serverInit ServerArgs.metadata at hs
  unfold serverNew
  rw [show ServerArgs.encoded { a with custom } = a.encoded from rfl]
  cases ha : a.encoded with
  | error e => rw [ha] at hs; cases hs
  | ok t =>
    rw [ha] at hs
    obtain ⟨⟨r, i, c⟩, n, d, f⟩ := t
    dsimp only at hs ⊢
    obtain ⟨m', hm', -⟩ := Region.bind_eq_ok hs
    obtain ⟨m, hm, -⟩ := Region.map_eq_ok hm'
    rw [hm, Outcome.bind_ok, propSetAll_unencodable m.custom hc]
    exact ⟨m, rfl⟩

example : ((serverInit 0 ⟨[t!"rectangle"], [t!"path"], [t!"color"], t!"demo", [], [], [], false⟩ ⟨none, [], Demo.out⟩).map fun r => r.toOption.isSome) = .ok true ∧
    ∃ e ∈ ([(t!"a", [0xD800])] : Dict), ¬ (Encodable e.1 ∧ Encodable e.2) := by
  refine ⟨by decide +kernel, (t!"a", [0xD800]), by simp, ?_⟩
  unfold Encodable
  decide

end Trax
