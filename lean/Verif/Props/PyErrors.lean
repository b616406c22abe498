import Verif.Lemmas.PyErrors
import Verif.Props.PySession

/-!
# Property theorems C165: what the exceptions of the Python package tell
-/

namespace Trax
open Py Py.Spec Handle
open Trax.Spec (Refused deliver Connected bytes)
open Region (bind_eq_ok map_eq_ok)

/-- **C165, sending.** Whenever `initialize` or `frame` of a client fails before the request is sent, for any state of the client and any arguments, then either the arguments could not be
passed to the library (a text that cannot be encoded, or no objects at all; the client is as before), or the exception says what was tried and the library's explanation, which is there.
Missing from the full claim: where the explanation has a number in it, that is indeterminate; failures while waiting. -/
theorem C165_send_partial (env : Env) (start : Bool) (c : Handle) (images : List (Text × Image)) (objects : Option (List (Region × Dict))) (properties : Dict)
    (r : Thrown) (c' : Handle) (hr : clientSendText env start c images objects properties = .ok (.error r, c')) :
    Explains (attempt start) c'.getError r ∨ (c' = c ∧ (r = .exc .unicode ∨ (r = .exc .type ∧ objects = none))) := by
  obtain ⟨⟨x, g⟩, hx, e⟩ := map_eq_ok hr
  obtain ⟨e1, rfl⟩ := Prod.mk.inj e
  rcases clientSend_cases hx with ⟨rfl, -⟩ | ⟨rfl, ht⟩ | ⟨rfl, rfl | ⟨rfl, ho⟩⟩
  · cases e1
  · cases e1
    exact .inl (raiseTold_explains ht)
  · cases e1; exact .inr ⟨rfl, .inl rfl⟩
  · cases e1; exact .inr ⟨rfl, .inr ⟨rfl, ho⟩⟩

theorem objectList_length (objects : List (Region × Dict)) : (Trax.Spec.objectList (plainObjects objects)).length = objects.length := by
  simp [Trax.Spec.objectList, plainObjects]

/-- **C165, requests that are not allowed.** The exception of a client says which rule was broken. -/
theorem C165_refused_partial (env : Env) (start : Bool) (c : Handle) (hs : c.server = false) (images : List (Text × Image)) (objects : List (Region × Dict)) (properties : Dict)
    (hp : Passable objects properties) (text : Text) (ht : ClientRefused c.isAlive c.isMulti c.version c.objects start objects.length text) :
    ∃ c', clientSendText env start c images (some objects) properties = .ok (.error (.trax (attempt start ++ text)), c') ∧ c'.stream = c.stream := by
  have hascii : ∀ x ∈ text, x < 128 := by rcases ht with ⟨-, rfl⟩ | ⟨-, -, -, rfl⟩ | ⟨-, -, -, -, rfl⟩ | ⟨-, -, -, -, -, rfl⟩ | ⟨-, -, -, -, rfl⟩ <;> decide
  refine ⟨{ c with error := .text (ascii text) }, ?_, rfl⟩
  unfold clientSendText clientSend
  rw [wrapImages_ok, Outcome.bind_ok]
  dsimp only
  rw [wrapObjects_ok env hp.1, Outcome.bind_ok, hp.2.new]
  dsimp only
  have hl := objectList_length objects
  generalize Trax.Spec.objectList (plainObjects objects) = ol at hl ⊢
  generalize [imageAt images t!"color", imageAt images t!"depth", imageAt images t!"ir"] = il
  generalize Properties.ofPairs (pairs properties) = pr
  have key : (if start = true then c.clientInitialize env il ol (some pr) else c.clientFrame env il (some ol) (some pr)) =
      .ok (TRAX_ERROR, { c with error := .text (ascii text) }) := by
    cases start with
    | true =>
      have := call_refused env 0 c (.clientInitialize il ol (some pr)) (ascii text) (by rw [hs]; rfl) (by
        rcases ht with ⟨h1, rfl⟩ | ⟨h1, -, h2, rfl⟩ | ⟨h1, -, h2, h3, rfl⟩ | ⟨-, h, -⟩ | ⟨-, h, -⟩
        · exact .inl ⟨h1, rfl⟩
        · exact .inr (.inl ⟨h1, List.length_eq_zero_iff.1 (hl.trans h2), rfl⟩)
        · exact .inr (.inr ⟨h1, h2, by omega, rfl⟩)
        · cases h
        · cases h)
      exact Option.some.inj this
    | false =>
      have := call_refused env 0 c (.clientFrame il (some ol) (some pr)) (ascii text) (by rw [hs]; rfl) (by
        rcases ht with ⟨h1, rfl⟩ | ⟨-, h, -⟩ | ⟨-, h, -⟩ | ⟨h1, -, h2, h3, h4, rfl⟩ | ⟨h1, -, h2, h3, rfl⟩
        · exact .inl ⟨h1, rfl⟩
        · cases h
        · cases h
        · exact .inr (.inl ⟨h1, h2, h3, by rw [Option.getD_some]; omega, rfl⟩)
        · exact .inr (.inr ⟨h1, h2, by rw [Option.getD_some]; omega, rfl⟩))
      exact Option.some.inj this
  rw [key]
  show Outcome.ok (Except.error (raiseTold (sendStart start) (.text (ascii text))), _) = _
  simp only [raiseTold, fromC_ascii hascii]
  rfl

/-- A client that starts without an object, and one after the end of the session. -/
example : ∃ c, Demo.client 4 [] = some c ∧ c.server = false ∧ Passable [] [] ∧ Passable [(Demo.rectangle, []), (Demo.rectangle, [])] [] ∧
    ClientRefused c.isAlive c.isMulti c.version c.objects true ([] : List (Region × Dict)).length t!"At least one object required" ∧
    ClientRefused (c.terminate none).2.isAlive c.isMulti c.version c.objects false 2 t!"Client not alive" := by
  refine ⟨(Demo.client 4 []).get (by decide +kernel), by simp, by decide +kernel, ⟨by simp, ⟨by simp, by simp⟩⟩, ⟨?_, ⟨by simp, by simp⟩⟩, ?_, ?_⟩
  · intro o ho
    simp only [List.mem_cons, List.not_mem_nil, or_false, or_self] at ho
    subst ho
    exact ⟨by unfold Demo.rectangle; trivial, by simp, by simp⟩
  · exact .inr (.inl ⟨by decide +kernel, rfl, rfl, rfl⟩)
  · exact .inl ⟨by decide +kernel, rfl⟩

/-- **C165, replies that are not allowed**, and a wait after the end of the session: the exceptions of a server say which rule was broken. -/
theorem C165_server_partial (env : Env) (s : Handle) (hs : s.server = true) (objects : List (Region × Dict)) (properties : Dict) (hp : Passable objects properties) :
    (∀ text, ReplyRefused s.isAlive s.isMulti s.objects objects.length text →
      ∃ s', serverStatusText env s objects properties = .ok (.error (.trax (t!"Exception when sending status: " ++ text)), s') ∧ s'.stream = s.stream) ∧
    (s.isAlive = false → ∀ fuel, ∃ s', serverWaitText env fuel s = some (.ok (.error (.trax t!"Exception when waiting for command: Server not alive"), s')) ∧ s'.stream = s.stream) := by
  constructor
  · intro text ht
    have hascii : ∀ x ∈ text, x < 128 := by rcases ht with ⟨-, rfl⟩ | ⟨-, -, -, rfl⟩ | ⟨-, -, -, rfl⟩ <;> decide
    refine ⟨{ s with error := .text (ascii text) }, ?_, rfl⟩
    unfold serverStatusText serverStatus
    rw [hp.2.new]
    dsimp only
    rw [wrapObjects_ok env hp.1, Outcome.bind_ok]
    dsimp only
    have hl := objectList_length objects
    generalize Trax.Spec.objectList (plainObjects objects) = ol at hl ⊢
    have := call_refused env 0 s (.serverReplyMot ol) (ascii text) (by rw [hs]; rfl) (by
      rcases ht with ⟨h1, rfl⟩ | ⟨h1, h2, h3, rfl⟩ | ⟨h1, h2, h3, rfl⟩
      · exact .inl ⟨h1, rfl⟩
      · exact .inr (.inl ⟨h1, h2, by rw [hl]; exact h3, rfl⟩)
      · exact .inr (.inr ⟨h1, by rw [hl]; exact h2, by rw [hl]; exact h3, rfl⟩))
    rw [show s.serverReplyMot ol = .ok (TRAX_ERROR, { s with error := .text (ascii text) }) from Option.some.inj this]
    show Outcome.ok (Except.error (raiseTold _ (.text (ascii text))), _) = _
    simp only [raiseTold, fromC_ascii hascii]
  · intro ha fuel
    have hal : s.terminated = true := by simpa [isAlive, alive] using ha
    refine ⟨{ s with error := .text b!"Server not alive" }, ?_, rfl⟩
    unfold serverWaitText serverWait serverWaitMot
    rw [if_neg (by simp [hs])]
    dsimp only
    rw [if_pos (by simp [alive, clearError, hal])]
    rfl

example : ∃ s, Demo.server 4 [] = some s ∧ s.server = true ∧ ReplyRefused s.isAlive s.isMulti s.objects 1 t!"Invalid object count" ∧
    (s.terminate none).2.isAlive = false :=
  ⟨(Demo.server 4 []).get (by decide +kernel), by simp, by decide +kernel, .inr (.inr ⟨by decide +kernel, .inr rfl, by decide +kernel, rfl⟩), by decide +kernel⟩

/-- **C165, the end of a session.** When the server quits and nothing else is under way, the exception of the client that waits says so, with the reason that the server gave. -/
theorem C165_end (env : Env) (start : Bool) (c s : Handle) (n : Nat) (hc : Connected c s n) (hn : 0 < n) (reason : Option Text)
    (hr : ∀ t, reason = some t → ∀ x ∈ t, 0 < x ∧ x < 128) :
    ∃ out news, serverQuit reason (.running s) = (.ok (), .ended out) ∧ out.sent = s.stream.out.sent ++ news ∧
      ∃ c', clientReceiveText env start { c with stream := { c.stream with input := bytes news } } =
        .ok (.error (.trax (match reason with
          | none => t!"Server terminated the session"
          | some t => t!"Server terminated the session: " ++ t)), c') ∧ c'.isAlive = false := by
  obtain ⟨out, news, h1, h2, c', h3, h4⟩ := C139_end_partial env c s n hc hn reason hr
  refine ⟨out, news, h1, h2, c', ?_, h4⟩
  unfold clientReceiveText
  rw [h3]
  cases reason <;> rfl

/-- A session with one object that ends with a reason. -/
example : (Demo.client 4 []).map (fun c => match clientSendText Demo.env true c [(t!"color", Demo.image)] (some [(Demo.rectangle, [])]) [] with
    | .ok (.ok (), c₁) => (match clientReceiveText Demo.env true { c₁ with stream := { c₁.stream with input := bytes b!"@@TRAX:quit \"trax.reason=out of memory\" \n" } } with
      | .ok (.error r, _) => some (c₁.objects, r)
      | _ => none)
    | _ => none) = some (some (1, .trax t!"Server terminated the session: out of memory")) := by decide +kernel

/-- **C165, violated.** A failure while waiting is never explained: whatever the tracker has sent, after a request that was sent the exception of `frame` says "Unknown", that
of `initialize` nothing. -/
theorem C165_wait_false (env : Env) (start : Bool) (c c₁ c₂ : Handle) (images : List (Text × Image)) (objects : Option (List (Region × Dict))) (properties : Dict)
    (hs : clientSendText env start c images objects properties = .ok (.ok (), c₁)) (stream : Stream)
    (hw : clientReceive env { c₁ with stream } = .ok (.error (.exc .trax), c₂)) :
    clientReceiveText env start { c₁ with stream } =
      .ok (.error (.trax (if start then t!"Exception when waiting for response" else t!"Exception when waiting for response: Unknown")), c₂) := by
  obtain ⟨⟨x, g⟩, hx, e⟩ := map_eq_ok hs
  obtain ⟨e1, rfl⟩ := Prod.mk.inj e
  obtain ⟨he, ha⟩ : g.error = .none ∧ g.terminated = false := by
    rcases clientSend_cases hx with ⟨rfl, h1, h2⟩ | ⟨rfl, ht⟩ | ⟨rfl, rfl | ⟨rfl, ho⟩⟩
    · exact ⟨h1, h2⟩
    · cases e1
    · cases e1
    · cases e1
  have h2 : c₂.error = .none := by
    unfold clientReceive at hw
    obtain ⟨w, hw1, hw⟩ := bind_eq_ok hw
    have hk : w.handle.error = .none := by
      unfold clientWait at hw1
      split at hw1
      · cases hw1
      split at hw1
      · rename_i h; exact absurd ha (by simpa [alive] using h)
      · exact (clientWaitLoop_told env _ _ _ _ _ _ _ hw1).trans he
    dsimp only at hw
    split at hw
    · cases hw; exact hk
    split at hw
    · split at hw
      · cases hw; exact hk
      · cases hw
    · obtain ⟨o, -, hw⟩ := map_eq_ok hw
      cases hw
  unfold clientReceiveText
  rw [hw]
  show Outcome.ok (Except.error (if start then _ else raiseTold _ c₂.error), c₂) = _
  rw [h2]
  cases start <;> rfl

/-- A tracker whose answer has no region. -/
example : (Demo.client 4 []).map (fun c => match clientSendText Demo.env true c [(t!"color", Demo.image)] (some [(Demo.rectangle, [])]) [] with
    | .ok (.ok (), c₁) => (match clientReceive Demo.env { c₁ with stream := { c₁.stream with input := bytes b!"@@TRAX:state \n" } } with
      | .ok (.error (.exc .trax), _) => true
      | _ => false)
    | _ => false) = some true := by decide +kernel

/-- **C165, violated.** When reading gives no message (the connection has ended before the first one, or a line cannot be read), the exception of `Server.wait` says "Unknown". -/
theorem C165_closed_false (env : Env) (fuel : Nat) (s : Handle) (hs : s.server = true) (ha : s.isAlive = true)
    (hc : ∃ n, ImageList.count s.metadata.channels = .ok n) (hr : s.stream.read.1.mtype = none) :
    ∃ s', serverWaitText env (fuel + 1) s = some (.ok (.error (.trax t!"Exception when waiting for command: Unknown"), s')) := by
  obtain ⟨⟨h', hh, he⟩, -⟩ := C162_closed_false env fuel s hs ha hc hr (some Properties.create)
  obtain ⟨o, ho, e⟩ := Option.map_eq_some_iff.mp hh
  obtain ⟨w, hw, e⟩ := map_eq_ok e
  subst hw
  obtain ⟨e1, e2⟩ := Prod.mk.inj (Outcome.ok.inj e)
  refine ⟨h', ?_⟩
  unfold serverWaitText serverWait
  rw [ho]
  obtain ⟨ret, im, ob, rg, pr, hd⟩ := w
  cases e1
  cases e2
  show some (Outcome.ok (Except.error (raiseTold _ hd.error), hd)) = _
  rw [show hd.error = .none from he]
  rfl

/-- **C165, violated.** The explanation for a missing image has a number that is indeterminate; that for a region that cannot be read does not exist. -/
theorem C165_number_false :
    ((Demo.client 4 []).map fun c => match clientSendText Demo.env true c [] (some [(Demo.rectangle, [])]) [] with
      | .ok (.error r, _) => some r
      | _ => none) = some (some (.garbled t!"Exception when initializing tracker: ")) ∧
    ((Demo.server 4 b!"@@TRAX:initialize \"1,2\" \n").map fun s => match serverWaitText Demo.env 9 s with
      | some (.ok (.error r, _)) => some r
      | _ => none) = some (some (.trax t!"Exception when waiting for command: Unknown")) := by decide +kernel

end Trax
