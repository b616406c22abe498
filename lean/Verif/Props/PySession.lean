import Verif.Lemmas.PySession

/-!
# Property theorem C139: sessions of Python programs
-/

namespace Trax
open Py Py.Spec Handle
open Trax.Spec (ValidKey Plain deliver Connected objectList bytes wire Deliverable)

theorem plain_count (e : PyExchange) (n : Nat) : e.plain.count n = e.count n := by
  unfold PyExchange.count Trax.Spec.Exchange.count PyExchange.plain plainObjects
  simp

/-! ## Exchanges -/

/-- **C139, exchanges.** In every proper exchange of a Python client and a Python server that are connected no exception is raised; `Server.wait` gives the images, new objects and
properties of the client, and tells whether tracking starts; `initialize` or `frame` give the objects of the server's reply; and afterwards the programs are connected again.
Missing from the full claim: what the library cannot transfer (C56, texts that are not ASCII among it), and the properties of a reply, which do not arrive. -/
theorem C139_exchange_partial (clientEnv serverEnv : Env) (c s : Handle) (n : Nat) (e : PyExchange) (sent : List (Region × List (Str × Str)))
    (hc : Connected c s n) (hp : e.Proper clientEnv c s n sent) :
    ∃ o c' s', (∀ fuel, e.objects.length + 2 ≤ fuel → pyExchange clientEnv serverEnv fuel c s e = some (.ok (.ok o, c', s'))) ∧
      e.Seen s n sent o ∧ Connected c' s' (e.count n) ∧ c'.metadata = c.metadata ∧ s'.metadata = s.metadata := by
  obtain ⟨o, c', s', h1, h2, h3, h4, h5⟩ := C56_exchange_partial clientEnv serverEnv c s n e.plain sent hc hp.library
  have hlen : e.plain.objects.length = e.objects.length := by simp [PyExchange.plain, plainObjects]
  rw [plain_count] at h3
  obtain ⟨imgs, i1, i2⟩ := h2.images
  obtain ⟨imgs', w1, w2⟩ := images_shown (images := e.images) i2
  obtain ⟨ans, a1, a2⟩ := h2.reply
  have hreply : ∀ x ∈ e.reply, Trax.Spec.WellFormed x.1 ∧ SendableDict x.2 := fun x hx => ⟨hp.regions x (List.mem_append_right _ hx), hp.texts x (List.mem_append_right _ hx)⟩
  have hobjs : ∀ x ∈ e.objects, Trax.Spec.WellFormed x.1 ∧ SendableDict x.2 := fun x hx => ⟨hp.regions x (List.mem_append_left _ hx), hp.texts x (List.mem_append_left _ hx)⟩
  obtain ⟨ans', b1, b2⟩ := objects_shown clientEnv (objects := e.reply) (sent := plainObjects e.reply) (fun x hx => (hreply x hx).2) hp.library.reply
    (by unfold plainObjects; rw [List.forall₂_map_right_iff, List.forall₂_same]; exact fun _ _ => rfl) a2
  rw [show (plainObjects e.reply).map Prod.fst = e.reply.map Prod.fst by simp [plainObjects, Function.comp_def]] at b2
  have hnil : e.plain.objects = [] ↔ e.objects = [] := by simp [PyExchange.plain, plainObjects]
  -- the request
  have hreq : ∃ request, serverRequest serverEnv o.request = .ok (.ok request) ∧
      request.type = (if e.start = true ∨ (n = 0 ∧ e.objects ≠ []) then t!"initialize" else t!"frame") ∧ request.images = some imgs' ∧
      ((request.objects = none ∧ e.objects = []) ∨ ∃ l, request.objects = some l ∧ e.objects ≠ [] ∧ ObjectsShown (sent.map Prod.fst) e.objects l) ∧
      request.properties = Properties.ofPairs (pairs e.properties) := by
    have hret := h2.request
    have hret' : o.request.ret = if e.start = true ∨ (n = 0 ∧ e.objects ≠ []) then TRAX_INITIALIZE else TRAX_FRAME := by
      rw [hret]
      simp only [ne_eq, hnil]
      rfl
    have hprops : o.request.props = some (Properties.ofPairs (pairs e.properties)) := h2.props
    unfold serverRequest
    rw [hprops, i1, hret']
    by_cases hst : e.start = true ∨ (n = 0 ∧ e.objects ≠ [])
    · rw [if_pos hst, if_pos hst, if_neg (by decide), if_pos (by decide), w1, Outcome.bind_ok]
      have hne : e.objects ≠ [] := by
        rcases hst with h | h
        · exact fun h0 => hp.library.starts h (hnil.2 h0)
        · exact h.2
      rcases h2.objects with ⟨-, h0⟩ | ⟨l, l1, -, l2⟩
      · exact absurd (hnil.1 h0) hne
      · obtain ⟨shown, s1, s2⟩ := objects_shown serverEnv (fun x hx => (hobjs x hx).2) hp.library.objects (converted_pairs hp.library.converted) l2
        rw [l1]
        dsimp only
        rw [s1]
        exact ⟨_, rfl, rfl, rfl, .inr ⟨shown, rfl, hne, s2⟩, rfl⟩
    · rw [if_neg hst, if_neg hst, if_neg (by decide), if_neg (by decide), if_pos (by decide), w1, Outcome.bind_ok]
      rcases h2.objects with ⟨l1, h0⟩ | ⟨l, l1, hne, l2⟩
      · rw [l1]
        exact ⟨_, rfl, rfl, rfl, .inl ⟨rfl, hnil.1 h0⟩, rfl⟩
      · obtain ⟨shown, s1, s2⟩ := objects_shown serverEnv (fun x hx => (hobjs x hx).2) hp.library.objects (converted_pairs hp.library.converted) l2
        rw [l1]
        dsimp only
        rw [s1]
        exact ⟨_, rfl, rfl, rfl, .inr ⟨shown, rfl, fun h => hne (hnil.2 h), s2⟩, rfl⟩
  obtain ⟨request, r1, r2, r3, r4, r5⟩ := hreq
  refine ⟨⟨request, ans'⟩, c', s', fun fuel hf => ?_, ⟨r2, ⟨imgs', r3, w2⟩, r4, by rw [r5]; exact hp.properties.shown, b2⟩, h3, h4, h5⟩
  obtain ⟨c₁, x1, x2, x3, x4, x5⟩ := exchange_inv (h1 fuel (by rw [hlen]; exact hf))
  have hsend : clientSend clientEnv e.start c e.images (some e.objects) e.properties = .ok (.ok (), c₁) := by
    unfold clientSend
    rw [wrapImages_ok, Outcome.bind_ok]
    dsimp only
    rw [wrapObjects_ok clientEnv hobjs, Outcome.bind_ok, hp.properties.new]
    dsimp only
    rw [show (if e.start = true then c.clientInitialize clientEnv [imageAt e.images t!"color", imageAt e.images t!"depth", imageAt e.images t!"ir"] (objectList (plainObjects e.objects))
        (some (Properties.ofPairs (pairs e.properties))) else c.clientFrame clientEnv [imageAt e.images t!"color", imageAt e.images t!"depth", imageAt e.images t!"ir"]
        (some (objectList (plainObjects e.objects))) (some (Properties.ofPairs (pairs e.properties)))) = .ok (o.call, c₁) from x1, h2.calls.1]
    rfl
  have hwait : serverWait serverEnv fuel (deliver c c₁ s) = some (.ok (.ok request, o.request.handle)) := by
    unfold serverWait
    rw [x2, Option.map_some, Outcome.bind_ok, r1]
    rfl
  obtain ⟨rp, rp1, -⟩ := Holds.setAll e.replyProperties Holds.create hp.replyProperties
  have hstatus : serverStatus serverEnv o.request.handle e.reply e.replyProperties = .ok (.ok (), s') := by
    unfold serverStatus
    rw [show propNew e.replyProperties = .ok rp from rp1]
    dsimp only
    rw [wrapObjects_ok serverEnv hreply, Outcome.bind_ok]
    dsimp only
    rw [show serverReplyMot o.request.handle (objectList (plainObjects e.reply)) = .ok (o.replied, s') from x3, h2.calls.2]
    rfl
  have hreceive : clientReceive clientEnv (deliver o.request.handle s' c₁) = .ok (.ok ans', c') := by
    unfold clientReceive
    rw [x4, Outcome.bind_ok, h2.answer]
    dsimp only
    rw [if_neg (by decide), if_neg (by decide), a1, b1, x5]
    rfl
  unfold pyExchange
  rw [hsend]
  dsimp only
  rw [hwait, Option.map_some, Outcome.bind_ok]
  dsimp only
  rw [hstatus, Outcome.bind_ok]
  dsimp only
  rw [hreceive]
  rfl

/-! ## Sessions -/

theorem pyProper_of_metadata {env : Env} {c s c' s' : Handle} (hc : c'.metadata = c.metadata) (hs : s'.metadata = s.metadata) :
    ∀ {n : Nat} {es : List (PyExchange × List (Region × List (Str × Str)))}, ProperPySession env c s n es → ProperPySession env c' s' n es
  | _, [], _ => trivial
  | _, (_, _) :: _, ⟨⟨h1, h2, h3, h4, h5⟩, h⟩ => ⟨⟨proper_of_metadata hc hs h1, h2, h3, h4, h5⟩, pyProper_of_metadata hc hs h⟩

theorem pySeen_of_metadata {s s' : Handle} (hs : s'.metadata = s.metadata) :
    ∀ {n : Nat} {es : List (PyExchange × List (Region × List (Str × Str)))} {os : List PyResult}, PySessionSeen s' n es os → PySessionSeen s n es os
  | _, [], _, h => h
  | _, (_, _) :: _, _, ⟨o, os', h1, ⟨g1, g2, g3, g4, g5⟩, h3⟩ => ⟨o, os', h1, ⟨g1, by rw [← hs]; exact g2, g3, g4, g5⟩, pySeen_of_metadata hs h3⟩

/-- **C139, sessions.** The same for every history of proper exchanges, of any length. -/
theorem C139_session_partial (clientEnv serverEnv : Env) : ∀ (es : List (PyExchange × List (Region × List (Str × Str)))) (c s : Handle) (n : Nat)
    (_ : Connected c s n) (_ : ProperPySession clientEnv c s n es) (fuel : Nat) (_ : ∀ e ∈ es, e.1.objects.length + 2 ≤ fuel),
    ∃ os c' s', pySession clientEnv serverEnv fuel c s (es.map Prod.fst) = some (.ok (.ok os, c', s')) ∧ PySessionSeen s n es os ∧
      Connected c' s' (pyCountAfter n (es.map Prod.fst)) := by
  intro es
  induction es with
  | nil => exact fun c s n hc _ _ _ => ⟨[], c, s, rfl, rfl, hc⟩
  | cons e es ih =>
    intro c s n hc hp fuel hf
    obtain ⟨e, sent⟩ := e
    obtain ⟨o, c₁, s₁, h1, h2, h3, h4, h5⟩ := C139_exchange_partial clientEnv serverEnv c s n e sent hc hp.1
    obtain ⟨os, c', s', i1, i2, i3⟩ := ih c₁ s₁ (e.count n) h3 (pyProper_of_metadata h4 h5 hp.2) fuel fun x hx => hf x (by simp [hx])
    refine ⟨o :: os, c', s', ?_, ⟨o, os, rfl, h2, pySeen_of_metadata h5 i2⟩, i3⟩
    rw [List.map_cons, pySession, h1 fuel (hf (e, sent) (by simp))]
    dsimp only
    rw [i1]
    rfl

namespace Demo

/-- The client starts with one object. -/
def pyBegins : PyExchange := ⟨true, [(t!"color", image)], [(rectangle, [(t!"id", t!"a")])], [(t!"time", t!"0"), (t!"mode", t!"fast")], [(rectangle, [(t!"score", t!"0.5")])], []⟩

/-- It adds two objects with a later frame. -/
def pyAdds : PyExchange := ⟨false, [(t!"color", image)], [(rectangle, []), (rectangle, [(t!"id", t!"c")])], [], [(rectangle, []), (rectangle, []), (rectangle, [])], [(t!"time", t!"0.1")]⟩

/-- It sends a frame without new objects. -/
def pyGoesOn : PyExchange := ⟨false, [(t!"color", image), (t!"other", image)], [], [(t!"time", t!"2")], [(rectangle, []), (rectangle, []), (rectangle, [])], []⟩

end Demo

/-- A session whose hypotheses are met, right after the introduction: it starts, adds objects, goes on and starts again. -/
example : ∃ c s, Connected c s 0 ∧ ProperPySession Demo.env c s 0 [(Demo.pyBegins, plainObjects Demo.pyBegins.objects), (Demo.pyAdds, plainObjects Demo.pyAdds.objects),
    (Demo.pyGoesOn, []), (Demo.pyBegins, plainObjects Demo.pyBegins.objects)] := by
  obtain ⟨s, news, c, h1, h2, h3, h4, h5, h6, h7, h8⟩ := C55_start Demo.metadata [] ⟨by decide, by decide, by decide, by decide, by decide,
    by rintro s (h | h | h) <;> cases h; decide, rfl, by decide⟩ 0 ⟨none, [], Demo.out⟩ rfl (by decide) Demo.out (by decide)
  have hmul : c.isMulti = true := h8.mpr (by decide)
  have hmode : ∀ n : Nat, c.isMulti = false → n = 1 := fun n h => by rw [hmul] at h; cases h
  have himg : Trax.Spec.SendableImages s.metadata.channels s.metadata.images [some Demo.image, none, none] := by
    intro i hi hch
    rw [h7] at hch
    refine ⟨Demo.image, ?_, (by decide : Plain b!"/a.jpg"), by rw [h6]; decide⟩
    simp only [Trax.Spec.channelFlags, List.mem_cons, List.not_mem_nil, or_false] at hi
    rcases hi with rfl | rfl | rfl
    · rfl
    · exact absurd (by decide) hch
    · exact absurd (by decide) hch
  have hconv : ∀ kvss : List (List (Str × Str)), Trax.Spec.Converted Demo.env c.metadata.regions (kvss.map fun kvs => (Demo.rectangle, kvs)) (kvss.map fun kvs => (Demo.rectangle, kvs)) := by
    intro kvss
    apply converted_self
    intro o ho
    obtain ⟨kvs, -, rfl⟩ := List.mem_map.mp ho
    rw [h5]
    show supports Demo.metadata.regions Demo.rectangle.apiType = true
    decide
  have hwf := sendable_wellFormed rectangle_sendable
  have hw : ∀ (l : List (Region × Dict)), (∀ o ∈ l, o.1 = Demo.rectangle) → ∀ o ∈ l, Trax.Spec.WellFormed o.1 := fun l h o ho => by rw [h o ho]; exact hwf
  refine ⟨c, s, h4, ?_, ?_, ?_, ?_, trivial⟩
  · exact ⟨⟨by decide, by decide, hmode _, himg, hconv [_], rectangles_sendable [_] (by decide), by decide, by decide, rectangles_sendable [_] (by decide)⟩,
      hw _ (by decide), by unfold SendableDict; decide, by unfold SendableDict; decide, by unfold GoodDict CText Encodable; decide⟩
  · exact ⟨⟨by decide, by decide, hmode _, himg, hconv [_, _], rectangles_sendable [_, _] (by decide), by decide, by decide,
      rectangles_sendable [_, _, _] (by decide)⟩, hw _ (by decide), by unfold SendableDict; decide, by unfold SendableDict; decide, by unfold GoodDict CText Encodable; decide⟩
  · exact ⟨⟨by decide, by decide, hmode _, himg, hconv [], rectangles_sendable [] (by decide), by decide, by decide, rectangles_sendable [_, _, _] (by decide)⟩,
      hw _ (by decide), by unfold SendableDict; decide, by unfold SendableDict; decide, by unfold GoodDict CText Encodable; decide⟩
  · exact ⟨⟨by decide, by decide, hmode _, himg, hconv [_], rectangles_sendable [_] (by decide), by decide, by decide, rectangles_sendable [_] (by decide)⟩,
      hw _ (by decide), by unfold SendableDict; decide, by unfold SendableDict; decide, by unfold GoodDict CText Encodable; decide⟩

/-! ## The end -/

/-- **C139, the end.** When the server quits, with a reason or without, and nothing else is under way, the client that waits for a reply is told so, with the reason. -/
theorem C139_end_partial (env : Env) (c s : Handle) (n : Nat) (hc : Connected c s n) (hn : 0 < n) (reason : Option Text)
    (hr : ∀ t, reason = some t → ∀ x ∈ t, 0 < x ∧ x < 128) :
    ∃ out news, serverQuit reason (.running s) = (.ok (), .ended out) ∧ out.sent = s.stream.out.sent ++ news ∧
      ∃ c', clientReceive env { c with stream := { c.stream with input := bytes news } } = .ok (.error (.ended reason), c') ∧ c'.isAlive = false := by
  obtain ⟨⟨hcs, hss⟩, ⟨hca, hsa⟩, hver, hchan, hknown, hmulti, ⟨hcq, hsq⟩, ⟨hcr, hsr⟩, hcn, hsn⟩ := hc
  have ha : c.terminated = false := by simpa [isAlive, alive] using hca
  obtain ⟨k, hk⟩ : ∃ k, c.objects = k + 1 := ⟨c.objects - 1, by omega⟩
  have key : ∀ (r : Option Str), (serverQuit reason (.running s) = if statusDecode (s.terminate r).1 = some t!"error" then (.error .trax, .running (s.terminate r).2)
        else (.ok (), .ended (s.terminate r).2.cleanup.2)) → (∀ x, r = some x → Plain x) →
      (propGet (copyAll (quitProperties r) Properties.create) t!"trax.reason" none = .ok reason) →
      ∃ out news, serverQuit reason (.running s) = (.ok (), .ended out) ∧ out.sent = s.stream.out.sent ++ news ∧
        ∃ c', clientReceive env { c with stream := { c.stream with input := bytes news } } = .ok (.error (.ended reason), c') ∧ c'.isAlive = false := by
    intro r hr hpl hget
    have hwf : (quitProperties r).WF := by
      cases r with
      | none => exact Properties.wf_create
      | some x => exact Properties.wf_set Properties.wf_create _ _
    have hdel : Deliverable [] (quitProperties r).enumerate := by
      cases r with
      | none => exact ⟨by simp, by simp, by decide, by decide⟩
      | some x => exact quit_deliverable (hpl x rfl)
    obtain ⟨t1, t2⟩ := C52_terminate_once env s hsa hsr r (fun x hx => plain_noNul (hpl x hx))
    obtain ⟨t3, -, t4, -⟩ := t2 [] [] _ (.nil _)
    have hen : (r.map fun s => (b!"trax.reason", s)).toList = (quitProperties r).enumerate := by
      cases r with
      | none => decide
      | some x => rw [quitProperties_enumerate, Option.map_some, Option.map_some, cstr_of_noNul (plain_noNul (hpl x rfl))]
    rw [hen] at t3
    refine ⟨(s.terminate r).2.cleanup.2, wire .quit [] (quitProperties r).enumerate, ?_, by rw [t4, t3], ?_⟩
    · rw [hr, t1, if_neg (by decide)]
    · have hread := Stream.read_wire ({ c.stream with input := bytes (wire .quit [] (quitProperties r).enumerate) } : Stream) .quit [] _ hwf hdel [] (by simp)
      unfold clientReceive
      simp only [clientWait, hcs, alive, ha, hk, clientWaitLoop, hread]
      simp only [Bool.false_eq_true, if_false, not_true, Bool.not_false, ne_eq, List.length_nil, Outcome.bind_ok, Option.map_some, Option.getD_some]
      rw [if_neg (by decide), if_pos (by decide), hget]
      exact ⟨_, rfl, rfl⟩
  cases hrs : reason with
  | none =>
    subst hrs
    exact key none rfl (by simp) (by decide)
  | some t =>
    subst hrs
    have h7 : ∀ x ∈ t, x < 128 := fun x hx => (hr t rfl x hx).2
    have hpl : Plain (ascii t) := by
      intro x hx
      obtain ⟨y, hy, rfl⟩ := List.mem_map.1 hx
      obtain ⟨h1, h2⟩ := hr t rfl y hy
      have : (UInt8.ofNat y).toNat = y := Py.toNat_ofNat (by omega)
      refine ⟨fun e => ?_, by omega⟩
      rw [e] at this
      simp at this
      omega
    refine key (some (ascii t)) (by unfold serverQuit; dsimp only; rw [ascii_toC h7 (plain_noNul' hpl)]; rfl) (by rintro x ⟨⟩; exact hpl) ?_
    have hwf : (quitProperties (some (ascii t))).WF := Properties.wf_set Properties.wf_create _ _
    have hget : (copyAll (quitProperties (some (ascii t))) Properties.create).get b!"trax.reason" = some (ascii t) := by
      rw [copyAll_get hwf Properties.wf_create (by decide)]
      have : (quitProperties (some (ascii t))).get b!"trax.reason" = some (ascii t) := by
        unfold quitProperties
        rw [Properties.get_set Properties.wf_create, if_pos rfl, cstr_of_noNul (plain_noNul hpl)]
      rw [this]; rfl
    unfold propGet
    rw [show toC t!"trax.reason" = .ok b!"trax.reason" by decide]
    simp only [Except.bind, hget, fromC, decode_encode (ascii_encode h7)]

example : ∀ t, some t!"out of memory" = some t → ∀ x ∈ t, 0 < x ∧ x < 128 := by rintro t ⟨⟩; decide

/-- **C139, the end of the client.** When the client quits, the server that waits is told so. Missing from the full claim: the reason. -/
theorem C139_client_end_partial (env : Env) (c s : Handle) (n : Nat) (hc : Connected c s n) (reason : Option Text) (hr : ∀ t, reason = some t → ∀ x ∈ t, 0 < x ∧ x < 128) :
    ∃ c' news, clientQuit c reason = (.ok (), c') ∧ c'.isAlive = false ∧ c'.stream.out.sent = c.stream.out.sent ++ news ∧
      ∀ fuel, 1 ≤ fuel → ∃ request s', serverWait env fuel { s with stream := { s.stream with input := bytes news } } = some (.ok (.ok request, s')) ∧
        request.type = t!"quit" ∧ s'.isAlive = false := by
  have key : ∀ (r : Option Str), clientQuit c reason = (.ok (), (c.terminate r).2) → (∀ x, r = some x → Plain x) →
      ∃ c' news, clientQuit c reason = (.ok (), c') ∧ c'.isAlive = false ∧ c'.stream.out.sent = c.stream.out.sent ++ news ∧
        ∀ fuel, 1 ≤ fuel → ∃ request s', serverWait env fuel { s with stream := { s.stream with input := bytes news } } = some (.ok (.ok request, s')) ∧
          request.type = t!"quit" ∧ s'.isAlive = false := by
    intro r hq hpl
    have hwf : (quitProperties r).WF := by
      cases r with
      | none => exact Properties.wf_create
      | some x => exact Properties.wf_set Properties.wf_create _ _
    have hdel : Deliverable [] (quitProperties r).enumerate := by
      cases r with
      | none => exact ⟨by simp, by simp, by decide, by decide⟩
      | some x => exact quit_deliverable (hpl x rfl)
    obtain ⟨-, t2⟩ := C52_terminate_once env c hc.alive.1 hc.reliable.1 r (fun x hx => plain_noNul (hpl x hx))
    obtain ⟨t3, -, -, t5, -⟩ := t2 [] [] _ (.nil _)
    have hen : (r.map fun s => (b!"trax.reason", s)).toList = (quitProperties r).enumerate := by
      cases r with
      | none => decide
      | some x => rw [quitProperties_enumerate, Option.map_some, Option.map_some, cstr_of_noNul (plain_noNul (hpl x rfl))]
    rw [hen] at t3
    refine ⟨_, wire .quit [] (quitProperties r).enumerate, hq, t5, t3, fun fuel hf => ?_⟩
    have hread := Stream.read_wire { s.stream with input := bytes (wire .quit [] (quitProperties r).enumerate) } .quit [] _ hwf hdel [] (by simp)
    have ha : s.terminated = false := by simpa [Handle.isAlive, Handle.alive] using hc.alive.2
    have hcount : ∃ k, ImageList.count s.metadata.channels = .ok k := by
      rw [count_eq]
      have : s.metadata.channels.toNat < 2 ^ 31 := by
        have h := congrArg UInt32.toNat hc.known
        rw [UInt32.toNat_and] at h
        have := Nat.and_le_right (n := s.metadata.channels.toNat) (m := (7 : UInt32).toNat)
        have e : (7 : UInt32).toNat = 7 := rfl
        omega
      rw [if_pos this]
      exact ⟨_, rfl⟩
    obtain ⟨k, hk⟩ := hcount
    obtain ⟨fuel, rfl⟩ : ∃ f, fuel = f + 1 := ⟨fuel - 1, by omega⟩
    have hsw : ∃ w, Handle.serverWaitMot env (fuel + 1) { s with stream := { s.stream with input := bytes (wire .quit [] (quitProperties r).enumerate) } } (some Properties.create) =
        some (.ok w) ∧ w.ret = TRAX_QUIT ∧ w.handle.isAlive = false := by
      refine ⟨⟨TRAX_QUIT, none, none, none, some (copyExternal (quitProperties r) Properties.create),
        { s.clearError with terminated := true, stream := { s.stream with mtype := some .quit, input := [] } }⟩, ?_, rfl, rfl⟩
      unfold Handle.serverWaitMot
      rw [if_neg (by simp [hc.sides.2])]
      dsimp only
      rw [if_neg (by simp [Handle.clearError, Handle.alive, ha])]
      simp only [Handle.clearError] at *
      rw [hk]
      dsimp only
      unfold Handle.waitMotLoop
      dsimp only
      rw [hread]
      rfl
    obtain ⟨w, w1, w2, w3⟩ := hsw
    unfold serverWait
    rw [w1, Option.map_some, Outcome.bind_ok]
    unfold serverRequest
    rw [w2, if_pos (by decide)]
    exact ⟨_, _, rfl, rfl, w3⟩
  cases hrs : reason with
  | none =>
    subst hrs
    exact key none rfl (by simp)
  | some t =>
    subst hrs
    have h7 : ∀ x ∈ t, x < 128 := fun x hx => (hr t rfl x hx).2
    have hpl : Plain (ascii t) := by
      intro x hx
      obtain ⟨y, hy, rfl⟩ := List.mem_map.1 hx
      obtain ⟨h1, h2⟩ := hr t rfl y hy
      have : (UInt8.ofNat y).toNat = y := Py.toNat_ofNat (by omega)
      refine ⟨fun e => ?_, by omega⟩
      rw [e] at this
      simp at this
      omega
    exact key (some (ascii t)) (by unfold clientQuit; dsimp only; rw [ascii_toC h7 (plain_noNul' hpl)]; rfl) (by rintro x ⟨⟩; exact hpl)

/-! ## Violations -/

/-- **C139, violated for frames without objects**: `frame(images)`, with the default value of `objects`, always raises a `TypeError`, and nothing is sent. -/
theorem C139_frame_false (env : Env) (h : Handle) (images : List (Text × Image)) (properties : Dict) :
    clientSend env false h images none properties = .ok (.error .type, h) := by
  unfold clientSend
  rw [wrapImages_ok]
  rfl

/-- **C139, violated for the properties of a reply**: they make no difference to what is sent. -/
theorem C139_reply_false (env : Env) (h : Handle) (objects : List (Region × Dict)) (p p' : Dict) (hp : GoodDict p) (hp' : GoodDict p') :
    serverStatus env h objects p = serverStatus env h objects p' := by
  obtain ⟨x, h1, -⟩ := Holds.setAll p Holds.create hp
  obtain ⟨y, h2, -⟩ := Holds.setAll p' Holds.create hp'
  unfold serverStatus
  rw [show propNew p = .ok x from h1, show propNew p' = .ok y from h2]

example : GoodDict [(t!"time", t!"0.5")] ∧ GoodDict [] := by unfold GoodDict CText Encodable; decide

/-- **C139, violated for `quit` inside of a `with` block**: after `quit` the end of the block raises an exception. -/
theorem C139_quit_false (h : Handle) (failure : Option Text) : ∃ s, serverQuit none (.running h) = (.ok (), s) ∧ (serverExit failure s).1 = .error .attribute := by
  refine ⟨.ended (h.terminate none).2.cleanup.2, ?_, rfl⟩
  unfold serverQuit terminate
  dsimp only
  split_ifs <;> first | rfl | (rename_i h; exact absurd h (by simp only; decide))

/-- **C139, violated for the reason of the client**: the server is told that the session has ended, but not why. -/
theorem C139_reason_false : ((Demo.server 4 b!"@@TRAX:quit \"trax.reason=done\" \n").map fun h => match serverWait Demo.env 9 h with
    | some (.ok (.ok r, _)) => some (r.type, propDict r.properties)
    | _ => none) = some (some (t!"quit", [])) := by decide +kernel

/-- **C139, violated for texts that are not ASCII**: a property with such a value does not arrive, and neither program is told. -/
theorem C139_texts_false : (Demo.pair.map fun (c, s) => match pyExchange Demo.env Demo.env 9 c s
      ⟨true, [(t!"color", Demo.image)], [(Demo.rectangle, [])], [(t!"name", [0xE9])], [(Demo.rectangle, [])], []⟩ with
    | some (.ok (.ok o, _, _)) => some (o.request.type, propDict o.request.properties)
    | _ => none) = some (some (t!"initialize", [])) := by decide +kernel

end Trax
