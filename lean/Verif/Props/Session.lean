import Verif.Lemmas.Exchange

/-!
# Property theorems C55, C56: sessions of a client and a server
-/

namespace Trax
open Spec Handle
open Region (bind_eq_ok map_eq_ok)

/-! ## C56: one exchange -/

theorem deliver_new {before after receiver : Handle} {news : Str} (hin : receiver.stream.input = [])
    (h : after.stream.out.sent = before.stream.out.sent ++ news) :
    deliver before after receiver = { receiver with stream := { receiver.stream with input := bytes news } } := by
  unfold deliver
  rw [h, hin]
  simp

theorem serverReplyMot_loop (h : Handle) (objs : ObjList) (hs : h.server = true) (ha : h.isAlive = true)
    (hm : h.isMulti = false → objs.length = 1) (hl : objs.length = h.objects) : serverReplyMot h objs = replyLoop h.clearError objs := by
  have ha : h.clearError.alive = true := ha
  unfold serverReplyMot
  rw [if_neg (by simp [hs])]
  dsimp only
  rw [if_neg (by simp [ha]), if_neg, if_neg (by simp [hl, clearError])]
  rintro ⟨h1, h2⟩
  exact h2 (hm (Bool.eq_false_iff.mpr h1))

theorem clientWait_loop (env : Env) (h : Handle) (props : Option Properties) (hs : h.server = false) (ha : h.isAlive = true) :
    clientWait env h props = clientWaitLoop env 0 (ObjList.create h.objects) TRAX_ERROR props h h.objects := by
  have ha : h.alive = true := ha
  unfold clientWait
  rw [if_neg (by simp [hs]), if_neg (by simp [ha])]

/-- **C56, what holds.** In every proper exchange of two connected handles all calls succeed; the server's wait returns the images, new
objects and properties that the client sent, and tells whether tracking starts; the client's wait returns the objects of the server's reply; and
afterwards the handles are connected again, with nothing left unread. Missing from the full claim: what `Sendable`, `SendableImage` and
`SendablePairs` exclude, i.e. regions and images whose own texts cannot be read back (C25, C34, C35), and exchanges without any object. -/
theorem C56_exchange_partial (clientEnv serverEnv : Env) (c s : Handle) (n : Nat) (e : Exchange) (sent : List (Region × List (Str × Str)))
    (hc : Connected c s n) (hp : e.Proper clientEnv c s n sent) :
    ∃ o c' s', (∀ fuel, e.objects.length + 2 ≤ fuel → exchange clientEnv serverEnv fuel c s e = some (.ok (o, c', s'))) ∧
      e.Seen s n sent o ∧ Connected c' s' (e.count n) ∧ c'.metadata = c.metadata ∧ s'.metadata = s.metadata := by
  obtain ⟨⟨hcs, hss⟩, ⟨hca, hsa⟩, hver, hchan, hknown, hmulti, ⟨hcq, hsq⟩, ⟨hcr, hsr⟩, hcn, hsn⟩ := hc
  obtain ⟨hpos, hst, hmode, himg, hconv, hobj, hprops, hrep, hreply⟩ := hp
  obtain ⟨ms, hms⟩ := announces .initialize hobj
  obtain ⟨rs, hrs⟩ := announces .state hreply
  obtain ⟨texts, l, i1, i2, i3, i4, i5⟩ := images_transfer serverEnv s.metadata e.images channelIndexes (SendableImages.byIndex himg)
  have hcount : ImageList.count s.metadata.channels = .ok texts.length := by rw [i5]; exact count_known hknown
  obtain ⟨st, r1, r2, r3, r4⟩ := request_ok clientEnv c n e sent ms texts hcs hca hver hcn hst hmode hconv hms (by rw [hchan]; exact i1)
    (fun t ht => plain_noNul (i4 t ht).1) hcr
  have hlen : sent.length = e.objects.length := hconv.length_eq.symm
  -- the server's wait
  generalize hreq : (if e.start = true ∧ 0 < n then wire .initialize [] [] else []) ++ announcement .initialize ms ++
    wire .frame texts (Properties.ofPairs e.props).enumerate = req at r2
  have hw := fun fuel hf => serverWait_request serverEnv { s with stream := { s.stream with input := bytes req } } n e sent ms texts l hss hsa hsn hst hlen
    hms i2 i4 hcount hprops [] (by rw [← hreq, List.append_nil]) fuel hf
  -- the reply
  obtain ⟨st', p1, p2, p3, p4, p5⟩ := replyLoop_sends hrs ({ s with error := .none, objects := e.count n, stream := { s.stream with input := [], mtype := some .frame } } : Handle) hsr
  have hreplied : serverReplyMot ({ s with error := .none, objects := e.count n, stream := { s.stream with input := [], mtype := some .frame } } : Handle)
      (objectList e.reply) = .ok (TRAX_OK, { s with error := .none, objects := e.count n, stream := st' }) := by
    have hl : (objectList e.reply).length = e.count n := by simp [objectList, hrep]
    rw [serverReplyMot_loop]
    · exact p1
    · exact hss
    · exact hsa
    · intro h
      rw [hl]
      exact hmode (hmulti.trans h)
    · exact hl
  -- the client's wait
  obtain ⟨mt, w1⟩ := clientWaitLoop_reply clientEnv (some Properties.create) hrs 0 [] TRAX_ERROR
    ({ c with error := .none, objects := e.count n, stream := { st with input := bytes (announcement .state rs) } } : Handle) [] (List.append_nil _).symm rfl
  have hrl : rs.length = e.count n := by rw [hrs.length, hrep]
  have hne : rs.isEmpty = false := by
    cases rs with
    | nil => simp at hrl; omega
    | cons _ _ => rfl
  have hwait : clientWait clientEnv ({ c with error := .none, objects := e.count n, stream := { st with input := bytes (announcement .state rs) } } : Handle) (some Properties.create) =
      .ok ⟨TRAX_STATE, none, some (received rs), none, some Properties.create,
        { c with error := .none, objects := e.count n, stream := { st with input := [], mtype := mt } }⟩ := by
    rw [clientWait_loop]
    · rw [hne, hrl] at w1
      exact w1
    · exact hcs
    · exact hca
  refine ⟨⟨TRAX_OK, ⟨if e.start = true ∨ (n = 0 ∧ e.objects ≠ []) then TRAX_INITIALIZE else TRAX_FRAME, some l,
      if e.objects = [] then none else some (received ms), none, some (Properties.ofPairs e.props),
      { s with error := .none, objects := e.count n, stream := { s.stream with input := [], mtype := some .frame } }⟩, TRAX_OK,
      ⟨TRAX_STATE, none, some (received rs), none, some Properties.create,
        { c with error := .none, objects := e.count n, stream := { st with input := [], mtype := mt } }⟩⟩,
    { c with error := .none, objects := e.count n, stream := { st with input := [], mtype := mt } },
    { s with error := .none, objects := e.count n, stream := st' }, ?_, ?_, ?_, rfl, rfl⟩
  · intro fuel hf
    unfold exchange
    rw [r1]
    dsimp only
    rw [deliver_new hsq r2, hw fuel hf]
    simp only [Option.map_some, Outcome.bind_ok]
    rw [hreplied]
    simp only [Outcome.bind_ok]
    rw [deliver_new (r4.trans hcq) p2]
    dsimp only
    rw [hwait]
    rfl
  · refine ⟨⟨rfl, rfl⟩, rfl, ⟨l, rfl, imagesArrive_of i3⟩, ?_, rfl, rfl, ⟨_, rfl, hrs.arrive⟩, rfl⟩
    by_cases h : e.objects = []
    · exact .inl ⟨if_pos h, h⟩
    · exact .inr ⟨_, if_neg h, h, hms.arrive⟩
  · exact ⟨⟨hcs, hss⟩, ⟨hca, hsa⟩, hver, hchan, hknown, hmulti, ⟨rfl, p4⟩, ⟨r3, p3⟩, rfl, rfl⟩

/-! ## C55: histories -/

theorem proper_of_metadata {env : Env} {c s c' s' : Handle} (hc : c'.metadata = c.metadata) (hs : s'.metadata = s.metadata) {n : Nat} {e : Exchange}
    {sent : List (Region × List (Str × Str))} (h : e.Proper env c s n sent) : e.Proper env c' s' n sent := by
  obtain ⟨h1, h2, h3, h4, h5, h6, h7, h8, h9⟩ := h
  refine ⟨h1, h2, ?_, by rw [hs]; exact h4, by rw [hc]; exact h5, h6, h7, h8, h9⟩
  intro hm
  apply h3
  rw [← hm]
  simp only [isMulti, hc]

theorem properSession_of_metadata {env : Env} {c s c' s' : Handle} (hc : c'.metadata = c.metadata) (hs : s'.metadata = s.metadata) :
    ∀ {n : Nat} {es : List (Exchange × List (Region × List (Str × Str)))}, ProperSession env c s n es → ProperSession env c' s' n es
  | _, [], _ => trivial
  | _, (_, _) :: _, h => ⟨proper_of_metadata hc hs h.1, properSession_of_metadata hc hs h.2⟩

theorem sessionSeen_of_metadata {s s' : Handle} (hs : s'.metadata = s.metadata) :
    ∀ {n : Nat} {es : List (Exchange × List (Region × List (Str × Str)))} {os : List Spec.Seen}, SessionSeen s' n es os → SessionSeen s n es os
  | _, [], _, h => h
  | _, (_, _) :: _, _, ⟨o, os', h1, ⟨g1, g2, g3, g4, g5, g6, g7, g8⟩, h3⟩ =>
    ⟨o, os', h1, ⟨g1, g2, by rw [← hs]; exact g3, g4, g5, g6, g7, g8⟩, sessionSeen_of_metadata hs h3⟩

/-- **C55, what holds.** For every history of proper exchanges (of any length, with any numbers of objects, with restarts): all calls
succeed and return what they should, and after it – therefore also after every beginning of it – client and server track the same number of objects, and
neither has anything left unread, i.e. every wait of the client has consumed exactly the messages of one reply. Missing from the full
claim: histories with calls that fail on the way, see `C55_counts_false`. -/
theorem C55_counts_partial (clientEnv serverEnv : Env) : ∀ (es : List (Exchange × List (Region × List (Str × Str)))) (c s : Handle) (n : Nat)
    (_ : Connected c s n) (_ : ProperSession clientEnv c s n es) (fuel : Nat) (_ : ∀ e ∈ es, e.1.objects.length + 2 ≤ fuel),
    ∃ os c' s', session clientEnv serverEnv fuel c s (es.map Prod.fst) = some (.ok (os, c', s')) ∧ SessionSeen s n es os ∧
      c'.objects = countAfter n (es.map Prod.fst) ∧ s'.objects = c'.objects ∧ c'.stream.input = [] ∧ s'.stream.input = [] ∧
      Connected c' s' (countAfter n (es.map Prod.fst)) := by
  intro es
  induction es with
  | nil => exact fun c s n hc hp fuel hf => ⟨[], c, s, rfl, rfl, hc.objects.1, hc.objects.2.trans hc.objects.1.symm, hc.quiet.1, hc.quiet.2, hc⟩
  | cons e es ih =>
    intro c s n hc hp fuel hf
    obtain ⟨e, sent⟩ := e
    obtain ⟨o, c₁, s₁, h1, h2, h3, h4, h5⟩ := C56_exchange_partial clientEnv serverEnv c s n e sent hc hp.1
    obtain ⟨os, c', s', i1, i2, i3⟩ := ih c₁ s₁ (e.count n) h3 (properSession_of_metadata h4 h5 hp.2) fuel fun x hx => hf x (by simp [hx])
    refine ⟨o :: os, c', s', ?_, ⟨o, os, rfl, h2, sessionSeen_of_metadata h5 i2⟩, i3⟩
    rw [List.map_cons, session, h1 fuel (hf (e, sent) (by simp))]
    dsimp only
    rw [i1]
    rfl

/-- **The session begins connected.** A server introduces itself (with a metadata record that can be transferred, in version 4) over a reliable stream on which it
has not yet received anything, and the client reads that introduction: then the two handles are connected, without objects. -/
theorem C55_start (m : Metadata) (kvs : List (Str × Str)) (hm : Introducible m kvs 4) (junk : UInt32) (stream : Stream) (hin : stream.input = [])
    (hout : stream.out.Reliable) (clientOut : Writer) (hco : clientOut.Reliable) :
    ∃ s news c, serverSetup junk m stream 4 = .ok s ∧ s.stream.out.sent = stream.out.sent ++ news ∧
      clientSetup ⟨none, bytes news, clientOut⟩ = .ok (some c) ∧ Connected c s 0 ∧ c.metadata.regions = m.regions ∧ s.metadata.images = m.images ∧
      s.metadata.channels = m.channels ∧ (c.isMulti = true ↔ m.flags &&& 1 ≠ 0) := by
  obtain ⟨s, news, h1, h2, h3, h4, h5, h6, h7, h8, h9, h10, h11, h12, h13⟩ := C31_handshake_partial m kvs 4 hm junk stream hout
  obtain ⟨c, g1, g2, g3, g4, g5, g6, g7, g8, g9, g10, g11, g12, g13, g14⟩ := h13 none [] clientOut
  rw [List.append_nil] at g1
  have hmul : c.isMulti = true ↔ m.flags &&& 1 ≠ 0 := by rw [g12]; simp
  refine ⟨s, news, c, h1, h2, g1, ⟨⟨g4, h5⟩, ⟨g3, h4⟩, g2, by rw [g8, h11], by rw [h11]; exact hm.channels.1, ?_, ⟨by rw [g14], by rw [h7, hin]⟩,
    ⟨by rw [g14]; exact hco, h8⟩, g5, h6⟩, g6, h10, h11, hmul⟩
  rw [Bool.eq_iff_iff, hmul, h12 rfl]

/-! ## What the hypotheses allow -/

/-- Objects whose regions the tracker supports are sent as they are. -/
theorem converted_self (env : Env) (formats : UInt32) (objs : List (Region × List (Str × Str)))
    (h : ∀ o ∈ objs, supports formats o.1.apiType = true) : Converted env formats objs objs := by
  induction objs with
  | nil => exact .nil
  | cons o objs ih =>
    refine .cons ⟨?_, rfl⟩ (ih fun o' ho' => h o' (by simp [ho']))
    unfold Region.toSend
    rw [if_pos (h o (by simp))]

namespace Demo

/-- A rectangle. -/
def rectangle : Region := .rectangle (.fin false (2 ^ 149)) (.fin false (2 ^ 149)) (.fin false (2 ^ 150)) (.fin false (2 ^ 150))

/-- The client starts with one object. -/
def begins : Exchange := ⟨true, images, [(rectangle, [(b!"id", b!"a")])], [(b!"time", b!"0")], [(rectangle, [(b!"score", b!"0.5")])]⟩

/-- It adds two objects with a later frame. -/
def adds : Exchange := ⟨false, images, [(rectangle, []), (rectangle, [(b!"id", b!"c")])], [], [(rectangle, []), (rectangle, []), (rectangle, [])]⟩

/-- It sends a frame without new objects. -/
def goesOn : Exchange := ⟨false, images, [], [(b!"time", b!"2")], [(rectangle, []), (rectangle, []), (rectangle, [])]⟩

end Demo

theorem rectangle_sendable : Sendable Demo.rectangle :=
  ⟨by decide +kernel, by decide +kernel⟩

theorem rectangles_sendable (kvss : List (List (Str × Str))) (h : ∀ kvs ∈ kvss, SendablePairs kvs) :
    SendableObjects (kvss.map fun kvs => (Demo.rectangle, kvs)) := by
  intro o ho
  obtain ⟨kvs, hk, rfl⟩ := List.mem_map.mp ho
  exact ⟨rectangle_sendable, h kvs hk⟩

instance (kvs : List (Str × Str)) : Decidable (SendablePairs kvs) := inferInstanceAs (Decidable (∀ kv ∈ kvs, ValidKey kv.1 ∧ Plain kv.2))

/-- A session whose hypotheses are met, right after the introduction: it starts, adds objects, goes on and starts again. -/
example : ∃ c s, Connected c s 0 ∧ ProperSession Demo.env c s 0 [(Demo.begins, Demo.begins.objects), (Demo.adds, Demo.adds.objects),
    (Demo.goesOn, []), (Demo.begins, Demo.begins.objects)] := by
  obtain ⟨s, news, c, h1, h2, h3, h4, h5, h6, h7, h8⟩ := C55_start Demo.metadata [] ⟨by decide, by decide, by decide, by decide, by decide,
    by rintro s (h | h | h) <;> cases h; decide, rfl, by decide⟩ 0 ⟨none, [], Demo.out⟩ rfl (by decide) Demo.out (by decide)
  have hmul : c.isMulti = true := h8.mpr (by decide)
  have hmode : ∀ n : Nat, c.isMulti = false → n = 1 := fun n h => by rw [hmul] at h; cases h
  have himg : SendableImages s.metadata.channels s.metadata.images Demo.images := by
    intro i hi hch
    rw [h7] at hch
    refine ⟨Demo.image, ?_, (by decide : Plain b!"/a.jpg"), by rw [h6]; decide⟩
    simp only [channelFlags, List.mem_cons, List.not_mem_nil, or_false] at hi
    rcases hi with rfl | rfl | rfl
    · rfl
    · exact absurd (by decide) hch
    · exact absurd (by decide) hch
  have hconv : ∀ kvss : List (List (Str × Str)), Converted Demo.env c.metadata.regions (kvss.map fun kvs => (Demo.rectangle, kvs)) (kvss.map fun kvs => (Demo.rectangle, kvs)) := by
    intro kvss
    apply converted_self
    intro o ho
    obtain ⟨kvs, -, rfl⟩ := List.mem_map.mp ho
    rw [h5]
    show supports Demo.metadata.regions Demo.rectangle.apiType = true
    decide
  refine ⟨c, s, h4, ?_, ?_, ?_, ?_, trivial⟩
  · exact ⟨by decide, by decide, hmode _, himg, hconv [_], rectangles_sendable [_] (by decide), by decide, by decide, rectangles_sendable [_] (by decide)⟩
  · exact ⟨by decide, by decide, hmode _, himg, hconv [_, _], rectangles_sendable [_, _] (by decide), by decide, by decide,
      rectangles_sendable [_, _, _] (by decide)⟩
  · exact ⟨by decide, by decide, hmode _, himg, hconv [], rectangles_sendable [] (by decide), by decide, by decide, rectangles_sendable [_, _, _] (by decide)⟩
  · exact ⟨by decide, by decide, hmode _, himg, hconv [_], rectangles_sendable [_] (by decide), by decide, by decide, rectangles_sendable [_] (by decide)⟩

/-- A region that the tracker does not support, and the form in which it is sent. -/
example : Converted Demo.env 4 [(Demo.rectangle, [])] [(.polygon [(.fin false (2 ^ 149), .fin false (2 ^ 149)),
    (.fin false (2 ^ 150), .fin false (2 ^ 149)), (.fin false (2 ^ 150), .fin false (2 ^ 150)),
    (.fin false (2 ^ 149), .fin false (2 ^ 150))], [])] :=
  .cons ⟨by decide +kernel, rfl⟩ .nil

/-! ## Violations -/

namespace Demo

/-- The two handles after the introduction. -/
def pair : Option (Handle × Handle) := (clientStart 4).bind fun c => (serverStart 4).map fun s => (c, s)

end Demo

instance (c s : Handle) (n : Nat) : Decidable (Connected c s n) :=
  decidable_of_iff ((c.server = false ∧ s.server = true) ∧ (c.isAlive = true ∧ s.isAlive = true) ∧ c.version = 4 ∧
    c.metadata.channels = s.metadata.channels ∧ s.metadata.channels &&& 7 = s.metadata.channels ∧ c.isMulti = s.isMulti ∧
    (c.stream.input = [] ∧ s.stream.input = []) ∧ (c.stream.out.Reliable ∧ s.stream.out.Reliable) ∧ (c.objects = n ∧ s.objects = n))
    ⟨fun ⟨h1, h2, h3, h4, h5, h6, h7, h8, h9⟩ => ⟨h1, h2, h3, h4, h5, h6, h7, h8, h9⟩,
      fun ⟨h1, h2, h3, h4, h5, h6, h7, h8, h9⟩ => ⟨h1, h2, h3, h4, h5, h6, h7, h8, h9⟩⟩

/-- **C55, violated.** The client starts tracking but forgets the image: the call fails. It tries again with the image, and that exchange is completed: all calls succeed.
But then the client tracks one object and the server two, and the second message of the reply is left unread by the client's wait. -/
theorem C55_counts_false :
    ∃ c s ret c₁ o c' s', Demo.pair = some (c, s) ∧ Connected c s 0 ∧
      c.clientInitialize Demo.env [none, none, none] (objectList [(Demo.rectangle, [])]) none = .ok (ret, c₁) ∧ ret = TRAX_ERROR ∧
      exchange Demo.env Demo.env 10 c₁ (deliver c c₁ s) ⟨true, Demo.images, [(Demo.rectangle, [])], [], [(Demo.rectangle, []), (Demo.rectangle, [])]⟩ =
        some (.ok (o, c', s')) ∧
      o.call = TRAX_OK ∧ o.request.ret = TRAX_INITIALIZE ∧ o.replied = TRAX_OK ∧ o.answer.ret = TRAX_STATE ∧
      c'.objects = 1 ∧ s'.objects = 2 ∧ c'.stream.input ≠ [] := by
  have : (Demo.pair.any fun (c, s) => decide (Connected c s 0) && match c.clientInitialize Demo.env [none, none, none] (objectList [(Demo.rectangle, [])]) none with
      | .ok (ret, c₁) => decide (ret = TRAX_ERROR) && match exchange Demo.env Demo.env 10 c₁ (deliver c c₁ s) ⟨true, Demo.images, [(Demo.rectangle, [])], [], [(Demo.rectangle, []), (Demo.rectangle, [])]⟩ with
        | some (.ok (o, c', s')) => decide (o.call = TRAX_OK ∧ o.request.ret = TRAX_INITIALIZE ∧ o.replied = TRAX_OK ∧ o.answer.ret = TRAX_STATE ∧
            c'.objects = 1 ∧ s'.objects = 2 ∧ c'.stream.input ≠ [])
        | _ => false
      | _ => false) = true := by decide +kernel
  obtain ⟨⟨c, s⟩, hp, hc⟩ := any_some this
  rw [Bool.and_eq_true] at hc
  obtain ⟨h0, hc⟩ := hc
  split at hc
  · rename_i ret c₁ h1
    rw [Bool.and_eq_true] at hc
    obtain ⟨h2, hc⟩ := hc
    split at hc
    · rename_i o c' s' h3
      exact ⟨c, s, ret, c₁, o, c', s', hp, of_decide_eq_true h0, h1, of_decide_eq_true h2, h3, of_decide_eq_true hc⟩
    · cases hc
  · cases hc

/-- An exchange on two connected handles, right after the introduction. -/
theorem demo_exchange (e : Exchange) (P : Spec.Seen → Prop) [∀ o, Decidable (P o)]
    (h : (Demo.pair.any fun (c, s) => decide (Connected c s 0) && match exchange Demo.env Demo.env 10 c s e with
      | some (.ok (o, _, _)) => decide (P o)
      | _ => false) = true) :
    ∃ c s o c' s', Connected c s 0 ∧ exchange Demo.env Demo.env 10 c s e = some (.ok (o, c', s')) ∧ P o := by
  obtain ⟨⟨c, s⟩, hp, hc⟩ := any_some h
  rw [Bool.and_eq_true] at hc
  obtain ⟨h0, hc⟩ := hc
  split at hc
  · rename_i o c' s' h3
    exact ⟨c, s, o, c', s', of_decide_eq_true h0, h3, of_decide_eq_true hc⟩
  · cases hc

/-- **C56, violated.** In a session for several objects the client may send frames before it has any object, the server's wait returns the frame and its (empty) reply is
accepted: but the client's wait reports an error instead of the reply. And a buffer image of five bytes arrives with six. -/
theorem C56_exchange_false :
    (∃ c s o c' s', Connected c s 0 ∧ exchange Demo.env Demo.env 10 c s ⟨false, Demo.images, [], [], []⟩ = some (.ok (o, c', s')) ∧
      o.call = TRAX_OK ∧ o.request.ret = TRAX_FRAME ∧ o.replied = TRAX_OK ∧ o.answer.ret = TRAX_ERROR) ∧
    (∃ c s o c' s', Connected c s 0 ∧
      exchange Demo.env Demo.env 10 c s ⟨true, [some (.buffer 1 [137, 80, 78, 71, 1]), none, none], [(Demo.rectangle, [])], [], [(Demo.rectangle, [])]⟩ =
        some (.ok (o, c', s')) ∧
      o.call = TRAX_OK ∧ o.request.images = some [some (.buffer 1 [137, 80, 78, 71, 1, 0]), none, none]) :=
  ⟨demo_exchange _ (fun o => o.call = TRAX_OK ∧ o.request.ret = TRAX_FRAME ∧ o.replied = TRAX_OK ∧ o.answer.ret = TRAX_ERROR) (by decide +kernel),
    demo_exchange _ (fun o => o.call = TRAX_OK ∧ o.request.images = some [some (.buffer 1 [137, 80, 78, 71, 1, 0]), none, none]) (by decide +kernel)⟩

end Trax
