import Verif.Spec.SotSession
import Verif.Props.Endpoint

/-!
# Property theorems C90, C91: sessions of the single-object protocol
-/

namespace Trax
open Spec Handle Cpp
open Region (bind_eq_ok map_eq_ok)

/-- More arguments behind the images do not matter. -/
theorem decodeImages_append (env : Env) (m : Metadata) (more : List Str) : ∀ (is : List Nat) (args : List Str) (l : ImageList),
    decodeImages env m is args = .ok (some l) → decodeImages env m is (args ++ more) = .ok (some l)
  | [], _, _, h => h
  | i :: is, args, l, h => by
    unfold decodeImages at h ⊢
    split at h
    · rename_i hs
      rw [if_pos hs]
      cases args with
      | nil => cases h
      | cons text args =>
        dsimp only [List.cons_append] at h ⊢
        obtain ⟨d, h1, h2⟩ := bind_eq_ok h
        rw [h1, Outcome.bind_ok]
        split at h2
        · cases h2
        · rename_i img hi
          split at h2
          · rename_i hf
            rw [if_pos hf]
            obtain ⟨rest, h3, h4⟩ := map_eq_ok h2
            cases rest with
            | none => cases h4
            | some rest => rw [decodeImages_append env m more is args rest h3]; exact congrArg Outcome.ok h4
          · cases h2
    · rename_i hs
      rw [if_neg hs]
      obtain ⟨rest, h3, h4⟩ := map_eq_ok h
      cases rest with
      | none => cases h4
      | some rest => rw [decodeImages_append env m more is args rest h3]; exact congrArg Outcome.ok h4

theorem isV4_false {h : Handle} (hv : h.version < 4) : h.clearError.isV4 = false := by
  simp only [isV4, clearError]
  exact decide_eq_false (by omega)

/-- What the client's call sends. -/
theorem sot_call (env : Env) (c s : Handle) (n : Nat) (e : Cpp.Spec.SingleExchange) (sent : Option Region) (texts : List Str)
    (hcs : c.server = false) (hca : c.isAlive = true) (hver : c.version < 4) (hcr : c.stream.out.Reliable) (hcn : c.objects = n) (hp : SotProper env c s n e sent)
    (he : encodeImages c.metadata.channels e.images channelIndexes = .ok (some texts)) (ht : ∀ t ∈ texts, NoNul t) :
    ∃ st data, sotCall env c e = .ok (TRAX_OK, { c with error := .none, objects := 1, stream := st }) ∧
      st.out.sent = c.stream.out.sent ++ wire (if e.start.isSome then .initialize else .frame) (texts ++ data) (Properties.ofPairs e.props).enumerate ∧
      st.out.Reliable ∧ st.input = c.stream.input ∧
      (match e.start with
      | none => data = []
      | some _ => ∃ r' t r'', sent = some r' ∧ data = [t] ∧ r'.string = .ok (some t) ∧ Region.parse t = .ok ⟨1, some r'', 0⟩ ∧ Arrives r' r'') := by
  obtain ⟨hst, -, hreg, -, -, -⟩ := hp
  have hal : c.clearError.alive = true := hca
  have hv4 := isV4_false hver
  have henc : encodeImages c.clearError.metadata.channels e.images channelIndexes = .ok (some texts) := he
  unfold sotCall
  cases hs : e.start with
  | none =>
    have hw := writeMessage_reliable c.stream.out hcr .frame texts (Properties.ofPairs e.props) (Properties.wf_ofPairs _) ht
    refine ⟨c.stream.write .frame texts (Properties.ofPairs e.props), [], ?_, ?_, hw.2.2, rfl, rfl⟩
    · dsimp only
      unfold clientFrame
      rw [if_neg (show ¬ c.server = true by simp [hcs])]
      simp only [hal, not_true_eq_false, if_false, hv4, Bool.false_eq_true, Option.getD_none, List.length_nil, gt_iff_lt, Nat.lt_irrefl,
        henc, Outcome.map, Outcome.bind_ok, Option.getD_some]
      rw [show (1 : Nat) = c.objects by rw [hcn, hst hs]]
      rfl
    · rw [List.append_nil]
      exact hw.1
  | some r =>
    obtain ⟨hsp, r', hsent, hto, hsend⟩ := hreg r hs
    obtain ⟨t, r'', e1, e2, e3, -⟩ := region_transfer hsend
    have htn : ∀ t' ∈ texts ++ [t], NoNul t' := by
      intro t' h'
      rcases List.mem_append.mp h' with h' | h'
      · exact ht t' h'
      · rw [List.mem_singleton.mp h']; exact plain_noNul (Region.string_deliverable e1).1
    have hw := writeMessage_reliable c.stream.out hcr .initialize (texts ++ [t]) (Properties.ofPairs e.props) (Properties.wf_ofPairs _) htn
    refine ⟨c.stream.write .initialize (texts ++ [t]) (Properties.ofPairs e.props), [t], ?_, hw.1, hw.2.2, rfl, r', t, r'', hsent, rfl, e1, e2, e3⟩
    have hget : ObjList.get (objectList [(r, [])]) 0 = some r := rfl
    have htype : ¬ r.apiType = 1 := by
      cases r with
      | special code => exact absurd rfl (hsp code)
      | rectangle => simp [Region.apiType, Region.type]
      | polygon => simp [Region.apiType, Region.type]
      | mask => simp [Region.apiType, Region.type]
    have harg : regionArgument env c.clearError.metadata.regions (some r) = .ok [t] := by
      unfold regionArgument
      have : Region.toSend env.legacy env.fresh r c.clearError.metadata.regions = .ok r' := hto
      dsimp only
      rw [this, Outcome.bind_ok, e1]
      rfl
    dsimp only
    unfold clientInitialize
    rw [if_neg (show ¬ c.server = true by simp [hcs])]
    simp only [hal, not_true_eq_false, if_false, hv4, Bool.false_eq_true, hget, htype, henc, Outcome.bind_ok, harg, Outcome.map, Option.getD_some,
      show (objectList [(r, [])]).length = 1 from rfl, gt_iff_lt, Nat.lt_irrefl, and_false]
    rfl

/-- What the client's call sends. -/
theorem sot_request (env : Env) (c s : Handle) (n : Nat) (e : Cpp.Spec.SingleExchange) (sent : Option Region) (texts : List Str)
    (hc : SotConnected c s n) (hp : SotProper env c s n e sent)
    (he : encodeImages c.metadata.channels e.images channelIndexes = .ok (some texts)) (ht : ∀ t ∈ texts, NoNul t) :
    ∃ st data, sotCall env c e = .ok (TRAX_OK, { c with error := .none, objects := 1, stream := st }) ∧
      st.out.sent = c.stream.out.sent ++ wire (if e.start.isSome then .initialize else .frame) (texts ++ data) (Properties.ofPairs e.props).enumerate ∧
      st.out.Reliable ∧ st.input = c.stream.input ∧
      (match e.start with
      | none => data = []
      | some _ => ∃ r' t r'', sent = some r' ∧ data = [t] ∧ r'.string = .ok (some t) ∧ Region.parse t = .ok ⟨1, some r'', 0⟩ ∧ Arrives r' r'') :=
  sot_call env c s n e sent texts hc.sides.1 hc.alive.1 hc.versions.1 hc.reliable.1 hc.objects hp he ht

/-- What the server's wait gives. -/
theorem sot_wait (env : Env) (s : Handle) (e : Cpp.Spec.SingleExchange) (texts data : List Str) (l : ImageList) (region : Option Region)
    (hs : s.server = true) (ha : s.isAlive = true) (hv : s.version < 4)
    (hd : decodeImages env s.metadata channelIndexes texts = .ok (some l)) (ht : ∀ t ∈ texts ++ data, Plain t ∧ ¬ LooksLikeProperty t)
    (hlen : texts.length = (channelIndexes.filter fun i => supports s.metadata.channels (ImageList.channelId i)).length)
    (hcount : ImageList.count s.metadata.channels = .ok texts.length) (hk : SendablePairs e.props)
    (hdata : match e.start with
      | none => data = [] ∧ region = none
      | some _ => ∃ t r'', data = [t] ∧ region = some r'' ∧ Region.parse t = .ok ⟨1, some r'', 0⟩)
    (hin : s.stream.input = bytes (wire (if e.start.isSome then .initialize else .frame) (texts ++ data) (Properties.ofPairs e.props).enumerate)) :
    ∃ mt objects, serverWaitSot env s (some Properties.create) = .ok
      ⟨if e.start.isSome then TRAX_INITIALIZE else TRAX_FRAME, some l, none, region, some (Properties.ofPairs e.props),
        { s with error := .none, objects := objects, stream := { s.stream with input := [], mtype := mt } }⟩ := by
  have hsp := SendableProps.ofPairs hk
  have hal : s.clearError.alive = true := ha
  have hv4 := isV4_false hv
  have hread := Stream.read_wire s.stream (if e.start.isSome then .initialize else .frame) (texts ++ data) (Properties.ofPairs e.props)
    hsp.wf (deliverable_args hsp ht) [] (by rw [hin, List.append_nil])
  have hread' : s.clearError.stream.read = _ := hread
  have hcount' : ImageList.count s.clearError.metadata.channels = .ok texts.length := hcount
  have hlen' : texts.length = (channelIndexes.filter fun i => supports s.clearError.metadata.channels (ImageList.channelId i)).length := hlen
  have hd' : decodeImages env s.clearError.metadata channelIndexes texts = .ok (some l) := hd
  cases hst : e.start with
  | none =>
    rw [hst] at hdata
    obtain ⟨rfl, rfl⟩ := hdata
    rw [hst, List.append_nil] at hread'
    refine ⟨some .frame, s.objects, ?_⟩
    unfold serverWaitSot
    rw [if_neg (show ¬ ¬ s.server = true by simp [hs])]
    simp only [hal, not_true_eq_false, if_false, hv4, Bool.false_eq_true, hcount', Outcome.bind_ok, hread', Option.isSome_none, ne_eq, hd', Outcome.map,
      Option.map_some, copyAll_create hsp.wf]
    rfl
  | some r =>
    rw [hst] at hdata
    obtain ⟨t, r'', rfl, rfl, hparse⟩ := hdata
    rw [hst] at hread'
    refine ⟨some .initialize, 1, ?_⟩
    have hda := decodeImages_append env s.clearError.metadata [t] channelIndexes texts l hd'
    have hget : (texts ++ [t])[(channelIndexes.filter fun i => supports s.clearError.metadata.channels (ImageList.channelId i)).length]? = some t := by
      rw [← hlen', List.getElem?_append_right (Nat.le_refl _), Nat.sub_self]
      rfl
    unfold serverWaitSot
    rw [if_neg (show ¬ ¬ s.server = true by simp [hs])]
    simp only [hal, not_true_eq_false, if_false, hv4, Bool.false_eq_true, hcount', Outcome.bind_ok, hread', Option.isSome_some, if_true, ne_eq, hda,
      List.length_append, List.length_cons, List.length_nil, Nat.zero_add, hget, hparse, Outcome.map, Option.map_some, copyAll_create hsp.wf]
    rfl

/-- **C90, what holds.** In every proper exchange of two connected handles of the single-object protocol (any version below 4) all calls succeed; the server's wait gives
the images and the properties that the client sent, and the region exactly if the client starts tracking; the client's wait gives the region and the properties of the
server's reply; and afterwards the handles are connected again, with tracking started and nothing left unread. Missing from the full claim: what `Sendable`,
`SendableImage` and `SendablePairs` exclude, start regions that are special, and frames before the start. -/
theorem C90_exchange_partial (clientEnv serverEnv : Env) (c s : Handle) (n : Nat) (e : Cpp.Spec.SingleExchange) (sent : Option Region)
    (hc : SotConnected c s n) (hp : SotProper clientEnv c s n e sent) :
    ∃ o c' s', sotExchange clientEnv serverEnv c s e = .ok (o, c', s') ∧ SotSeen e s sent o ∧ SotConnected c' s' 1 ∧
      c'.metadata = c.metadata ∧ s'.metadata = s.metadata := by
  obtain ⟨texts, l, i1, i2, i3, i4, i5⟩ := images_transfer serverEnv s.metadata e.images channelIndexes (SendableImages.byIndex hp.images)
  have hcount : ImageList.count s.metadata.channels = .ok texts.length := by rw [i5]; exact count_known hc.known
  obtain ⟨st, data, r1, r2, r3, r4, r5⟩ := sot_request clientEnv c s n e sent texts hc hp (by rw [hc.channels]; exact i1) fun t ht => plain_noNul (i4 t ht).1
  obtain ⟨⟨hcs, hss⟩, ⟨hca, hsa⟩, ⟨hcv, hsv⟩, hchan, hknown, ⟨hcq, hsq⟩, ⟨hcr, hsr⟩, hcn⟩ := hc
  obtain ⟨hst, himg, hreg, hprops, hreply, hrprops⟩ := hp
  have hregion : ∃ region, (match e.start with
      | none => data = [] ∧ region = none
      | some _ => ∃ t r'', data = [t] ∧ region = some r'' ∧ Region.parse t = .ok ⟨1, some r'', 0⟩) ∧
      (match e.start with
      | none => region = none
      | some _ => ∃ r' r'', sent = some r' ∧ region = some r'' ∧ Arrives r' r'') ∧ ∀ t ∈ data, Plain t ∧ ¬ LooksLikeProperty t := by
    cases hs : e.start with
    | none => rw [hs] at r5; subst r5; exact ⟨none, ⟨rfl, rfl⟩, rfl, by simp⟩
    | some r =>
      rw [hs] at r5
      obtain ⟨r', t, r'', a1, a2, a3, a4, a5⟩ := r5
      refine ⟨some r'', ⟨t, r'', a2, rfl, a4⟩, ⟨r', r'', a1, rfl, a5⟩, ?_⟩
      intro t' h'
      rw [a2, List.mem_singleton] at h'
      rw [h']
      exact Region.string_deliverable a3
  obtain ⟨region, g1, g2, g3⟩ := hregion
  obtain ⟨mt, objects, hw⟩ := sot_wait serverEnv { s with stream := { s.stream with
      input := bytes (wire (if e.start.isSome then .initialize else .frame) (texts ++ data) (Properties.ofPairs e.props).enumerate) } } e texts data l region
    hss hsa hsv i2 (fun t ht => (List.mem_append.mp ht).elim (i4 t) (g3 t)) i5 hcount hprops g1 rfl
  dsimp only at hw
  -- the reply
  obtain ⟨rs, hrs⟩ := announces .state (objs := [(e.reply, e.replyProps)]) (by
    intro o ho; rw [List.mem_singleton] at ho; subst ho; exact ⟨hreply, hrprops⟩)
  cases hrs with
  | @cons _ _ t r'' _ ms hs1 hs2 hs3 hs4 hs5 hnil =>
    cases hnil
    have hwr := writeMessage_reliable s.stream.out hsr .state [t] (Properties.ofPairs e.replyProps) (Properties.wf_ofPairs _) (by
      intro t' h'; rw [List.mem_singleton] at h'; subst h'; exact plain_noNul (Region.string_deliverable hs1).1)
    have hreplied : serverReplySot ({ s with error := .none, objects := objects, stream := { s.stream with input := [], mtype := mt } } : Handle) (some e.reply)
        (some (Properties.ofPairs e.replyProps)) = .ok (TRAX_OK, { s with error := .none, objects := objects, stream := (Stream.write ⟨mt, [], s.stream.out⟩ .state [t] (Properties.ofPairs e.replyProps)) }) := by
      unfold serverReplySot
      rw [if_neg (by simp [hss])]
      dsimp only
      rw [if_neg (by have : s.alive = true := hsa; simpa [alive, clearError] using this),
        if_neg (Bool.eq_false_iff.mp (show ({ s with error := .none, objects := objects, stream := { s.stream with input := [], mtype := mt } } : Handle).clearError.isV4 = false from isV4_false hsv))]
      rw [show regionText (some e.reply) = .ok (some t) from hs1]
      rfl
    have hsent : (Stream.write ⟨mt, [], s.stream.out⟩ .state [t] (Properties.ofPairs e.replyProps)).out.sent =
        s.stream.out.sent ++ announcement .state [(t, r'', Properties.ofPairs e.replyProps)] := by
      have h1 : (s.stream.out.writeMessage .state [t] (Properties.ofPairs e.replyProps)).sent = _ := hwr.1
      show (s.stream.out.writeMessage .state [t] (Properties.ofPairs e.replyProps)).sent = _
      rw [h1]
      simp [announcement]
    -- the client's wait
    obtain ⟨mt', w1⟩ := clientWaitLoop_reply clientEnv (some Properties.create) (Announces.cons (type := .state) hs1 hs2 hs3 hs4 hs5 .nil) 0 [] TRAX_ERROR
      ({ c with error := .none, objects := 1, stream := { st with input := bytes (announcement .state [(t, r'', Properties.ofPairs e.replyProps)]) } } : Handle) []
        (List.append_nil _).symm rfl
    have hwait : clientWait clientEnv ({ c with error := .none, objects := 1, stream := { st with input := bytes (announcement .state [(t, r'', Properties.ofPairs e.replyProps)]) } } : Handle)
        (some Properties.create) = .ok ⟨TRAX_STATE, none, some [(some r'', Properties.ofPairs e.replyProps)], none, some Properties.create,
          { c with error := .none, objects := 1, stream := { st with input := [], mtype := mt' } }⟩ := by
      rw [clientWait_loop]
      · exact w1
      · exact hcs
      · exact hca
    refine ⟨⟨TRAX_OK, ⟨if e.start.isSome then TRAX_INITIALIZE else TRAX_FRAME, some l, none, region, some (Properties.ofPairs e.props),
        { s with error := .none, objects := objects, stream := { s.stream with input := [], mtype := mt } }⟩, TRAX_OK,
        ⟨TRAX_STATE, none, some [(some r'', Properties.ofPairs e.replyProps)], none, some Properties.create,
          { c with error := .none, objects := 1, stream := { st with input := [], mtype := mt' } }⟩⟩,
      { c with error := .none, objects := 1, stream := { st with input := [], mtype := mt' } },
      { s with error := .none, objects := objects, stream := Stream.write ⟨mt, [], s.stream.out⟩ .state [t] (Properties.ofPairs e.replyProps) },
      ?_, ?_, ?_, rfl, rfl⟩
    · unfold sotExchange
      rw [r1]
      rw [Outcome.bind_ok]
      dsimp only
      rw [deliver_new hsq r2, hw, Outcome.bind_ok]
      dsimp only
      rw [hreplied, Outcome.bind_ok]
      dsimp only
      rw [deliver_new (r4.trans hcq) hsent]
      dsimp only
      rw [hwait]
      rfl
    · exact ⟨⟨rfl, rfl⟩, rfl, ⟨l, rfl, imagesArrive_of i3⟩, g2, rfl, rfl, ⟨_, rfl, .cons ⟨⟨r'', rfl, hs3⟩, rfl⟩ .nil⟩, rfl⟩
    · exact ⟨⟨hcs, hss⟩, ⟨hca, hsa⟩, ⟨hcv, hsv⟩, hchan, hknown, ⟨rfl, rfl⟩, ⟨r3, hwr.2.2⟩, rfl⟩


/-! ## Histories -/

theorem sotProper_of_metadata {env : Env} {c s c' s' : Handle} (hc : c'.metadata = c.metadata) (hs : s'.metadata = s.metadata) {n : Nat}
    {e : Cpp.Spec.SingleExchange} {sent : Option Region} (h : SotProper env c s n e sent) : SotProper env c' s' n e sent := by
  obtain ⟨h1, h2, h3, h4, h5, h6⟩ := h
  exact ⟨h1, by rw [hs]; exact h2, by rw [hc]; exact h3, h4, h5, h6⟩

theorem sotProperSession_of_metadata {env : Env} {c s c' s' : Handle} (hc : c'.metadata = c.metadata) (hs : s'.metadata = s.metadata) :
    ∀ {n : Nat} {es : List (Cpp.Spec.SingleExchange × Option Region)}, SotProperSession env c s n es → SotProperSession env c' s' n es
  | _, [], _ => trivial
  | _, (_, _) :: _, h => ⟨sotProper_of_metadata hc hs h.1, sotProperSession_of_metadata hc hs h.2⟩

/-- **C90 for histories.** For every history of proper exchanges, of any length and with any number of restarts, all calls succeed and return what they
should, and after it both handles have read everything that was sent to them. -/
theorem C90_session_partial (clientEnv serverEnv : Env) : ∀ (es : List (Cpp.Spec.SingleExchange × Option Region)) (c s : Handle) (n : Nat)
    (_ : SotConnected c s n) (_ : SotProperSession clientEnv c s n es),
    ∃ os c' s', sotSession clientEnv serverEnv c s (es.map Prod.fst) = .ok (os, c', s') ∧ SotSessionSeen s es os ∧
      c'.stream.input = [] ∧ s'.stream.input = [] ∧ SotConnected c' s' (if es = [] then n else 1)
  | [], c, s, n, hc, _ => ⟨[], c, s, rfl, .nil, hc.quiet.1, hc.quiet.2, hc⟩
  | (e, sent) :: es, c, s, n, hc, hp => by
    obtain ⟨o, c₁, s₁, h1, h2, h3, h4, h5⟩ := C90_exchange_partial clientEnv serverEnv c s n e sent hc hp.1
    obtain ⟨os, c', s', i1, i2, i3, i4, i5⟩ := C90_session_partial clientEnv serverEnv es c₁ s₁ 1 h3 (sotProperSession_of_metadata h4 h5 hp.2)
    refine ⟨o :: os, c', s', ?_, .cons h2 ?_, i3, i4, ?_⟩
    · rw [List.map_cons, sotSession, h1, Outcome.bind_ok]
      dsimp only
      rw [i1]
      rfl
    · refine List.Forall₂.imp ?_ i2
      rintro e o ⟨g1, g2, g3, g4, g5, g6, g7, g8⟩
      exact ⟨g1, g2, by rw [← h5]; exact g3, g4, g5, g6, g7, g8⟩
    · rw [if_neg (by simp)]
      split at i5 <;> exact i5

/-- **The session begins connected.** A server introduces itself with a version from 1 to 3 over a reliable stream on which it
has not yet received anything, and the client reads that introduction: then the two handles are connected, and tracking has not started. -/
theorem C90_start (m : Metadata) (kvs : List (Str × Str)) (version : Int) (hv : version < 4) (hm : Introducible m kvs version) (junk : UInt32)
    (stream : Stream) (hin : stream.input = []) (hout : stream.out.Reliable) (clientOut : Writer) (hco : clientOut.Reliable) :
    ∃ s news c, serverSetup junk m stream version = .ok s ∧ s.stream.out.sent = stream.out.sent ++ news ∧
      clientSetup ⟨none, bytes news, clientOut⟩ = .ok (some c) ∧ SotConnected c s 0 ∧ c.metadata.regions = m.regions ∧ s.metadata.images = m.images ∧
      s.metadata.channels = m.channels := by
  obtain ⟨s, news, h1, h2, h3, h4, h5, h6, h7, h8, h9, h10, h11, h12, h13⟩ := C31_handshake_partial m kvs version hm junk stream hout
  obtain ⟨c, g1, g2, g3, g4, g5, g6, g7, g8, g9, g10, g11, g12, g13, g14⟩ := h13 none [] clientOut
  rw [List.append_nil] at g1
  exact ⟨s, news, c, h1, h2, g1, ⟨⟨g4, h5⟩, ⟨g3, h4⟩, ⟨by omega, by omega⟩, by rw [g8, h11], by rw [h11]; exact hm.channels.1,
    ⟨by rw [g14], by rw [h7, hin]⟩, ⟨by rw [g14]; exact hco, h8⟩, g5⟩, g6, h10, h11⟩

namespace Demo

/-- Tracking starts. -/
def sotBegins : Cpp.Spec.SingleExchange := ⟨some rectangle, images, [(b!"time", b!"0")], rectangle, [(b!"score", b!"0.5")]⟩

/-- A frame; the tracker reports a failure with the special code 2. -/
def sotGoesOn : Cpp.Spec.SingleExchange := ⟨none, images, [], .special 2, []⟩

end Demo

/-- A session whose hypotheses are met, right after the introduction with version 3: it starts, goes on and starts again. -/
example : ∃ c s, SotConnected c s 0 ∧ SotProperSession Demo.env c s 0 [(Demo.sotBegins, some Demo.rectangle), (Demo.sotGoesOn, none),
    (Demo.sotBegins, some Demo.rectangle)] := by
  obtain ⟨s, news, c, h1, h2, h3, h4, h5, h6, h7⟩ := C90_start Demo.metadata [] 3 (by decide) ⟨by decide, by decide, by decide, by decide, by decide,
    (by rintro s (h | h | h) <;> cases h; decide), rfl, by decide⟩ 0 ⟨none, [], Demo.out⟩ rfl (by decide) Demo.out (by decide)
  have himg : SendableImages s.metadata.channels s.metadata.images Demo.images := by
    intro i hi hch
    rw [h7] at hch
    refine ⟨Demo.image, ?_, (by decide : Plain b!"/a.jpg"), by rw [h6]; decide⟩
    simp only [channelFlags, List.mem_cons, List.not_mem_nil, or_false] at hi
    rcases hi with rfl | rfl | rfl
    · rfl
    · exact absurd (by decide) hch
    · exact absurd (by decide) hch
  have hreg : ∀ r, Demo.sotBegins.start = some r → (∀ code, r ≠ .special code) ∧ ∃ r', some Demo.rectangle = some r' ∧
      Region.toSend Demo.env.legacy Demo.env.fresh r c.metadata.regions = .ok r' ∧ Sendable r' := by
    intro r hr
    cases hr
    refine ⟨fun code h => (by cases h), _, rfl, ?_, rectangle_sendable⟩
    rw [h5]
    unfold Region.toSend
    rw [if_pos (by decide)]
  refine ⟨c, s, h4, ⟨by decide, himg, hreg, by decide, rectangle_sendable, by decide⟩, ⟨by decide, himg, ?_, by decide, ?_, by decide⟩,
    ⟨by decide, himg, hreg, by decide, rectangle_sendable, by decide⟩, trivial⟩
  · intro r hr; cases hr
  · show (2 : Int).natAbs ≤ 2 ^ 24
    decide

/-! ## The C++ classes -/

/-- **C91, what holds.** In every proper exchange of a `Client` and a `ServerSOT` all calls succeed; the server's wait gives the images, the properties and, exactly if the client starts
tracking, the region that the client sent; the client's wait gives the region and the properties of the server's reply (unlike with `ServerMOT`, see C65). Missing from the
full claim: the same as for C90. -/
theorem C91_single_sot_partial (clientEnv serverEnv : Env) (c s : Handle) (n : Nat) (e : Cpp.Spec.SingleExchange) (sent : Option Region)
    (hc : SotConnected c s n) (hp : SotProper clientEnv c s n e sent) (hw : ∀ r, e.start = some r → WellFormed r) :
    ∃ o c' s', Cpp.Spec.sotSingleExchange clientEnv serverEnv c s e = .ok (o, some c', some s') ∧ e.SotSeen s sent o ∧ SotConnected c' s' 1 ∧
      c'.metadata = c.metadata ∧ s'.metadata = s.metadata := by
  obtain ⟨o, c', s', hex, hseen, hconn, hmc, hms⟩ := C90_exchange_partial clientEnv serverEnv c s n e sent hc hp
  obtain ⟨⟨hs1, hs2⟩, hs3, ⟨il, hs4, hs4'⟩, hs5, hs6, hs7, ⟨rl, hs8, hs9⟩, hs10⟩ := hseen
  unfold sotExchange at hex
  obtain ⟨⟨call, c₁⟩, x1, hex⟩ := bind_eq_ok hex
  dsimp only at hex
  obtain ⟨request, x2, hex⟩ := bind_eq_ok hex
  obtain ⟨⟨replied, s₁⟩, x3, hex⟩ := bind_eq_ok hex
  dsimp only at hex
  obtain ⟨answer, x4, hex⟩ := map_eq_ok hex
  cases hex
  have hcall : Cpp.Spec.singleCall clientEnv c e = .ok (call, some c₁) := by
    unfold Cpp.Spec.singleCall
    unfold sotCall at x1
    cases he : e.start with
    | none =>
      rw [he] at x1
      dsimp only at x1 ⊢
      unfold clientFrameImages
      dsimp only
      rw [x1]
      rfl
    | some r =>
      rw [he] at x1
      dsimp only at x1 ⊢
      unfold clientInitializeRegion
      simp only [oneObject_wellFormed _ (hw r he), Outcome.bind_ok, x1]
      rfl
  cases hs9 with
  | @cons _ x _ l' hx hnil =>
    cases hnil
    obtain ⟨⟨rr, hx1, harr⟩, hx2⟩ := hx
    obtain ⟨y1, y2⟩ := x
    dsimp only at hx1 hx2 harr hs1 hs2 hs3 hs4 hs5 hs6 hs7 hs8 hs10
    subst hx1; subst hx2
    have hwf := arrives_wellFormed hp.reply harr
    have htake : takeObject clientEnv answer none Properties.create true =
        .ok ⟨answer.ret, answer.images, some rr, Properties.ofPairs e.replyProps, some answer.handle⟩ := by
      unfold takeObject
      rw [hs8]
      dsimp only
      have hg : ObjList.get [(some rr, Properties.ofPairs e.replyProps)] 0 = some rr := rfl
      have hpz : (ObjList.properties [(some rr, Properties.ofPairs e.replyProps)] 0).getD Properties.create = Properties.ofPairs e.replyProps := rfl
      rw [if_neg (by simp [ObjList.count]), if_pos (by simp [ObjList.count])]
      rw [hg, hpz, clone_wellFormed _ _ hwf]
      simp only [Outcome.map, Outcome.bind_ok]
      have : Properties.append (Properties.ofPairs e.replyProps) Properties.create false = Properties.ofPairs e.replyProps :=
        copyAll_create (Properties.wf_ofPairs _)
      rw [this]
      rfl
    refine ⟨⟨call, ⟨request.ret, request.images, request.region.or none, request.props.getD Properties.create, some request.handle⟩, replied,
      ⟨answer.ret, answer.images, some rr, Properties.ofPairs e.replyProps, some answer.handle⟩⟩, answer.handle, s', ?_, ?_, hconn, hmc, hms⟩
    · unfold Cpp.Spec.sotSingleExchange
      rw [hcall, Outcome.bind_ok]
      dsimp only
      unfold serverSotWait
      simp only [x2, Outcome.map, Outcome.bind_ok]
      unfold serverSotReply
      simp only [x3, Outcome.map, Outcome.bind_ok]
      unfold clientWaitRegion
      simp only [x4, Outcome.bind_ok, hs10, Option.getD_some, htake]
    · refine ⟨⟨hs1, hs2⟩, hs3, ⟨il, hs4, hs4'⟩, ?_, ?_, hs7, ⟨rr, rfl, harr⟩, fun _ _ => rfl⟩
      · dsimp only
        rw [Option.or_none]
        exact hs5
      · intro k _
        dsimp only
        rw [hs6]
        rfl

/-! ## Violations -/

/-- The two handles after the introduction with version 3. -/
def Demo.sotPair : Option (Handle × Handle) := (clientStart 3).bind fun c => (serverStart 3).map fun s => (c, s)

instance (c s : Handle) (n : Nat) : Decidable (SotConnected c s n) :=
  decidable_of_iff ((c.server = false ∧ s.server = true) ∧ (c.isAlive = true ∧ s.isAlive = true) ∧ (c.version < 4 ∧ s.version < 4) ∧
    c.metadata.channels = s.metadata.channels ∧ s.metadata.channels &&& 7 = s.metadata.channels ∧
    (c.stream.input = [] ∧ s.stream.input = []) ∧ (c.stream.out.Reliable ∧ s.stream.out.Reliable) ∧ c.objects = n)
    ⟨fun ⟨h1, h2, h3, h4, h5, h6, h7, h8⟩ => ⟨h1, h2, h3, h4, h5, h6, h7, h8⟩,
      fun ⟨h1, h2, h3, h4, h5, h6, h7, h8⟩ => ⟨h1, h2, h3, h4, h5, h6, h7, h8⟩⟩

/-- **C90, violated.** A client that starts with a special region is aborted, and nothing is sent. A frame before the start is accepted by all
calls of both sides, but the client's wait reports an error and leaves the reply unread, so that the wait of the next exchange returns the reply of the first one. -/
theorem C90_exchange_false :
    (∀ (env : Env) (c : Handle) (images : ImageList) (props : Option Properties) (code : Int) (kvs : List (Str × Str)), c.server = false → c.isAlive = true →
      c.version < 4 → c.clientInitialize env images (objectList [(.special code, kvs)]) props = .abort) ∧
    (∃ c s o c' s' o₂ c₂ s₂, SotConnected c s 0 ∧ sotExchange Demo.env Demo.env c s ⟨none, Demo.images, [], .special 7, []⟩ = .ok (o, c', s') ∧
      o.call = TRAX_OK ∧ o.request.ret = TRAX_FRAME ∧ o.replied = TRAX_OK ∧ o.answer.ret = TRAX_ERROR ∧ c'.stream.input ≠ [] ∧
      sotExchange Demo.env Demo.env c' s' ⟨some Demo.rectangle, Demo.images, [], .special 8, []⟩ = .ok (o₂, c₂, s₂) ∧
      o₂.call = TRAX_OK ∧ o₂.request.ret = TRAX_INITIALIZE ∧ o₂.replied = TRAX_OK ∧ o₂.answer.ret = TRAX_STATE ∧
      o₂.answer.objects = some [(some (.special 7), Properties.create)]) := by
  constructor
  · intro env c images props code kvs hs ha hv
    have hal : c.clearError.alive = true := ha
    unfold clientInitialize
    rw [if_neg (show ¬ c.server = true by simp [hs])]
    simp only [hal, not_true_eq_false, if_false, isV4_false hv, Bool.false_eq_true, show (objectList [(Region.special code, kvs)]).length = 1 from rfl, gt_iff_lt,
      Nat.lt_irrefl, and_false, show ObjList.get (objectList [(Region.special code, kvs)]) 0 = some (.special code) from rfl]
    rfl
  · have : (Demo.sotPair.any fun (c, s) => decide (SotConnected c s 0) && match sotExchange Demo.env Demo.env c s ⟨none, Demo.images, [], .special 7, []⟩ with
        | .ok (o, c', s') => decide (o.call = TRAX_OK ∧ o.request.ret = TRAX_FRAME ∧ o.replied = TRAX_OK ∧ o.answer.ret = TRAX_ERROR ∧ c'.stream.input ≠ []) &&
          match sotExchange Demo.env Demo.env c' s' ⟨some Demo.rectangle, Demo.images, [], .special 8, []⟩ with
          | .ok (o₂, _, _) => decide (o₂.call = TRAX_OK ∧ o₂.request.ret = TRAX_INITIALIZE ∧ o₂.replied = TRAX_OK ∧ o₂.answer.ret = TRAX_STATE ∧
              o₂.answer.objects = some [(some (.special 7), Properties.create)])
          | _ => false
        | _ => false) = true := by decide +kernel
    obtain ⟨⟨c, s⟩, -, hc⟩ := any_some this
    rw [Bool.and_eq_true] at hc
    obtain ⟨h0, hc⟩ := hc
    split at hc
    · rename_i o c' s' h1
      rw [Bool.and_eq_true] at hc
      obtain ⟨h2, hc⟩ := hc
      split at hc
      · rename_i o₂ c₂ s₂ h3
        obtain ⟨a1, a2, a3, a4, a5⟩ := of_decide_eq_true h2
        exact ⟨c, s, o, c', s', o₂, c₂, s₂, of_decide_eq_true h0, h1, a1, a2, a3, a4, a5, h3, of_decide_eq_true hc⟩
      · cases hc
    · cases hc

/-- **C91, violated.** A `Client` that starts with a special region is aborted. A frame before the start is answered by the `ServerSOT`, but the client's `wait` reports an error, and
the `wait` of the next exchange gives the region of the first reply. -/
theorem C91_single_sot_false :
    (∀ (env : Env) (c : Handle) (images : ImageList) (props : Option Properties) (code : Int), c.server = false → c.isAlive = true → c.version < 4 →
      Cpp.clientInitializeRegion env (some c) images (some (.special code)) props = .abort) ∧
    (∃ c s o c' s' o₂ c₂ s₂, SotConnected c s 0 ∧
      Cpp.Spec.sotSingleExchange Demo.env Demo.env c s ⟨none, Demo.images, [], .special 7, []⟩ = .ok (o, some c', some s') ∧
      o.call = TRAX_OK ∧ o.request.ret = TRAX_FRAME ∧ o.replied = TRAX_OK ∧ o.answer.ret = TRAX_ERROR ∧
      Cpp.Spec.sotSingleExchange Demo.env Demo.env c' s' ⟨some Demo.rectangle, Demo.images, [], .special 8, []⟩ = .ok (o₂, c₂, s₂) ∧
      o₂.call = TRAX_OK ∧ o₂.request.ret = TRAX_INITIALIZE ∧ o₂.replied = TRAX_OK ∧ o₂.answer.ret = TRAX_STATE ∧
      o₂.answer.region = some (.special 7)) := by
  constructor
  · intro env c images props code hs ha hv
    have := C90_exchange_false.1 env c images props code [] hs ha hv
    unfold Cpp.clientInitializeRegion
    dsimp only
    have e : Cpp.oneObject env (some (.special code)) = .ok (objectList [(.special code, [])]) := rfl
    rw [e, Outcome.bind_ok, this]
    rfl
  · have : (Demo.sotPair.any fun (c, s) => decide (SotConnected c s 0) && match Cpp.Spec.sotSingleExchange Demo.env Demo.env c s ⟨none, Demo.images, [], .special 7, []⟩ with
        | .ok (o, some c', some s') => decide (o.call = TRAX_OK ∧ o.request.ret = TRAX_FRAME ∧ o.replied = TRAX_OK ∧ o.answer.ret = TRAX_ERROR) &&
          match Cpp.Spec.sotSingleExchange Demo.env Demo.env c' s' ⟨some Demo.rectangle, Demo.images, [], .special 8, []⟩ with
          | .ok (o₂, _, _) => decide (o₂.call = TRAX_OK ∧ o₂.request.ret = TRAX_INITIALIZE ∧ o₂.replied = TRAX_OK ∧ o₂.answer.ret = TRAX_STATE ∧
              o₂.answer.region = some (.special 7))
          | _ => false
        | _ => false) = true := by decide +kernel
    obtain ⟨⟨c, s⟩, -, hc⟩ := any_some this
    rw [Bool.and_eq_true] at hc
    obtain ⟨h0, hc⟩ := hc
    split at hc
    · rename_i o c' s' h1
      rw [Bool.and_eq_true] at hc
      obtain ⟨h2, hc⟩ := hc
      split at hc
      · rename_i o₂ c₂ s₂ h3
        obtain ⟨a1, a2, a3, a4⟩ := of_decide_eq_true h2
        exact ⟨c, s, o, c', s', o₂, c₂, s₂, of_decide_eq_true h0, h1, a1, a2, a3, a4, h3, of_decide_eq_true hc⟩
      · cases hc
    · cases hc

end Trax
