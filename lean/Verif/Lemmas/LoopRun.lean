import Verif.Lemmas.StaticRun
import Verif.Spec.LoopRun

/-!
# Lemmas on a tracker that follows the documentation, behind `traxclient`
-/

namespace Trax
open Spec Handle
open Region (bind_eq_ok map_eq_ok)

/-- A region that can be sent is written, read and written again as the same text. -/
theorem region_settles {r : Region} (h : Sendable r) :
    ∃ t r', r.string = .ok (some t) ∧ Region.parse t = .ok ⟨1, some r', 0⟩ ∧ r'.string = .ok (some t) ∧ Arrives r r' ∧ WellFormed r' := by
  by_cases hsp : ∃ code, r = .special code
  · obtain ⟨code, rfl⟩ := hsp
    obtain ⟨t, r', h1, h2, h3, h4⟩ := region_transfer h
    have : r' = .special code := h3
    subst this
    exact ⟨t, _, h1, h2, h1, h3, h4⟩
  · obtain ⟨t, r', h1, h2, h3, -, h5, -, h7, -⟩ := region_returns h fun code hc => hsp ⟨code, hc⟩
    exact ⟨t, r', h1, h2, h3, h5, h7⟩

namespace Loop
open Link Cli.Spec
variable {τ : Type}

/-- The two ends of the connection: they agree, and what the client has not read is other output. -/
structure Joined (m : Metadata) (c s : Handle) (n : Nat) : Prop where
  client : c.server = false ∧ c.isAlive = true ∧ c.version = 4 ∧ c.objects = n ∧ c.stream.out.Reliable
  server : s.server = true ∧ s.isAlive = true ∧ s.objects = n ∧ s.stream.out.Reliable ∧ s.stream.input = []
  metadata : c.metadata.regions = m.regions ∧ c.metadata.channels = m.channels ∧ Link.about c.metadata = Link.about m
  tracker : s.metadata.images = m.images ∧ s.metadata.channels = m.channels
  noise : ∃ noise, Noise noise ∧ c.stream.input = bytes noise

/-- The request that the client has sent, with the images that come. -/
def Wanted (senv : Env) (s : Handle) (text : Str) (start : Option (Str × Region)) (l : ImageList) (props : List (Str × Str)) : Prop :=
  ∃ texts, decodeImages senv s.metadata channelIndexes texts = .ok (some l) ∧ (∀ t ∈ texts, Plain t ∧ ¬ LooksLikeProperty t) ∧
    ImageList.count s.metadata.channels = .ok texts.length ∧ SendablePairs props ∧
    text = announcement .initialize (start.toList.map fun x => (x.1, x.2, Properties.create)) ++ wire .frame texts (Properties.ofPairs props).enumerate

/-- Images for all channels that are declared, which come as `l`. -/
def Sends (m : Metadata) (l : ImageList) (images : Cli.FrameImages) : Prop :=
  SendableImages m.channels m.images (imageList images) ∧ ∀ l', ImagesArrive m.channels (imageList images) l' → l' = l

/-- A region that comes as another one. -/
structure Comes (r : Region) (t : Str) (r' : Region) : Prop where
  text : r.string = .ok (some t)
  read : Region.parse t = .ok ⟨1, some r', 0⟩
  near : Arrives r r'
  wf : WellFormed r'

section
variable {env senv : Env} {m : Metadata} {c s : Handle} {n : Nat}

theorem images_text (h : Joined m c s n) (hch : m.channels &&& 7 = m.channels) (senv : Env) {images : Cli.FrameImages} {l : ImageList} (hi : Sends m l images) :
    ∃ texts, encodeImages c.metadata.channels (imageList images) channelIndexes = .ok (some texts) ∧
      decodeImages senv s.metadata channelIndexes texts = .ok (some l) ∧ (∀ t ∈ texts, Plain t ∧ ¬ LooksLikeProperty t) ∧
      ImageList.count s.metadata.channels = .ok texts.length := by
  obtain ⟨hm1, hm2⟩ := h.tracker
  obtain ⟨hi1, hi2⟩ := hi
  have hi' : SendableImages s.metadata.channels s.metadata.images (imageList images) := by rw [hm1, hm2]; exact hi1
  obtain ⟨texts, l', i1, i2, i3, i4, i5⟩ := images_transfer senv s.metadata (imageList images) channelIndexes (SendableImages.byIndex hi')
  have hl : l' = l := by
    apply hi2
    rw [← hm2]
    exact imagesArrive_of i3
  subst hl
  refine ⟨texts, ?_, i2, i4, ?_⟩
  · rw [h.metadata.2.1, ← hm2]; exact i1
  · rw [i5]; exact count_known (by rw [hm2]; exact hch)

theorem setup_joined (h : Joined m c s 0) (hch : m.channels &&& 7 = m.channels) (env senv : Env) {r r₀ r' : Region} {t : Str} (hr : Sendable r)
    (hto : Region.toSend env.legacy env.fresh r m.regions = .ok r₀) (ht : r₀.string = .ok (some t))
    (hp : Region.parse t = .ok ⟨1, some r', 0⟩) (ha : Arrives r₀ r') (hw : WellFormed r') {kvs : List (Str × Str)} (hk : SendablePairs kvs) {images : Cli.FrameImages}
    {l : ImageList} (hi : Sends m l images) :
    ∃ st, Cpp.clientInitializeRegion env (some c) (imageList images) (some r) (some (Properties.ofPairs kvs)) =
        .ok (TRAX_OK, some { c with error := .none, objects := 1, stream := st }) ∧ st.out.Reliable ∧ st.input = c.stream.input ∧
      ∃ text, st.out.sent = c.stream.out.sent ++ text ∧ Wanted senv s text (some (t, r')) l kvs := by
  obtain ⟨texts, i1, i2, i3, i4⟩ := images_text h hch senv hi
  obtain ⟨hc1, hc2, hc3, hc4, hc5⟩ := h.client
  have hm : Announces .initialize [(r₀, [])] [(t, r', Properties.ofPairs [])] := .cons ht hp ha hw (by simp [SendablePairs]) .nil
  obtain ⟨st, e1, e2, e3, e4⟩ := request_ok env c 0 ⟨true, imageList images, [(r, [])], kvs, []⟩ [(r₀, [])] _ texts hc1 hc2 hc3 hc4 (by simp) (by simp [Exchange.count])
    (.cons ⟨by rw [h.metadata.1]; exact hto, rfl⟩ .nil) hm i1 (fun t ht => plain_noNul (i3 t ht).1) hc5
  refine ⟨st, ?_, e3, e4, _, e2, texts, i2, i3, i4, hk, by simp [ofPairs_nil]⟩
  unfold Cpp.clientInitializeRegion
  dsimp only
  rw [Trax.oneObject_wellFormed _ (sendable_wellFormed hr), Outcome.bind_ok]
  have e1' : c.clientInitialize env (imageList images) (objectList [(r, [])]) (some (Properties.ofPairs kvs)) = .ok (TRAX_OK, { c with error := .none, objects := 1, stream := st }) := e1
  rw [e1', Outcome.bind_ok]
  rfl

theorem frame_joined (h : Joined m c s 1) (hch : m.channels &&& 7 = m.channels) (env senv : Env) {images : Cli.FrameImages} {l : ImageList} (hi : Sends m l images) :
    ∃ st, Cpp.clientFrameImages env (some c) (imageList images) none = .ok (TRAX_OK, some { c with error := .none, objects := 1, stream := st }) ∧ st.out.Reliable ∧
      st.input = c.stream.input ∧ ∃ text, st.out.sent = c.stream.out.sent ++ text ∧ Wanted senv s text none l [] := by
  obtain ⟨texts, i1, i2, i3, i4⟩ := images_text h hch senv hi
  obtain ⟨hc1, hc2, hc3, hc4, hc5⟩ := h.client
  obtain ⟨st, e1, e2, e3, e4⟩ := request_ok env c 1 ⟨false, imageList images, [], [], []⟩ [] [] texts hc1 hc2 hc3 hc4 (by simp) (by simp [Exchange.count])
    .nil .nil i1 (fun t ht => plain_noNul (i3 t ht).1) hc5
  refine ⟨st, ?_, e3, e4, _, e2, texts, i2, i3, i4, by simp [SendablePairs], by simp⟩
  unfold Cpp.clientFrameImages
  dsimp only
  have e1' : c.clientFrame env (imageList images) none none = .ok (TRAX_OK, { c with error := .none, objects := 1, stream := st }) := e1
  rw [e1']
  rfl

/-- The reply of the tracker. -/
theorem reply_joined (env : Env) {s : Handle} {x : Step τ} {r' : Region} {t : Str} (hs : s.server = true) (ha : s.isAlive = true) (ho : s.objects = 1)
    (hr : s.stream.out.Reliable) (hfate : x.fate = .answers) (hsend : Sendable x.region)
    (ht : x.region.string = .ok (some t)) (hp : Region.parse t = .ok ⟨1, some r', 0⟩) (har : Arrives x.region r') (hw : WellFormed r') :
    ∃ st, answer env s x = .ok (.go ⟨{ s with error := .none, stream := st }, some x.state⟩ x.before x.after) ∧
      st.out.sent = s.stream.out.sent ++ wire .state [t] Properties.create.enumerate ∧ st.out.Reliable ∧ st.input = s.stream.input := by
  have hm : Announces .state [(x.region, [])] [(t, r', Properties.ofPairs [])] := .cons ht hp har hw (by simp [SendablePairs]) .nil
  obtain ⟨st, e1, e2, e3, e4, -⟩ := replyLoop_sends hm s.clearError hr
  refine ⟨st, ?_, by rw [e2]; simp [announcement, ofPairs_nil, clearError], e3, e4⟩
  unfold answer Cpp.serverReplyRegion
  rw [hfate]
  dsimp only
  rw [Trax.oneObject_wellFormed _ (sendable_wellFormed hsend), Outcome.bind_ok]
  have e : serverReplyMot s (objectList [(x.region, [])]) = .ok (TRAX_OK, { s with error := .none, stream := st }) := by
    rw [serverReplyMot_loop s (objectList [(x.region, [])]) hs ha (fun _ => rfl) (by rw [ho]; rfl)]
    exact e1
  rw [e, Outcome.bind_ok]
  rfl

/-- The tracker after it has read a request. -/
def asked (s : Handle) : Handle := { s with error := .none, objects := 1, stream := { s.stream with input := [], mtype := some .frame } }

/-- A turn of the tracker's loop. -/
theorem turn_joined {T : Tracker τ} {s : Handle} {x : Step τ} {tracker : Option τ} {text : Str} {start : Option (Str × Region)} {l : ImageList} {props : List (Str × Str)}
    (hs : s.server = true) (ha : s.isAlive = true) (hq : s.stream.input = []) (hreq : Wanted senv s text start l props)
    (hcase : (∃ r₀ ti ri, Comes r₀ ti ri ∧ start = some (ti, ri) ∧ s.objects = 0 ∧ T.init ri l (Properties.ofPairs props) = x) ∨
      (start = none ∧ s.objects = 1 ∧ ∃ u, tracker = some u ∧ T.update u l (Properties.ofPairs props) = x)) :
    turn senv T (text.length + 3) ⟨reads s text, tracker⟩ = some (answer senv (asked s) x) := by
  obtain ⟨texts, i2, i3, i4, hk, htext⟩ := hreq
  rcases hcase with ⟨r₀, ti, ri, ⟨hti, hpi, hai, hwi⟩, rfl, hn, hx⟩ | ⟨rfl, hn, u, rfl, hx⟩
  · have hm : Announces .initialize [(r₀, [])] [(ti, ri, Properties.ofPairs [])] := .cons hti hpi hai hwi (by simp [SendablePairs]) .nil
    have hwait := serverWait_request senv (reads s text) 0 ⟨true, [], [(r₀, [])], props, []⟩ [(r₀, [])] _ texts l hs ha hn (by simp) rfl hm i2 i3 i4 hk [] (by
      show s.stream.input ++ bytes text = _
      rw [hq, htext]
      simp [ofPairs_nil]) (text.length + 3) (by simp)
    unfold turn Cpp.serverWaitRegion
    dsimp only
    rw [hwait]
    simp only [Option.map_some, Outcome.bind_ok]
    have htake : ∀ h : Handle, Cpp.takeObject senv ⟨TRAX_INITIALIZE, some l, some (received [(ti, ri, Properties.ofPairs [])]), none, some (Properties.ofPairs props), h⟩
        none (Properties.ofPairs props) false = .ok ⟨TRAX_INITIALIZE, some l, some ri, Properties.ofPairs props, some h⟩ := by
      intro h
      rw [show received [(ti, ri, Properties.ofPairs [])] = [(some ri, Properties.ofPairs [])] from rfl]
      unfold Cpp.takeObject
      dsimp only
      have hg : ObjList.get [(some ri, Properties.ofPairs [])] 0 = some ri := rfl
      rw [if_neg (by simp [ObjList.count]), if_pos (by simp [ObjList.count]), hg, clone_wellFormed _ _ hwi]
      rfl
    simp only [true_or, if_true, List.cons_ne_nil, if_false, Option.getD_some]
    rw [htake, Outcome.bind_ok]
    dsimp only
    rw [if_pos rfl]
    simp only [Option.getD_some]
    rw [hx]
    rfl
  · have hwait := serverWait_request senv (reads s text) 1 ⟨false, [], [], props, []⟩ [] [] texts l hs ha hn (by simp) rfl .nil i2 i3 i4 hk [] (by
      show s.stream.input ++ bytes text = _
      rw [hq, htext]
      simp) (text.length + 3) (by simp)
    unfold turn Cpp.serverWaitRegion
    dsimp only
    rw [hwait]
    simp only [Option.map_some, Outcome.bind_ok]
    rw [if_neg (by simp)]
    simp only [if_true]
    unfold Cpp.takeObject
    dsimp only
    rw [Outcome.bind_ok]
    dsimp only
    rw [if_neg (by decide), if_pos rfl]
    simp only [Option.getD_some]
    rw [hx]
    rfl

/-- An answer. -/
theorem respond_joined {T : Tracker τ} {shared : Bool} {junk : UInt32} {stream : Stream} {report : Nat → Proc.Poll} {s : Handle} {x : Step τ} {r' : Region} {t : Str}
    {tracker : Option τ} {text : Str} {start : Option (Str × Region)} {l : ImageList} {props : List (Str × Str)} (hs : s.server = true) (ha : s.isAlive = true)
    (hrel : s.stream.out.Reliable) (hq : s.stream.input = []) (hfate : x.fate = .answers) (hsend : Sendable x.region)
    (ht : x.region.string = .ok (some t)) (hp : Region.parse t = .ok ⟨1, some r', 0⟩) (har : Arrives x.region r') (hw : WellFormed r')
    (hreq : Wanted senv s text start l props)
    (hcase : (∃ r₀ ti ri, Comes r₀ ti ri ∧ start = some (ti, ri) ∧ s.objects = 0 ∧ T.init ri l (Properties.ofPairs props) = x) ∨
      (start = none ∧ s.objects = 1 ∧ ∃ u, tracker = some u ∧ T.update u l (Properties.ofPairs props) = x)) :
    ∃ st, (peer senv T shared m junk stream report).respond text (some ⟨s, tracker⟩) =
        .ok (some ⟨{ s with error := .none, objects := 1, stream := st }, some x.state⟩,
          (if shared then x.before else []) ++ (wire .state [t] Properties.create.enumerate ++ if shared then x.after else [])) ∧
      st.out.Reliable ∧ st.input = [] := by
  obtain ⟨st, e1, e2, e3, e4⟩ := reply_joined senv (s := asked s) hs ha rfl hrel hfate hsend ht hp har hw
  refine ⟨st, ?_, e3, e4⟩
  show (match turn senv T (text.length + 3) ⟨reads s text, tracker⟩ with | none => _ | some o => o.map _) = _
  rw [turn_joined hs ha hq hreq hcase, e1]
  show Outcome.ok (_, (if shared then x.before else []) ++ (st.out.sent.drop s.stream.out.sent.length ++ if shared then x.after else [])) = _
  rw [e2]
  show Outcome.ok (_, (if shared then x.before else []) ++ ((s.stream.out.sent ++ _).drop s.stream.out.sent.length ++ if shared then x.after else [])) = _
  rw [List.drop_left]
  rfl

/-- The end of the session. -/
theorem respond_leaves {T : Tracker τ} {shared : Bool} {junk : UInt32} {stream : Stream} {report : Nat → Proc.Poll} {s : Handle} {x : Step τ}
    {tracker : Option τ} {text : Str} {start : Option (Str × Region)} {l : ImageList} {props : List (Str × Str)} (hs : s.server = true) (ha : s.isAlive = true)
    (hrel : s.stream.out.Reliable) (hq : s.stream.input = []) (hfate : x.fate = .leaves)
    (hreq : Wanted senv s text start l props)
    (hcase : (∃ r₀ ti ri, Comes r₀ ti ri ∧ start = some (ti, ri) ∧ s.objects = 0 ∧ T.init ri l (Properties.ofPairs props) = x) ∨
      (start = none ∧ s.objects = 1 ∧ ∃ u, tracker = some u ∧ T.update u l (Properties.ofPairs props) = x)) :
    (peer senv T shared m junk stream report).respond text (some ⟨s, tracker⟩) =
      .ok (none, (if shared then x.before else []) ++ wire .quit [] Properties.create.enumerate) := by
  show (match turn senv T (text.length + 3) ⟨reads s text, tracker⟩ with | none => _ | some o => o.map _) = _
  rw [turn_joined hs ha hq hreq hcase]
  unfold answer
  rw [hfate]
  show Outcome.ok (none, (if shared then x.before else []) ++ ((asked s).terminate none).2.stream.out.sent.drop s.stream.out.sent.length) = _
  have h : ((asked s).terminate none).2.stream.out.sent = s.stream.out.sent ++ wire .quit [] [] := (C52_cleanup (asked s) ha hrel).2
  rw [h, List.drop_left]
  rfl

/-- A crash. -/
theorem respond_crashes {T : Tracker τ} {shared : Bool} {junk : UInt32} {stream : Stream} {report : Nat → Proc.Poll} {s : Handle} {x : Step τ}
    {tracker : Option τ} {text : Str} {start : Option (Str × Region)} {l : ImageList} {props : List (Str × Str)} (hs : s.server = true) (ha : s.isAlive = true)
    (hq : s.stream.input = []) (hfate : x.fate = .crashes)
    (hreq : Wanted senv s text start l props)
    (hcase : (∃ r₀ ti ri, Comes r₀ ti ri ∧ start = some (ti, ri) ∧ s.objects = 0 ∧ T.init ri l (Properties.ofPairs props) = x) ∨
      (start = none ∧ s.objects = 1 ∧ ∃ u, tracker = some u ∧ T.update u l (Properties.ofPairs props) = x)) :
    (peer senv T shared m junk stream report).respond text (some ⟨s, tracker⟩) = .ok (none, if shared then x.before else []) := by
  show (match turn senv T (text.length + 3) ⟨reads s text, tracker⟩ with | none => _ | some o => o.map _) = _
  rw [turn_joined hs ha hq hreq hcase]
  unfold answer
  rw [hfate]
  rfl

end

/-- A step of a tracker, and the region that comes to the client. -/
def Told (x : Step τ × Region) : Prop := x.1.fate = .answers ∧ Sendable x.1.region ∧ Noise x.1.before ∧ Noise x.1.after ∧ ∃ t, Comes x.1.region t x.2

section
variable (senv env : Env) (T : Tracker τ) (shared : Bool) (m : Metadata) (junk : UInt32) (stream : Stream) (report : Nat → Proc.Poll) (out : Writer) (kvs : List (Str × Str))

/-- The tracker is initialized. -/
def Starts (images : Cli.FrameImages) (r : Region) (x : Step τ × Region) : Prop :=
  Told x ∧ Sendable r ∧ ∃ r₀ ti ri l, Region.toSend env.legacy env.fresh r m.regions = .ok r₀ ∧ Comes r₀ ti ri ∧ Sends m l images ∧ T.init ri l (Properties.ofPairs kvs) = x.1

/-- The tracker is updated. -/
def Goes (x : Step τ × Region) (images : Cli.FrameImages) (y : Step τ × Region) : Prop :=
  Told y ∧ ∃ l, Sends m l images ∧ T.update x.1.state l (Properties.ofPairs []) = y.1

/-- Before the initialization. -/
def Idle (c : Handle) (p : Option (Program τ)) : Prop := ∃ s, p = some ⟨s, none⟩ ∧ Joined m c s 0

/-- After an answer. -/
def Tracking (x : Step τ × Region) (c : Handle) (p : Option (Program τ)) : Prop := ∃ s, p = some ⟨s, some x.1.state⟩ ∧ Joined m c s 1 ∧ c.stream.mtype = some .state

/-- After a request. -/
def Requested (x : Step τ) (c : Handle) (n : Nat) (p : Option (Program τ)) : Prop :=
  ∃ s tracker start l props, p = some ⟨s, tracker⟩ ∧ Joined m c { s with objects := 1 } 1 ∧ n ≤ c.stream.out.sent.length ∧
    Wanted senv s (c.stream.out.sent.drop n) start l props ∧
    ((∃ r₀ ti ri, Comes r₀ ti ri ∧ start = some (ti, ri) ∧ s.objects = 0 ∧ T.init ri l (Properties.ofPairs props) = x) ∨
      (start = none ∧ s.objects = 1 ∧ ∃ u, tracker = some u ∧ T.update u l (Properties.ofPairs props) = x))

/-- After a request that is answered. -/
def Asked (x : Step τ × Region) (c : Handle) (n : Nat) (p : Option (Program τ)) : Prop := Told x ∧ Requested senv T m x.1 c n p

theorem start_joined {custom : List (Str × Str)} (hm : Introducible m custom 4) (hin : stream.input = []) (hout : stream.out.Reliable) (hco : out.Reliable) :
    ∃ p news c, (peer senv T shared m junk stream report).start = .ok (p, news) ∧ clientSetup ⟨none, bytes news, out⟩ = .ok (some c) ∧ c.version ≤ 4 ∧
      c.stream.out.sent = out.sent ∧ Idle m c p := by
  obtain ⟨s, news, h1, h2, h3, h4, h5, h6, h7, h8, h9, h10, h11, h12, h13⟩ := C31_handshake_partial m custom 4 hm junk stream hout
  obtain ⟨c, g1, g2, g3, g4, g5, g6, g7, g8, g9, g10, g11, g12, -, g13⟩ := h13 none [] out
  rw [List.append_nil] at g1
  refine ⟨some ⟨s, none⟩, news, c, ?_, g1, by omega, by rw [g13], s, rfl,
    ⟨g4, g3, g2, g5, by rw [g13]; exact hco⟩, ⟨h5, h4, h6, h8, by rw [h7, hin]⟩, ⟨g6, g8, ?_⟩, ⟨h10, h11⟩, [], .nil, by rw [g13]; rfl⟩
  · show ((begin m junk stream : Outcome (Program τ)).map _) = _
    unfold begin
    have : serverSetup junk m stream 0 = .ok s := h1
    rw [this]
    show Outcome.ok (_, s.stream.out.sent.drop stream.out.sent.length) = _
    rw [h2, List.drop_left]
  · unfold Link.about
    rw [g7, g8, g9, g10, g11]

/-- A request to begin. -/
theorem setup_requested (hch : m.channels &&& 7 = m.channels) (hk : SendablePairs kvs) {x : Step τ} {c : Handle} {p : Option (Program τ)} {images : Cli.FrameImages} {r : Region}
    (hp : Idle m c p) (hr : Sendable r) (h : ∃ r₀ ti ri l, Region.toSend env.legacy env.fresh r m.regions = .ok r₀ ∧ Comes r₀ ti ri ∧ Sends m l images ∧
      T.init ri l (Properties.ofPairs kvs) = x) :
    ∃ c', Cpp.clientInitializeRegion env (some c) (imageList images) (some r) (some (Properties.ofPairs kvs)) = .ok (TRAX_OK, some c') ∧
      Requested senv T m x c' c.stream.out.sent.length p := by
  obtain ⟨s, rfl, h'⟩ := hp
  obtain ⟨r₀, ti, ri, l, hto, ⟨hti, hpi, hai, hwi⟩, hi, hinit⟩ := h
  obtain ⟨st, e1, e2, e3, text, e4, e5⟩ := setup_joined h' hch env senv hr hto hti hpi hai hwi hk hi
  refine ⟨_, e1, s, none, _, l, kvs, rfl, ⟨⟨h'.client.1, h'.client.2.1, h'.client.2.2.1, rfl, e2⟩, ⟨h'.server.1, h'.server.2.1, rfl, h'.server.2.2.2⟩, h'.metadata, h'.tracker, ?_⟩, ?_, ?_,
    .inl ⟨r₀, ti, ri, ⟨hti, hpi, hai, hwi⟩, rfl, h'.server.2.2.1, hinit⟩⟩
  · obtain ⟨noise, n1, n2⟩ := h'.noise
    exact ⟨noise, n1, e3.trans n2⟩
  · rw [e4]; simp
  · rw [e4, List.drop_left]; exact e5

/-- A request to go on. -/
theorem frame_requested (hch : m.channels &&& 7 = m.channels) {x : Step τ × Region} {y : Step τ} {c : Handle} {p : Option (Program τ)} {images : Cli.FrameImages}
    (hp : Tracking m x c p) (h : ∃ l, Sends m l images ∧ T.update x.1.state l (Properties.ofPairs []) = y) :
    ∃ c', Cpp.clientFrameImages env (some c) (imageList images) none = .ok (TRAX_OK, some c') ∧ Requested senv T m y c' c.stream.out.sent.length p := by
  obtain ⟨s, rfl, h', -⟩ := hp
  obtain ⟨l, hi, hupdate⟩ := h
  obtain ⟨st, e1, e2, e3, text, e4, e5⟩ := frame_joined h' hch env senv hi
  refine ⟨_, e1, s, _, none, l, [], rfl, ⟨⟨h'.client.1, h'.client.2.1, h'.client.2.2.1, rfl, e2⟩, ⟨h'.server.1, h'.server.2.1, rfl, h'.server.2.2.2⟩, h'.metadata, h'.tracker, ?_⟩, ?_, ?_,
    .inr ⟨rfl, h'.server.2.2.1, _, rfl, hupdate⟩⟩
  · obtain ⟨noise, n1, n2⟩ := h'.noise
    exact ⟨noise, n1, e3.trans n2⟩
  · rw [e4]; simp
  · rw [e4, List.drop_left]; exact e5

theorem serves_joined {custom : List (Str × Str)} (hm : Introducible m custom 4) (hch : m.channels &&& 7 = m.channels) (hin : stream.input = [])
    (hout : stream.out.Reliable) (hco : out.Reliable) (hk : SendablePairs kvs) :
    Serves (peer senv T shared m junk stream report) env out (Link.about m) (Starts env T m kvs) (Goes T m) (Properties.ofPairs kvs) Prod.snd
      (Idle m) (Tracking m) (Asked senv T m) where
  start := start_joined senv T shared m junk stream report out hm hin hout hco
  about := by rintro c p ⟨s, -, h⟩; exact h.metadata.2.2
  up := ⟨by rintro c p ⟨s, rfl, -⟩ k; rfl, by rintro - c p ⟨s, rfl, -⟩ k; rfl, by rintro - c n p ⟨-, s, tracker, start, l, props, rfl, -⟩ k; rfl⟩
  alive := ⟨by rintro c p ⟨s, -, h⟩; exact h.client.2.1, by rintro - c p ⟨s, -, h, -⟩; exact h.client.2.1,
    by rintro - c n p ⟨-, s, tracker, start, l, props, -, h, -⟩; exact h.client.2.1⟩
  setup := by
    rintro x c p images r hp ⟨hx, hr, h⟩
    obtain ⟨c', e1, e2⟩ := setup_requested senv env T m kvs hch hk hp hr h
    exact ⟨c', e1, hx, e2⟩
  frame := by
    rintro x y c p images hp ⟨hy, h⟩
    obtain ⟨c', e1, e2⟩ := frame_requested senv env T m hch hp h
    exact ⟨c', e1, hy, e2⟩
  wait := by
    rintro x c n p ⟨⟨hfate, hs, hb, hf, t, ht, hp, har, hw⟩, s, tracker, start, l, props, rfl, h, hn, hreq, hcase⟩
    obtain ⟨st, e1, e3, e4⟩ := respond_joined (T := T) (shared := shared) (m := m) (junk := junk) (stream := stream) (report := report)
      (s := s) h.server.1 h.server.2.1 h.server.2.2.2.1 h.server.2.2.2.2 hfate hs ht hp har hw hreq hcase
    obtain ⟨noise, n1, n2⟩ := h.noise
    have hplain : Plain t ∧ ¬ LooksLikeProperty t := Region.string_deliverable ht
    obtain ⟨before, hbe⟩ : ∃ b, b = if shared then x.1.before else [] := ⟨_, rfl⟩
    obtain ⟨after, hae⟩ : ∃ b, b = if shared then x.1.after else [] := ⟨_, rfl⟩
    have hb' : Noise before := by rw [hbe]; exact .ite shared hb
    have hf' : Noise after := by rw [hae]; exact .ite shared hf
    rw [← hbe, ← hae] at e1
    have hwait := clientWaitRegion_one env { c with stream := { c.stream with input := c.stream.input ++ bytes (before ++ (wire .state [t] Properties.create.enumerate ++ after)) } }
      (noise := noise ++ before) (t := t) (r := x.2) (bytes after) h.client.1 h.client.2.1 h.client.2.2.2.1 (n1.append hb') hplain hp hw (by
        show c.stream.input ++ _ = _
        rw [n2]
        simp only [bytes_append', List.append_assoc])
    refine ⟨_, _, _, _, e1, hwait, rfl, rfl, rfl, rfl, _, rfl, ⟨⟨h.client.1, h.client.2.1, h.client.2.2.1, h.client.2.2.2.1, h.client.2.2.2.2⟩,
      ⟨h.server.1, h.server.2.1, rfl, e3, e4⟩, h.metadata, h.tracker, after, hf', rfl⟩, rfl⟩

end

end Loop

end Trax
