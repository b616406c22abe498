import Verif.Lemmas.BrokenRun
import Verif.Spec.Tutorial
import Verif.Model.Tutorial

/-!
# A tracker that is initialized again, and the loop of the tutorial
-/

namespace Trax
open Spec Handle

namespace Loop
open Link Cli.Spec
variable {τ : Type}

section
variable {m : Metadata} {c s : Handle}

/-- Another initialization: the client takes back its objects first. -/
theorem setup_again (h : Joined m c s 1) (hch : m.channels &&& 7 = m.channels) (env senv : Env) {r r₀ r' : Region} {t : Str} (hr : Sendable r)
    (hto : Region.toSend env.legacy env.fresh r m.regions = .ok r₀) (ht : r₀.string = .ok (some t))
    (hp : Region.parse t = .ok ⟨1, some r', 0⟩) (ha : Arrives r₀ r') (hw : WellFormed r') {kvs : List (Str × Str)} (hk : SendablePairs kvs) {images : Cli.FrameImages}
    {l : ImageList} (hi : Sends m l images) :
    ∃ st, Cpp.clientInitializeRegion env (some c) (imageList images) (some r) (some (Properties.ofPairs kvs)) =
        .ok (TRAX_OK, some { c with error := .none, objects := 1, stream := st }) ∧ st.out.Reliable ∧ st.input = c.stream.input ∧
      ∃ text, st.out.sent = c.stream.out.sent ++ (wire .initialize [] [] ++ text) ∧ Wanted senv s text (some (t, r')) l kvs := by
  obtain ⟨texts, i1, i2, i3, i4⟩ := images_text h hch senv hi
  obtain ⟨hc1, hc2, hc3, hc4, hc5⟩ := h.client
  have hm : Announces .initialize [(r₀, [])] [(t, r', Properties.ofPairs [])] := .cons ht hp ha hw (by simp [SendablePairs]) .nil
  obtain ⟨st, e1, e2, e3, e4⟩ := request_ok env c 1 ⟨true, imageList images, [(r, [])], kvs, []⟩ [(r₀, [])] _ texts hc1 hc2 hc3 hc4 (by simp) (by simp [Exchange.count])
    (.cons ⟨by rw [h.metadata.1]; exact hto, rfl⟩ .nil) hm i1 (fun t ht => plain_noNul (i3 t ht).1) hc5
  refine ⟨st, ?_, e3, e4, announcement .initialize [(t, r', Properties.create)] ++ wire .frame texts (Properties.ofPairs kvs).enumerate, ?_, texts, i2, i3, i4, hk, by simp⟩
  · unfold Cpp.clientInitializeRegion
    dsimp only
    rw [Trax.oneObject_wellFormed _ (sendable_wellFormed hr), Outcome.bind_ok]
    have e1' : c.clientInitialize env (imageList images) (objectList [(r, [])]) (some (Properties.ofPairs kvs)) = .ok (TRAX_OK, { c with error := .none, objects := 1, stream := st }) := e1
    rw [e1', Outcome.bind_ok]
    rfl
  · rw [e2]
    simp [ofPairs_nil]

/-- A turn of the tracker's loop, with another initialization. -/
theorem turn_again {senv : Env} {T : Tracker τ} {x : Step τ} {tracker : Option τ} {text : Str} {r₀ : Region} {ti : Str} {ri : Region} {l : ImageList} {props : List (Str × Str)}
    (hs : s.server = true) (ha : s.isAlive = true) (hq : s.stream.input = []) (hn : s.objects = 1) (hreq : Wanted senv s text (some (ti, ri)) l props)
    (hc : Comes r₀ ti ri) (hx : T.init ri l (Properties.ofPairs props) = x) :
    turn senv T ((wire .initialize [] [] ++ text).length + 3) ⟨reads s (wire .initialize [] [] ++ text), tracker⟩ = some (answer senv (asked s) x) := by
  obtain ⟨texts, i2, i3, i4, hk, htext⟩ := hreq
  obtain ⟨hti, hpi, hai, hwi⟩ := hc
  have hm : Announces .initialize [(r₀, [])] [(ti, ri, Properties.ofPairs [])] := .cons hti hpi hai hwi (by simp [SendablePairs]) .nil
  have hwait := serverWait_request senv (reads s (wire .initialize [] [] ++ text)) 1 ⟨true, [], [(r₀, [])], props, []⟩ [(r₀, [])] _ texts l hs ha hn (by simp) rfl hm i2 i3 i4 hk [] (by
    show s.stream.input ++ bytes (wire .initialize [] [] ++ text) = _
    rw [hq, htext]
    simp [ofPairs_nil]) ((wire .initialize [] [] ++ text).length + 3) (by simp)
  unfold turn Cpp.serverWaitRegion
  dsimp only
  rw [hwait]
  simp only [Option.map_some, Outcome.bind_ok]
  have htake : ∀ h : Handle, Cpp.takeObject senv ⟨TRAX_INITIALIZE, some l, some (received [(ti, ri, Properties.ofPairs [])]), none, some (Properties.ofPairs props), h⟩
      none (Properties.ofPairs props) false = .ok ⟨TRAX_INITIALIZE, some l, some ri, Properties.ofPairs props, some h⟩ := by
    intro h
    rw [show received [(ti, ri, Properties.ofPairs [])] = [(some ri, Properties.ofPairs [])] from rfl]
    unfold Cpp.takeObject
    dsimp only
    have hg : ObjList.get [(some ri, Properties.ofPairs [])] 0 = some ri := rfl
    rw [if_neg (by simp [ObjList.count]), if_pos (by simp [ObjList.count]), hg, clone_wellFormed _ _ hwi]
    rfl
  simp only [true_or, if_true, List.cons_ne_nil, if_false, Option.getD_some]
  rw [htake, Outcome.bind_ok]
  dsimp only
  rw [if_pos rfl]
  simp only [Option.getD_some]
  rw [hx]
  rfl

/-- Its answer. -/
theorem respond_again {senv : Env} {T : Tracker τ} {shared : Bool} {junk : UInt32} {stream : Stream} {report : Nat → Proc.Poll} {x : Step τ} {r' : Region} {t : Str}
    {tracker : Option τ} {text : Str} {r₀ : Region} {ti : Str} {ri : Region} {l : ImageList} {props : List (Str × Str)} (hs : s.server = true) (ha : s.isAlive = true)
    (hrel : s.stream.out.Reliable) (hq : s.stream.input = []) (hn : s.objects = 1) (hfate : x.fate = .answers) (hsend : Sendable x.region)
    (ht : x.region.string = .ok (some t)) (hp : Region.parse t = .ok ⟨1, some r', 0⟩) (har : Arrives x.region r') (hw : WellFormed r')
    (hreq : Wanted senv s text (some (ti, ri)) l props) (hc : Comes r₀ ti ri) (hx : T.init ri l (Properties.ofPairs props) = x) :
    ∃ st, (peer senv T shared m junk stream report).respond (wire .initialize [] [] ++ text) (some ⟨s, tracker⟩) =
        .ok (some ⟨{ s with error := .none, objects := 1, stream := st }, some x.state⟩,
          (if shared then x.before else []) ++ (wire .state [t] Properties.create.enumerate ++ if shared then x.after else [])) ∧
      st.out.Reliable ∧ st.input = [] := by
  obtain ⟨st, e1, e2, e3, e4⟩ := reply_joined senv (s := asked s) hs ha rfl hrel hfate hsend ht hp har hw
  refine ⟨st, ?_, e3, e4⟩
  show (match turn senv T ((wire .initialize [] [] ++ text).length + 3) ⟨reads s (wire .initialize [] [] ++ text), tracker⟩ with | none => _ | some o => o.map _) = _
  rw [turn_again hs ha hq hn hreq hc hx, e1]
  show Outcome.ok (_, (if shared then x.before else []) ++ (st.out.sent.drop s.stream.out.sent.length ++ if shared then x.after else [])) = _
  rw [e2]
  show Outcome.ok (_, (if shared then x.before else []) ++ ((s.stream.out.sent ++ _).drop s.stream.out.sent.length ++ if shared then x.after else [])) = _
  rw [List.drop_left]
  rfl

end

section
variable (senv env : Env) (T : Tracker τ) (shared : Bool) (m : Metadata) (junk : UInt32) (stream : Stream) (report : Nat → Proc.Poll) (out : Writer) (kvs : List (Str × Str))

/-- After another request to begin. -/
def Again (x : Step τ × Region) (c : Handle) (n : Nat) (p : Option (Program τ)) : Prop :=
  Told x ∧ ∃ s tracker r₀ ti ri l text, p = some ⟨s, tracker⟩ ∧ Joined m c s 1 ∧ c.stream.out.sent.drop n = wire .initialize [] [] ++ text ∧
    Wanted senv s text (some (ti, ri)) l kvs ∧ Comes r₀ ti ri ∧ T.init ri l (Properties.ofPairs kvs) = x.1

theorem again_requested (hch : m.channels &&& 7 = m.channels) (hk : SendablePairs kvs) {x y : Step τ × Region} {c : Handle} {p : Option (Program τ)} {images : Cli.FrameImages} {r : Region}
    (hp : Tracking m y c p) (h : Starts env T m kvs images r x) :
    ∃ c', Cpp.clientInitializeRegion env (some c) (imageList images) (some r) (some (Properties.ofPairs kvs)) = .ok (TRAX_OK, some c') ∧
      Again senv T m kvs x c' c.stream.out.sent.length p := by
  obtain ⟨s, rfl, h', -⟩ := hp
  obtain ⟨hx, hr, r₀, ti, ri, l, hto, ⟨hti, hpi, hai, hwi⟩, hi, hinit⟩ := h
  obtain ⟨st, e1, e2, e3, text, e4, e5⟩ := setup_again h' hch env senv hr hto hti hpi hai hwi hk hi
  refine ⟨_, e1, hx, s, _, r₀, ti, ri, l, text, rfl, ⟨⟨h'.client.1, h'.client.2.1, h'.client.2.2.1, rfl, e2⟩, h'.server, h'.metadata, h'.tracker, ?_⟩, ?_, e5, ⟨hti, hpi, hai, hwi⟩, hinit⟩
  · obtain ⟨noise, n1, n2⟩ := h'.noise
    exact ⟨noise, n1, e3.trans n2⟩
  · rw [e4, List.drop_left]

/-- The tracker serves all requests, the first one of a session and later ones. -/
theorem serves_again {custom : List (Str × Str)} (hm : Introducible m custom 4) (hch : m.channels &&& 7 = m.channels) (hin : stream.input = [])
    (hout : stream.out.Reliable) (hco : out.Reliable) (hk : SendablePairs kvs) :
    Serves (peer senv T shared m junk stream report) env out (Link.about m) (Starts env T m kvs) (Goes T m) (Properties.ofPairs kvs) Prod.snd
      (Idle m) (Tracking m) (fun x c n p => Asked senv T m x c n p ∨ Again senv T m kvs x c n p) := by
  have H := serves_joined senv env T shared m junk stream report out kvs hm hch hin hout hco hk
  refine ⟨H.start, H.about, ⟨H.alive.1, H.alive.2.1, ?_⟩, ⟨H.up.1, H.up.2.1, ?_⟩, ?_, ?_, ?_⟩
  · rintro x c n p (h | ⟨-, s, tracker, r₀, ti, ri, l, text, -, h, -⟩)
    · exact H.alive.2.2 x c n p h
    · exact h.client.2.1
  · rintro x c n p (h | ⟨-, s, tracker, r₀, ti, ri, l, text, rfl, h, -⟩)
    · exact H.up.2.2 x c n p h
    · intro k; rfl
  · intro x c p images r h1 h2
    obtain ⟨c', e1, e2⟩ := H.setup x c p images r h1 h2
    exact ⟨c', e1, .inl e2⟩
  · intro x y c p images h1 h2
    obtain ⟨c', e1, e2⟩ := H.frame x y c p images h1 h2
    exact ⟨c', e1, .inl e2⟩
  · rintro x c n p (h | ⟨⟨hfate, hs, hb, hf, t, ht, hp, har, hw⟩, s, tracker, r₀, ti, ri, l, text, rfl, h, htext, hreq, hcomes, hx⟩)
    · exact H.wait x c n p h
    rw [htext]
    obtain ⟨st, e1, e3, e4⟩ := respond_again (T := T) (shared := shared) (m := m) (junk := junk) (stream := stream) (report := report) (tracker := tracker)
      (s := s) h.server.1 h.server.2.1 h.server.2.2.2.1 h.server.2.2.2.2 h.server.2.2.1 hfate hs ht hp har hw hreq hcomes hx
    obtain ⟨noise, n1, n2⟩ := h.noise
    have hplain : Plain t ∧ ¬ LooksLikeProperty t := Region.string_deliverable ht
    obtain ⟨before, hbe⟩ : ∃ b, b = if shared then x.1.before else [] := ⟨_, rfl⟩
    obtain ⟨after, hae⟩ : ∃ b, b = if shared then x.1.after else [] := ⟨_, rfl⟩
    have hb' : Noise before := by rw [hbe]; exact .ite shared hb
    have hf' : Noise after := by rw [hae]; exact .ite shared hf
    rw [← hbe, ← hae] at e1
    have hwait := clientWaitRegion_one env { c with stream := { c.stream with input := c.stream.input ++ bytes (before ++ (wire .state [t] Properties.create.enumerate ++ after)) } }
      (noise := noise ++ before) (t := t) (r := x.2) (bytes after) h.client.1 h.client.2.1 h.client.2.2.2.1 (n1.append hb') hplain hp hw (by
        show c.stream.input ++ _ = _
        rw [n2]
        simp only [bytes_append', List.append_assoc])
    refine ⟨_, _, _, _, e1, hwait, rfl, rfl, rfl, rfl, _, rfl, ⟨⟨h.client.1, h.client.2.1, h.client.2.2.1, h.client.2.2.2.1, h.client.2.2.2.2⟩,
      ⟨h.server.1, h.server.2.1, rfl, e3, e4⟩, h.metadata, h.tracker, after, hf', rfl⟩, rfl⟩

end

end Loop

namespace Link
open Cli.Spec
variable {π α : Type} {P : Peer π} {env : Env} {out : Writer} {turns : Nat → Bool}

theorem setup_method {images : Cli.FrameImages} {r : Option Region} {props : Properties} {s s' : Proc.State (State π)} {W : Proc.World (State π)} {limit : Bool}
    (h : (process W limit).setup images r props s = (true, s')) :
    method W limit .init { s with world := { s.world with images, region := r, properties := props } } = (some true, s') := by
  have h' : (fun r : Option Bool × Proc.State (State π) => (r.1.getD false, r.2)) (method W limit .init { s with world := { s.world with images, region := r, properties := props } }) = (true, s') := h
  generalize method W limit .init { s with world := { s.world with images, region := r, properties := props } } = o at h' ⊢
  obtain ⟨b, t⟩ := o
  obtain ⟨q1, q2⟩ := Prod.mk.inj h'
  dsimp only at q1 q2
  rw [q2]
  cases b with
  | none => cases q1
  | some b => rw [show b = true from q1]

theorem frame_method {images : Cli.FrameImages} {s s' : Proc.State (State π)} {W : Proc.World (State π)} {limit : Bool} (h : (process W limit).frame images s = (true, s')) :
    method W limit .frame { s with world := { s.world with images } } = (some true, s') := by
  have h' : (fun r : Option Bool × Proc.State (State π) => (r.1.getD false, r.2)) (method W limit .frame { s with world := { s.world with images } }) = (true, s') := h
  generalize method W limit .frame { s with world := { s.world with images } } = o at h' ⊢
  obtain ⟨b, t⟩ := o
  obtain ⟨q1, q2⟩ := Prod.mk.inj h'
  dsimp only at q1 q2
  rw [q2]
  cases b with
  | none => cases q1
  | some b => rw [show b = true from q1]

theorem wait_state {s s' : Proc.State (State π)} {W : Proc.World (State π)} {limit : Bool} {r : Option Region} (h : (process W limit).wait s = (.state r, s')) :
    method W limit .wait s = (some true, s') ∧ s'.world.answer = r := by
  have h' : (match method W limit .wait s with
    | (some true, s) => (Cli.Answer.state s.world.answer, s)
    | (some false, s) => (.no, s)
    | (none, s) => (.thrown, s)) = (.state r, s') := h
  generalize method W limit .wait s = o at h' ⊢
  match o, h' with
  | (some true, t), h' => cases h'; exact ⟨rfl, rfl⟩
  | (some false, t), h' => cases h'
  | (none, t), h' => cases h'

theorem wait_no {s s' : Proc.State (State π)} {W : Proc.World (State π)} {limit : Bool} (h : (process W limit).wait s = (.no, s')) :
    method W limit .wait s = (some false, s') := by
  have h' : (match method W limit .wait s with
    | (some true, s) => (Cli.Answer.state s.world.answer, s)
    | (some false, s) => (.no, s)
    | (none, s) => (.thrown, s)) = (.no, s') := h
  generalize method W limit .wait s = o at h' ⊢
  match o, h' with
  | (some true, t), h' => cases h'
  | (some false, t), h' => cases h'; rfl
  | (none, t), h' => cases h'

end Link

end Trax
