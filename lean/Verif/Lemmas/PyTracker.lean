import Verif.Lemmas.BrokenRun
import Verif.Spec.PyTracker
import Verif.Props.PyStart

/-!
# Lemmas on trackers written in Python, behind `traxclient`
-/

namespace Trax.PyLoop
open Trax.Spec Trax.Handle Trax.Py Trax.Py.Spec Trax.Cli.Spec Trax.Link Trax.PyLoop.Spec
open Region (bind_eq_ok map_eq_ok)
variable {τ : Type}

/-! ## What is declared -/

theorem declared {a : ServerArgs} (ha : Declarable a) : a.metadata = .ok (.ok (declaration a)) ∧ Introducible (declaration a) (pairs a.custom) 4 := by
  obtain ⟨r, r1, r2, r3, -⟩ := names_same C135_regions (by decide) (l := a.regions) fun s hs => by
    have := ha.regions s hs
    simp only [List.mem_cons, List.not_mem_nil, or_false] at this
    rcases this with rfl | rfl | rfl
    · exact ⟨2, by decide⟩
    · exact ⟨4, by decide⟩
    · exact ⟨8, by decide⟩
  obtain ⟨i, i1, i2, i3, -⟩ := names_same C135_images (by decide) (l := a.images) fun s hs => by
    have := ha.images s hs
    simp only [List.mem_cons, List.not_mem_nil, or_false] at this
    rcases this with rfl | rfl | rfl | rfl
    · exact ⟨1, by decide⟩
    · exact ⟨2, by decide⟩
    · exact ⟨4, by decide⟩
    · exact ⟨8, by decide⟩
  have hchn : ∀ s ∈ a.channels, ∃ f, (s, f) ∈ channelNames := fun s hs => by
    have := ha.channels s hs
    simp only [List.mem_cons, List.not_mem_nil, or_false] at this
    rcases this with rfl | rfl | rfl
    · exact ⟨1, by decide⟩
    · exact ⟨2, by decide⟩
    · exact ⟨4, by decide⟩
  obtain ⟨ch, c1, c2, c3, -⟩ := names_same C135_channels.1 (by decide) (l := a.channels) hchn
  have r0 : r &&& 1 = 0 := by
    by_contra h
    have := ha.regions _ ((r3 (t!"special", 1) (by decide)).1 h)
    revert this
    decide
  have ch0 : ch ≠ 0 := by
    obtain ⟨s, hs⟩ := List.exists_mem_of_ne_nil _ ha.channel
    obtain ⟨f, hf⟩ := hchn s hs
    intro h
    rw [h] at c3
    exact (c3 _ hf).2 hs (Nat.zero_and _)
  have er : (UInt32.ofNat r) = (declaration a).regions := by
    have key : ∀ n : Fin 16, n.val &&& 1 = 0 → UInt32.ofNat n.val = (if n.val &&& 2 ≠ 0 then 2 else 0) ||| (if n.val &&& 4 ≠ 0 then 4 else 0) ||| (if n.val &&& 8 ≠ 0 then 8 else 0) := by decide
    rw [key ⟨r, r2⟩ r0]
    unfold declaration
    dsimp only
    simp only [r3 (t!"rectangle", 2) (by decide), r3 (t!"polygon", 4) (by decide), r3 (t!"mask", 8) (by decide)]
  have ei : (UInt32.ofNat i) = (declaration a).images := by
    have key : ∀ n : Fin 16, UInt32.ofNat n.val = (if n.val &&& 1 ≠ 0 then 1 else 0) ||| (if n.val &&& 2 ≠ 0 then 2 else 0) ||| (if n.val &&& 4 ≠ 0 then 4 else 0) ||| (if n.val &&& 8 ≠ 0 then 8 else 0) := by decide
    rw [key ⟨i, i2⟩]
    unfold declaration
    dsimp only
    simp only [i3 (t!"path", 1) (by decide), i3 (t!"url", 2) (by decide), i3 (t!"memory", 4) (by decide), i3 (t!"buffer", 8) (by decide)]
  have ec : (UInt32.ofNat ch) = (declaration a).channels := by
    have key : ∀ n : Fin 8, UInt32.ofNat n.val = (if n.val &&& 1 ≠ 0 then 1 else 0) ||| (if n.val &&& 2 ≠ 0 then 2 else 0) ||| (if n.val &&& 4 ≠ 0 then 4 else 0) := by decide
    rw [key ⟨ch, c2⟩]
    unfold declaration
    dsimp only
    simp only [c3 (t!"color", 1) (by decide), c3 (t!"depth", 2) (by decide), c3 (t!"ir", 4) (by decide)]
  have hn7 : ∀ {t : Text}, (∀ c ∈ t, 0 < c ∧ c < 128) → ∀ c ∈ t, c < 128 := fun h c hc => (h c hc).2
  have hto : ∀ {t : Text}, (∀ c ∈ t, 0 < c ∧ c < 128) → toC t = .ok (ascii t) := fun h => ascii_toC (hn7 h) (plain_noNul (ascii_plain h))
  have hcs : ∀ {t : Text}, (∀ c ∈ t, 0 < c ∧ c < 128) → (some (ascii t)).map cstr = some (ascii t) := fun h => by
    rw [Option.map_some, cstr_of_noNul (plain_noNul (ascii_plain h))]
  have hr16 : ∀ n : Fin 16, n.val &&& 1 = 0 → UInt32.ofNat n.val &&& 14 = UInt32.ofNat n.val := by decide
  have hi16 : ∀ n : Fin 16, UInt32.ofNat n.val &&& 15 = UInt32.ofNat n.val := by decide
  have hc8 : ∀ n : Fin 8, UInt32.ofNat n.val &&& 7 = UInt32.ofNat n.val ∧ (n.val ≠ 0 → UInt32.ofNat n.val ≠ 0) := by decide
  constructor
  · have henc : a.encoded = .ok ((r, i, ch), ascii a.name, ascii a.description, ascii a.family) := by
      unfold ServerArgs.encoded
      rw [r1]
      simp only [Except.bind]
      rw [i1]
      dsimp only
      rw [c1]
      simp only [hto ha.name, hto ha.description, hto ha.family]
    unfold ServerArgs.metadata
    rw [henc]
    dsimp only
    unfold Metadata.create
    rw [if_pos ((hc8 ⟨ch, c2⟩).2 ch0), hcs ha.name, hcs ha.description, hcs ha.family]
    simp only [Outcome.map, Outcome.bind_ok]
    rw [show propSetAll Properties.create a.custom = .ok (Properties.ofPairs (pairs a.custom)) from ha.custom.new, er, ei, ec]
    rfl
  · refine ⟨by decide, by rw [← er]; exact hr16 ⟨r, r2⟩ r0, by rw [← ei]; exact hi16 ⟨i, i2⟩, by rw [← ec]; exact ⟨(hc8 ⟨ch, c2⟩).1, (hc8 ⟨ch, c2⟩).2 ch0⟩,
      fun h => absurd h (by decide), ?_, rfl, ?_⟩
    · rintro s (h | h | h) <;> cases h
      · exact ascii_plain ha.name
      · exact ascii_plain ha.description
      · exact ascii_plain ha.family
    · intro kv hkv
      obtain ⟨e, he, rfl⟩ := List.mem_map.1 hkv
      obtain ⟨h7, hk, hv⟩ := ha.custom.2 e he
      exact ⟨hk, hv, fun h => (ha.external e he).1 (ascii_prefix (p := t!"trax.") (by decide) (fun c hc => h7 c (List.mem_append_left _ hc)) h)⟩

/-! ## Requests -/

theorem decodeImages_length (env : Env) (m : Metadata) : ∀ (is : List Nat) (args : List Str) (l : ImageList), decodeImages env m is args = .ok (some l) → l.length = is.length
  | [], _, l, h => by rw [decodeImages] at h; cases h; rfl
  | i :: is, args, l, h => by
    rw [decodeImages.eq_def] at h
    dsimp only at h
    split at h
    · split at h
      · cases h
      · obtain ⟨d, -, h⟩ := bind_eq_ok h
        split at h
        · cases h
        · split at h
          · obtain ⟨rest, h1, h2⟩ := map_eq_ok h
            cases rest with
            | none => cases h2
            | some rest =>
              cases h2
              simp [decodeImages_length env m is _ _ h1]
          · cases h
    · obtain ⟨rest, h1, h2⟩ := map_eq_ok h
      cases rest with
      | none => cases h2
      | some rest =>
        cases h2
        simp [decodeImages_length env m is _ _ h1]

theorem images_dictionary {l : ImageList} (h : l.length = 3) : wrapImageList (some l) = .ok (.ok (dictionary l)) := by
  match l, h with
  | [x, y, z], _ => cases x <;> cases y <;> cases z <;> rfl

/-- The tracker gets a request. -/
theorem wait_joined {senv : Env} {s : Handle} {text : Str} {start : Option (Str × Region)} {l : ImageList} {props : List (Str × Str)}
    (hs : s.server = true) (ha : s.isAlive = true) (hq : s.stream.input = []) (hreq : Loop.Wanted senv s text start l props)
    (hcase : (∃ r₀ ti ri, Loop.Comes r₀ ti ri ∧ start = some (ti, ri) ∧ s.objects = 0) ∨ (start = none ∧ s.objects = 1)) :
    serverWaitText senv (text.length + 3) (reads s text) = some (.ok (.ok (match start with
      | some x => begins x.2 l (Properties.ofPairs props)
      | none => continues l (Properties.ofPairs props)), Loop.asked s)) := by
  obtain ⟨texts, i2, i3, i4, hk, htext⟩ := hreq
  have hlen : l.length = 3 := decodeImages_length _ _ _ _ _ i2
  rcases hcase with ⟨r₀, ti, ri, ⟨hti, hpi, hai, hwi⟩, rfl, hn⟩ | ⟨rfl, hn⟩
  · have hm : Announces .initialize [(r₀, [])] [(ti, ri, Properties.ofPairs [])] := .cons hti hpi hai hwi (by simp [SendablePairs]) .nil
    have hwait := serverWait_request senv (reads s text) 0 ⟨true, [], [(r₀, [])], props, []⟩ [(r₀, [])] _ texts l hs ha hn (by simp) rfl hm i2 i3 i4 hk [] (by
      show s.stream.input ++ bytes text = _
      rw [hq, htext]
      simp [ofPairs_nil]) (text.length + 3) (by simp)
    unfold serverWaitText serverWait
    rw [hwait]
    have hobj : wrapObjectList senv (some (received [(ti, ri, Properties.ofPairs [])])) = .ok [(some ri, [])] := by
      rw [wrapObjectList_ok senv (by
        intro e he
        rw [show received [(ti, ri, Properties.ofPairs [])] = [(some ri, Properties.ofPairs [])] from rfl, List.mem_singleton] at he
        exact ⟨ri, by rw [he], hwi⟩)]
      rfl
    simp only [Option.map_some, Outcome.bind_ok, true_or, if_true, List.cons_ne_nil, if_false]
    unfold serverRequest
    dsimp only
    rw [if_neg (by decide), if_pos (by decide), images_dictionary hlen, Outcome.bind_ok]
    dsimp only
    rw [hobj]
    rfl
  · have hwait := serverWait_request senv (reads s text) 1 ⟨false, [], [], props, []⟩ [] [] texts l hs ha hn (by simp) rfl .nil i2 i3 i4 hk [] (by
      show s.stream.input ++ bytes text = _
      rw [hq, htext]
      simp) (text.length + 3) (by simp)
    unfold serverWaitText serverWait
    rw [hwait]
    simp only [Option.map_some, Outcome.bind_ok]
    rw [if_neg (by simp)]
    simp only [if_true]
    unfold serverRequest
    dsimp only
    rw [if_neg (by decide), if_neg (by decide), if_pos (by decide), images_dictionary hlen, Outcome.bind_ok]
    rfl

/-- The step of the tracker for a request. -/
theorem turn_joined {senv : Env} {other : Thrown → Text} {T : Tracker τ} {s : Handle} {x : Loop.Step (Step τ)} {tracker : Option (Step τ)} {text : Str}
    {start : Option (Str × Region)} {l : ImageList} {props : List (Str × Str)}
    (hs : s.server = true) (ha : s.isAlive = true) (hq : s.stream.input = []) (hreq : Loop.Wanted senv s text start l props)
    (hcase : (∃ r₀ ti ri, Loop.Comes r₀ ti ri ∧ start = some (ti, ri) ∧ s.objects = 0 ∧ (like T).init ri l (Properties.ofPairs props) = x ∧ tracker = none) ∨
      (start = none ∧ s.objects = 1 ∧ ∃ u, tracker = some u ∧ (like T).update u l (Properties.ofPairs props) = x)) :
    x = likeStep x.state ∧ turn senv other T (text.length + 3) ⟨reads s text, (tracker.map Step.state).getD T.first⟩ = some (answer senv other (Loop.asked s) x.state) := by
  unfold turn
  rcases hcase with ⟨r₀, ti, ri, hc, rfl, hn, hx, rfl⟩ | ⟨rfl, hn, u, rfl, hx⟩
  · rw [wait_joined hs ha hq hreq (.inl ⟨r₀, ti, ri, hc, rfl, hn⟩)]
    subst hx
    exact ⟨rfl, rfl⟩
  · rw [wait_joined hs ha hq hreq (.inr ⟨rfl, hn⟩)]
    subst hx
    exact ⟨rfl, rfl⟩

/-! ## Answers -/

theorem status_joined (env : Env) {s : Handle} {r r' : Region} {d properties : Dict} {t : Str} (hs : s.server = true) (ha : s.isAlive = true) (ho : s.objects = 1)
    (hr : s.stream.out.Reliable) (hsend : Sendable r) (hd : SendableDict d) (hp : SendableDict properties)
    (ht : r.string = .ok (some t)) (hpar : Region.parse t = .ok ⟨1, some r', 0⟩) (har : Arrives r r') (hw : WellFormed r') :
    ∃ st, serverStatusText env s [(r, d)] properties = .ok (.ok (), { s with error := .none, stream := st }) ∧
      st.out.sent = s.stream.out.sent ++ wire .state [t] (Properties.ofPairs (pairs d)).enumerate ∧ st.out.Reliable ∧ st.input = s.stream.input := by
  have hk : SendablePairs (pairs d) := by
    intro kv hkv
    obtain ⟨e, he, rfl⟩ := List.mem_map.1 hkv
    exact (hd.2 e he).2
  have hm : Announces .state [(r, pairs d)] [(t, r', Properties.ofPairs (pairs d))] := .cons ht hpar har hw hk .nil
  obtain ⟨st, e1, e2, e3, e4, -⟩ := replyLoop_sends hm s.clearError hr
  refine ⟨st, ?_, by rw [e2]; simp [announcement, clearError], e3, e4⟩
  unfold serverStatusText serverStatus
  rw [hp.new]
  dsimp only
  rw [wrapObjects_ok env (by
    intro o ho
    rw [List.mem_singleton] at ho
    subst ho
    exact ⟨sendable_wellFormed hsend, hd⟩), Outcome.bind_ok]
  dsimp only
  have e : serverReplyMot s (objectList (plainObjects [(r, d)])) = .ok (TRAX_OK, { s with error := .none, stream := st }) := by
    rw [serverReplyMot_loop s (objectList (plainObjects [(r, d)])) hs ha (fun _ => rfl) (by rw [ho]; rfl)]
    exact e1
  rw [e]
  rfl

/-- The client gets the answer. -/
theorem clientWaitRegion_answer (env : Env) (h : Handle) {noise t : Str} {r : Region} (p : Properties) (hp : SendableProps p) (rest : List InEv)
    (hs : h.server = false) (ha : h.isAlive = true) (ho : h.objects = 1) (hn : Noise noise) (ht : Plain t ∧ ¬ LooksLikeProperty t)
    (hr : Region.parse t = .ok ⟨1, some r, 0⟩) (hw : WellFormed r)
    (hin : h.stream.input = bytes noise ++ (bytes (wire .state [t] p.enumerate) ++ rest)) :
    ∃ props, Cpp.clientWaitRegion env (some h) none Properties.create = .ok ⟨TRAX_STATE, none, some r, props,
      some { h with stream := { h.stream with input := rest, mtype := some .state } }⟩ := by
  unfold Cpp.clientWaitRegion
  dsimp only
  rw [clientWait_one env h Properties.create p hp rest hs ha ho hn ht hr hw hin, Outcome.bind_ok]
  unfold Cpp.takeObject
  dsimp only
  have hg : ObjList.get [(some r, p)] 0 = some r := rfl
  rw [if_neg (by simp [ObjList.count]), if_pos (by simp [ObjList.count]), hg, clone_wellFormed _ _ hw]
  exact ⟨_, rfl⟩

/-- The end of the session, with a reason. -/
theorem clientWaitRegion_told (env : Env) (h : Handle) {noise : Str} (p : Properties) (hp : SendableProps p) (hs : h.server = false) (ha : h.isAlive = true) (ho : h.objects = 1) (hn : Noise noise)
    (hin : h.stream.input = bytes noise ++ bytes (wire .quit [] p.enumerate)) :
    ∃ w, Cpp.clientWaitRegion env (some h) none Properties.create = .ok w ∧ w.ret = TRAX_QUIT := by
  unfold Cpp.clientWaitRegion
  dsimp only
  rw [clientWait_loop _ _ _ hs ha, ho, clientWaitLoop]
  have e : h.stream = { h.stream with input := bytes noise ++ (bytes (wire .quit [] p.enumerate) ++ []) } := by rw [List.append_nil, ← hin]
  have hread := Stream.read_wire { h.stream with input := bytes (wire .quit [] p.enumerate) ++ [] } .quit [] p hp.wf
    (deliverable_args hp (by simp)) [] rfl
  have hread' : h.stream.read.1.mtype = some .quit ∧ h.stream.read.1.args = [] := by
    rw [e, read_noise _ hn, hread]
    exact ⟨rfl, rfl⟩
  generalize h.stream.read = x at hread' ⊢
  obtain ⟨⟨mt, args, props, log, rest⟩, st⟩ := x
  obtain ⟨h1, h2⟩ := hread'
  dsimp only at h1 h2 ⊢
  subst h1 h2
  exact ⟨_, rfl, rfl⟩

/-! ## The process -/

/-- The reason with which a session is ended. -/
theorem leave_reason {h : Handle} (ha : h.isAlive = true) (hr : h.stream.out.Reliable) {reason : Option Text} (ht : ∀ t, reason = some t → Reason t) :
    ∃ p, SendableProps p ∧ (leave reason h).sent = h.stream.out.sent ++ wire .quit [] p.enumerate := by
  have key : ∀ r : Option Str, (serverQuit reason (.running h) = if statusDecode (h.terminate r).1 = some t!"error" then (.error .trax, .running (h.terminate r).2)
        else (.ok (), .ended (h.terminate r).2.cleanup.2)) → (∀ x, r = some x → Plain x) →
      ∃ p, SendableProps p ∧ (leave reason h).sent = h.stream.out.sent ++ wire .quit [] p.enumerate := by
    intro r he hpl
    obtain ⟨t1, t2⟩ := C52_terminate_once Demo.env h ha hr r (fun x hx => plain_noNul (hpl x hx))
    obtain ⟨t3, -, t4, -⟩ := t2 [] [] _ (.nil _)
    refine ⟨quitProperties r, ?_, ?_⟩
    · cases r with
      | none => exact SendableProps.create
      | some x => exact SendableProps.create.set (by decide) (hpl x rfl)
    · have hq : serverExit reason (.running h) = (.ok (), .ended (h.terminate r).2.cleanup.2) := by
        unfold serverExit
        rw [he, t1, if_neg (by decide)]
      unfold leave
      rw [hq]
      dsimp only
      rw [t4, t3, quitProperties_enumerate]
      cases r with
      | none => rfl
      | some x => simp [cstr_of_noNul (plain_noNul (hpl x rfl))]
  cases reason with
  | none => exact key none rfl fun x hx => nomatch hx
  | some t =>
    have h7 := ht t rfl
    refine key (some (ascii t)) ?_ fun x hx => by cases hx; exact ascii_plain h7
    unfold serverQuit
    simp only [ascii_toC (fun c hc => (h7 c hc).2) (plain_noNul (ascii_plain h7)), Except.map]

section
variable (senv env : Env) (other : Thrown → Text) (T : Tracker τ) (shared : Bool) (a : ServerArgs) (junk : UInt32) (stream : Stream) (report : Nat → Proc.Poll) (out : Writer) (kvs : List (Str × Str))

/-- The variables of the two programs. -/
def Same (q : Option (Loop.Program (Step τ))) (p : Option (Program τ)) : Prop := ∃ h t, q = some ⟨h, t⟩ ∧ p = some ⟨h, (t.map Step.state).getD T.first⟩

def Idle (m : Metadata) (c : Handle) (p : Option (Program τ)) : Prop := ∃ q, Same T q p ∧ Loop.Idle m c q
def Tracking (m : Metadata) (x : Loop.Step (Step τ) × Region) (c : Handle) (p : Option (Program τ)) : Prop := ∃ q, Same T q p ∧ Loop.Tracking m x c q
def Fresh (q : Option (Loop.Program (Step τ))) : Prop := ∀ p, q = some p → p.handle.objects = 0 → p.tracker = none
def Asked (m : Metadata) (x : Loop.Step (Step τ) × Region) (c : Handle) (n : Nat) (p : Option (Program τ)) : Prop :=
  ∃ q, Same T q p ∧ Fresh q ∧ Loop.Asked senv (like T) m x c n q

theorem single_of_like {x : Step τ} (h : (likeStep x).fate = .answers) : Single x := by
  by_contra hs
  unfold likeStep at h
  simp [hs] at h

theorem serves_python (ha : Declarable a) (hin : stream.input = []) (hout : stream.out.Reliable) (hco : out.Reliable) (hk : SendablePairs kvs) :
    Serves (peer senv other T shared a junk stream report) env out (Link.about (declaration a)) (Loop.Starts env (like T) (declaration a) kvs) (Loop.Goes (like T) (declaration a))
      (Properties.ofPairs kvs) Prod.snd (Idle T (declaration a)) (Tracking T (declaration a)) (Asked senv T (declaration a)) := by
  obtain ⟨hmeta, hm⟩ := declared ha
  have H := Loop.serves_joined senv env (like T) shared (declaration a) junk stream report out kvs hm hm.channels.1 hin hout hco hk
  constructor
  · obtain ⟨p, news, c, h1, h2, h3, h4, s, hp, h5⟩ := H.start
    have h1' : ((Loop.begin (declaration a) junk stream : Outcome (Loop.Program (Step τ))).map fun p => (some p, p.handle.stream.out.sent.drop stream.out.sent.length)) = .ok (p, news) := h1
    unfold Loop.begin at h1'
    obtain ⟨x, e1, e2⟩ := map_eq_ok h1'
    obtain ⟨h, e3, e4⟩ := map_eq_ok e1
    subst e4
    have e5 := Prod.mk.inj e2
    rw [hp] at e5
    have e6 : h = s := congrArg Loop.Program.handle (Option.some.inj e5.1)
    subst e6
    refine ⟨some ⟨h, T.first⟩, news, c, ?_, h2, h3, h4, some ⟨h, none⟩, ⟨h, none, rfl, rfl⟩, h, rfl, h5⟩
    show (serverInit junk a stream).map _ = _
    unfold serverInit
    rw [hmeta, Outcome.bind_ok]
    dsimp only
    rw [e3]
    have e7 : (Outcome.ok h).map (fun h : Handle => if h.isAlive = true then Except.ok h else Except.error Exc.attribute) = .ok (.ok h) := by
      show Outcome.ok (if h.isAlive = true then Except.ok h else Except.error Exc.attribute) = _
      rw [if_pos h5.server.2.1]
    rw [e7, ← e5.2]
    rfl
  · rintro c p ⟨q, -, h⟩; exact H.about c q h
  · exact ⟨by rintro c p ⟨q, -, h⟩; exact H.alive.1 c q h, by rintro x c p ⟨q, -, h⟩; exact H.alive.2.1 x c q h, by rintro x c n p ⟨q, -, -, h⟩; exact H.alive.2.2 x c n q h⟩
  · exact ⟨by rintro c p ⟨q, ⟨h, t, -, rfl⟩, -⟩ k; rfl, by rintro x c p ⟨q, ⟨h, t, -, rfl⟩, -⟩ k; rfl, by rintro x c n p ⟨q, ⟨h, t, -, rfl⟩, -⟩ k; rfl⟩
  · rintro x c p images r ⟨q, hq, h⟩ hs
    obtain ⟨c', e1, e2⟩ := H.setup x c q images r h hs
    refine ⟨c', e1, q, hq, ?_, e2⟩
    obtain ⟨s, rfl, -⟩ := h
    rintro p hp -
    cases hp
    rfl
  · rintro x y c p images ⟨q, hq, h⟩ hs
    obtain ⟨c', e1, e2⟩ := H.frame x y c q images h hs
    refine ⟨c', e1, q, hq, ?_, e2⟩
    obtain ⟨s, rfl, hj, -⟩ := h
    rintro p hp h0
    cases hp
    exact absurd (hj.server.2.2.1.symm.trans h0) (by decide)
  · rintro x c n p ⟨q, ⟨s, t', hq, rfl⟩, hfresh, ⟨hfate, hs, hb, hf, t, ht, hp, har, hw⟩, s₂, tracker, start, l, props, hq', h, hn, hreq, hcase⟩
    rw [hq] at hq'
    cases hq'
    obtain ⟨hx, hturn⟩ := turn_joined (other := other) (s := s) h.server.1 h.server.2.1 h.server.2.2.2.2 hreq (by
      rcases hcase with ⟨r₀, ti, ri, g1, g2, g3, g4⟩ | hcase
      · exact .inl ⟨r₀, ti, ri, g1, g2, g3, g4, hfresh _ hq g3⟩
      · exact .inr hcase)
    obtain ⟨x, r'⟩ := x
    obtain ⟨y, hy⟩ : ∃ y, y = x.state := ⟨_, rfl⟩
    dsimp only at hx hturn hfate hs hb hf ht hp har hw
    rw [← hy] at hx hturn
    subst hx
    obtain ⟨s1, ⟨⟨r, d⟩, s2, s3⟩, s4⟩ := single_of_like hfate
    have hreg : (likeStep y).region = r := by unfold likeStep; rw [s2]; rfl
    rw [hreg] at hs ht har
    obtain ⟨st, e1, e2, e3, e4⟩ := status_joined senv (s := Loop.asked s) h.server.1 h.server.2.1 rfl h.server.2.2.2.1 hs s3 s4 ht hp har hw
    obtain ⟨noise, n1, n2⟩ := h.noise
    have hplain : Plain t ∧ ¬ LooksLikeProperty t := Region.string_deliverable ht
    obtain ⟨before, hbe⟩ : ∃ b, b = if shared then y.before else [] := ⟨_, rfl⟩
    obtain ⟨after, hae⟩ : ∃ b, b = if shared then y.after else [] := ⟨_, rfl⟩
    have hb' : Noise before := by rw [hbe]; exact .ite shared hb
    have hf' : Noise after := by rw [hae]; exact .ite shared hf
    have hk' : SendableProps (Properties.ofPairs (pairs d)) := SendableProps.ofPairs (by
      intro kv hkv
      obtain ⟨e, he, rfl⟩ := List.mem_map.1 hkv
      exact (s3.2 e he).2)
    have hans : answer senv other (Loop.asked s) y = .ok (.go ⟨{ Loop.asked s with error := .none, stream := st }, y.state⟩ y.before y.after) := by
      unfold answer
      rw [s1]
      dsimp only
      rw [s2, e1]
      rfl
    have hresp : (peer senv other T shared a junk stream report).respond (c.stream.out.sent.drop n) (some ⟨s, (t'.map Step.state).getD T.first⟩) =
        .ok (some ⟨{ s with error := .none, objects := 1, stream := st }, y.state⟩, before ++ (wire .state [t] (Properties.ofPairs (pairs d)).enumerate ++ after)) := by
      show (match turn senv other T ((c.stream.out.sent.drop n).length + 3) ⟨reads s (c.stream.out.sent.drop n), (t'.map Step.state).getD T.first⟩ with | none => _ | some o => o.map _) = _
      rw [hturn, hans]
      show Outcome.ok (_, (if shared then y.before else []) ++ (st.out.sent.drop s.stream.out.sent.length ++ if shared then y.after else [])) = _
      rw [e2]
      show Outcome.ok (_, (if shared then y.before else []) ++ ((s.stream.out.sent ++ _).drop s.stream.out.sent.length ++ if shared then y.after else [])) = _
      rw [List.drop_left, ← hbe, ← hae]
      rfl
    obtain ⟨props', hwait⟩ := clientWaitRegion_answer env { c with stream := { c.stream with input := c.stream.input ++ bytes (before ++ (wire .state [t] (Properties.ofPairs (pairs d)).enumerate ++ after)) } }
      (noise := noise ++ before) (t := t) (r := r') _ hk' (bytes after) h.client.1 h.client.2.1 h.client.2.2.2.1 (n1.append hb') hplain hp hw (by
        show c.stream.input ++ _ = _
        rw [n2]
        simp only [bytes_append', List.append_assoc])
    refine ⟨_, _, _, _, hresp, hwait, rfl, rfl, rfl, rfl, some ⟨{ s with error := .none, objects := 1, stream := st }, some y⟩, ⟨_, _, rfl, rfl⟩, _, rfl,
      ⟨⟨h.client.1, h.client.2.1, h.client.2.2.1, h.client.2.2.2.1, h.client.2.2.2.2⟩,
      ⟨h.server.1, h.server.2.1, rfl, e3, e4⟩, h.metadata, h.tracker, after, hf', rfl⟩, rfl⟩

/-- The last step of a program, and what the operating system tells about it. -/
def Last (first : Bool) (y : Step τ) : Prop :=
  Noise y.before ∧ (y.fate = .leaves ∨ (∃ t, y.fate = .raises t ∧ Reason t) ∨ (y.fate = .crashes ∧ (first = true → ∀ k, report k ≠ .running)))

def LastStart (m : Metadata) (images : Cli.FrameImages) (r : Region) : Prop :=
  ∃ x : Loop.Step (Step τ), Last report true x.state ∧ Sendable r ∧ ∃ r₀ ti ri l, Region.toSend env.legacy env.fresh r m.regions = .ok r₀ ∧ Loop.Comes r₀ ti ri ∧ Loop.Sends m l images ∧
    (like T).init ri l (Properties.ofPairs kvs) = x

def LastGo (m : Metadata) (x : Loop.Step (Step τ) × Region) (images : Cli.FrameImages) : Prop :=
  ∃ y : Loop.Step (Step τ), Last report false y.state ∧ ∃ l, Loop.Sends m l images ∧ (like T).update x.1.state l (Properties.ofPairs []) = y

def Doomed (m : Metadata) (c : Handle) (n : Nat) (p : Option (Program τ)) : Prop :=
  ∃ (q : Option (Loop.Program (Step τ))) (x : Loop.Step (Step τ)) (first : Bool), Same T q p ∧ Fresh q ∧ Last report first x.state ∧ Loop.Requested senv (like T) m x c n q ∧
    (first = false → c.stream.mtype = some .state)

theorem fails_python {m : Metadata} (hch : m.channels &&& 7 = m.channels) (hk : SendablePairs kvs) :
    Fails (peer senv other T shared a junk stream report) env (Properties.ofPairs kvs) (LastStart env T report kvs m) (LastGo T report m) (Idle T m) (Tracking T m)
      (Doomed senv T report m) where
  setup := by
    rintro c p images r ⟨q, hq, hp⟩ ⟨x, hx, hr, h⟩
    obtain ⟨c', e1, e2⟩ := Loop.setup_requested senv env (like T) m kvs hch hk hp hr h
    refine ⟨c', e1, q, x, true, hq, ?_, hx, e2, fun h => nomatch h⟩
    obtain ⟨s, rfl, -⟩ := hp
    rintro p hp -
    cases hp
    rfl
  frame := by
    rintro x c p images ⟨q, hq, hp⟩ ⟨y, hy, h⟩
    obtain ⟨c', e1, e2⟩ := Loop.frame_requested senv env (like T) m hch hp h
    refine ⟨c', e1, q, y, false, hq, ?_, hy, e2, fun _ => ?_⟩
    · obtain ⟨s, rfl, hj, -⟩ := hp
      rintro p hp h0
      cases hp
      exact absurd (hj.server.2.2.1.symm.trans h0) (by decide)
    · rw [clientFrameImages_mtype e1]
      obtain ⟨s, -, -, h⟩ := hp
      exact h
  alive := by rintro c n p ⟨q, x, first, -, -, -, ⟨s, tracker, start, l, props, -, h, -⟩, -⟩; exact h.client.2.1
  up := by rintro c n p ⟨q, x, first, ⟨h, t, -, rfl⟩, -⟩ k; rfl
  wait := by
    rintro c n p ⟨q, x, first, ⟨s, t', hq, rfl⟩, hfresh, ⟨hb, hfate⟩, ⟨s₂, tracker, start, l, props, hq', h, hn, hreq, hcase⟩, hm⟩
    rw [hq] at hq'
    cases hq'
    obtain ⟨-, hturn⟩ := turn_joined (other := other) (s := s) h.server.1 h.server.2.1 h.server.2.2.2.2 hreq (by
      rcases hcase with ⟨r₀, ti, ri, g1, g2, g3, g4⟩ | hcase
      · exact .inl ⟨r₀, ti, ri, g1, g2, g3, g4, hfresh _ hq g3⟩
      · exact .inr hcase)
    obtain ⟨y, hy⟩ : ∃ y, y = x.state := ⟨_, rfl⟩
    rw [← hy] at hturn hb hfate
    obtain ⟨noise, n1, n2⟩ := h.noise
    obtain ⟨before, hbe⟩ : ∃ b, b = if shared then y.before else [] := ⟨_, rfl⟩
    have hb' : Noise before := by rw [hbe]; exact .ite shared hb
    have quits : ∀ reason : Option Text, (∀ t, reason = some t → Reason t) → answer senv other (Loop.asked s) y = .ok (.stop (leave reason (Loop.asked s)) y.before) →
        ∃ p' text w, (peer senv other T shared a junk stream report).respond (c.stream.out.sent.drop n) (some ⟨s, (t'.map Step.state).getD T.first⟩) = .ok (p', text) ∧
          Cpp.clientWaitRegion env (some { c with stream := { c.stream with input := c.stream.input ++ bytes text } }) none Properties.create = .ok w ∧
          (w.ret = TRAX_QUIT ∨ w.ret = TRAX_ERROR ∨ (w.ret ≠ TRAX_STATE ∧ ∀ k, (peer senv other T shared a junk stream report).polled p' k ≠ .running)) := by
      intro reason hreason hans
      obtain ⟨p, hp, hsent⟩ := leave_reason (h := Loop.asked s) h.server.2.1 h.server.2.2.2.1 hreason
      have hresp : (peer senv other T shared a junk stream report).respond (c.stream.out.sent.drop n) (some ⟨s, (t'.map Step.state).getD T.first⟩) =
          .ok (none, before ++ wire .quit [] p.enumerate) := by
        show (match turn senv other T ((c.stream.out.sent.drop n).length + 3) ⟨reads s (c.stream.out.sent.drop n), (t'.map Step.state).getD T.first⟩ with | none => _ | some o => o.map _) = _
        rw [hturn, hans]
        show Outcome.ok (_, (if shared then y.before else []) ++ (leave reason (Loop.asked s)).sent.drop s.stream.out.sent.length) = _
        rw [hsent]
        show Outcome.ok (_, (if shared then y.before else []) ++ ((s.stream.out.sent ++ _).drop s.stream.out.sent.length)) = _
        rw [List.drop_left, ← hbe]
      obtain ⟨w, w1, w2⟩ := clientWaitRegion_told env { c with stream := { c.stream with input := c.stream.input ++ bytes (before ++ wire .quit [] p.enumerate) } }
        (noise := noise ++ before) p hp h.client.1 h.client.2.1 h.client.2.2.2.1 (n1.append hb') (by
          show c.stream.input ++ _ = _
          rw [n2]
          simp only [bytes_append', List.append_assoc])
      exact ⟨_, _, w, hresp, w1, .inl w2⟩
    rcases hfate with hfate | ⟨t, hfate, ht⟩ | ⟨hfate, hlate⟩
    · refine quits none (fun t ht => nomatch ht) ?_
      unfold answer
      rw [hfate]
    · refine quits (some t) (fun t' ht' => by cases ht'; exact ht) ?_
      unfold answer
      rw [hfate]
    · have hans : answer senv other (Loop.asked s) y = .ok (.dead y.before) := by
        unfold answer
        rw [hfate]
      have hresp : (peer senv other T shared a junk stream report).respond (c.stream.out.sent.drop n) (some ⟨s, (t'.map Step.state).getD T.first⟩) = .ok (none, before) := by
        show (match turn senv other T ((c.stream.out.sent.drop n).length + 3) ⟨reads s (c.stream.out.sent.drop n), (t'.map Step.state).getD T.first⟩ with | none => _ | some o => o.map _) = _
        rw [hturn, hans, hbe]
        rfl
      obtain ⟨w, w1, w2, w3⟩ := clientWaitRegion_eof env { c with stream := { c.stream with input := c.stream.input ++ bytes before } }
        (noise := noise ++ before) h.client.1 h.client.2.1 h.client.2.2.2.1 (n1.append hb') (by
          show c.stream.input ++ _ = _
          rw [n2]
          simp only [bytes_append'])
      refine ⟨_, _, w, hresp, w1, .inr ?_⟩
      cases first with
      | false => exact .inl (w3 (hm rfl))
      | true => exact .inr ⟨w2, hlate rfl⟩

end

end Trax.PyLoop
