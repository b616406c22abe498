import Verif.Lemmas.Link
import Verif.Lemmas.PhasedRun
import Verif.Props.SotSession

/-!
# Lemmas on the static tracker behind `traxclient`
-/

namespace Trax
open Spec Handle
open Region (bind_eq_ok map_eq_ok)

/-! ## Other output in the stream -/

/-- Lines of other output. -/
def Noise (t : Str) : Prop := ∃ ls : List Str, (∀ l ∈ ls, ForeignLine l) ∧ t = ls.flatMap fun l => l ++ b!"\n"

theorem Noise.nil : Noise [] := ⟨[], by simp, rfl⟩

theorem Noise.append {s t : Str} (hs : Noise s) (ht : Noise t) : Noise (s ++ t) := by
  obtain ⟨a, ha, rfl⟩ := hs
  obtain ⟨b, hb, rfl⟩ := ht
  refine ⟨a ++ b, ?_, by simp⟩
  intro l hl
  rcases List.mem_append.mp hl with hl | hl
  · exact ha l hl
  · exact hb l hl

theorem Noise.line {l : Str} (h : ForeignLine l) : Noise (l ++ b!"\n") := ⟨[l], by simpa using h, by simp⟩

theorem Noise.ite {t : Str} (b : Bool) (h : Noise t) : Noise (if b then t else []) := by cases b; exact .nil; exact h

/-- Reading a message after other output. -/
theorem read_noise (s : Stream) {noise : Str} (hn : Noise noise) (rest : List InEv) :
    ({ s with input := bytes noise ++ rest } : Stream).read =
      ({ ({ s with input := rest } : Stream).read.1 with log := noise ++ ({ s with input := rest } : Stream).read.1.log }, ({ s with input := rest } : Stream).read.2) := by
  obtain ⟨ls, hl, rfl⟩ := hn
  unfold Stream.read
  dsimp only
  rw [C08_foreign_lines_ignored ls hl]

/-- A client with one object waits for the answer. -/
theorem clientWait_one (env : Env) (h : Handle) (props : Properties) {noise t : Str} {r : Region} (p : Properties) (hp : SendableProps p) (rest : List InEv)
    (hs : h.server = false) (ha : h.isAlive = true) (ho : h.objects = 1) (hn : Noise noise) (ht : Plain t ∧ ¬ LooksLikeProperty t)
    (hr : Region.parse t = .ok ⟨1, some r, 0⟩) (hw : WellFormed r)
    (hin : h.stream.input = bytes noise ++ (bytes (wire .state [t] p.enumerate) ++ rest)) :
    clientWait env h (some props) = .ok ⟨TRAX_STATE, none, some [(some r, p)], none, some props,
      { h with stream := { h.stream with input := rest, mtype := some .state } }⟩ := by
  rw [clientWait_loop _ _ _ hs ha, ho, clientWaitLoop]
  have e : h.stream = { h.stream with input := bytes noise ++ (bytes (wire .state [t] p.enumerate) ++ rest) } := by rw [← hin]
  have hread := Stream.read_wire { h.stream with input := bytes (wire .state [t] p.enumerate) ++ rest } .state [t] p hp.wf
    (deliverable_args hp (by simpa using ht)) rest rfl
  have hread' : h.stream.read = (⟨some .state, [t], p, noise ++ wire .state [t] p.enumerate, rest⟩, { h.stream with mtype := some .state, input := rest }) := by
    rw [e, read_noise _ hn, hread]
  rw [hread']
  dsimp only
  rw [hr]
  simp only [Outcome.bind_ok, Nat.one_ne_zero, if_false]
  have hset := objList_set_snoc env [] Properties.create (Region.createSpecial 0) r hw []
  have hc : ObjList.create 1 = [] ++ (some (Region.createSpecial 0), Properties.create) :: [] := rfl
  rw [hc]
  have hset' : ObjList.set env.legacy env.fresh ([] ++ [(some (Region.createSpecial 0), Properties.create)]) ((0 : Nat) : Int) (some r) = .ok ([] ++ [(some r, Properties.create)]) := hset
  rw [hset']
  simp only [Outcome.bind_ok]
  have hprops : (ObjList.properties ([] ++ [(some r, Properties.create)]) ((0 : Nat) : Int)).getD Properties.create = Properties.create := rfl
  rw [hprops, copyAll_create hp.wf, clientWaitLoop, ho]
  rfl

theorem clientWaitRegion_one (env : Env) (h : Handle) {noise t : Str} {r : Region} (rest : List InEv)
    (hs : h.server = false) (ha : h.isAlive = true) (ho : h.objects = 1) (hn : Noise noise) (ht : Plain t ∧ ¬ LooksLikeProperty t)
    (hr : Region.parse t = .ok ⟨1, some r, 0⟩) (hw : WellFormed r)
    (hin : h.stream.input = bytes noise ++ (bytes (wire .state [t] Properties.create.enumerate) ++ rest)) :
    Cpp.clientWaitRegion env (some h) none Properties.create = .ok ⟨TRAX_STATE, none, some r, Properties.create,
      some { h with stream := { h.stream with input := rest, mtype := some .state } }⟩ := by
  unfold Cpp.clientWaitRegion
  dsimp only
  rw [clientWait_one env h Properties.create Properties.create SendableProps.create rest hs ha ho hn ht hr hw hin, Outcome.bind_ok]
  unfold Cpp.takeObject
  dsimp only
  have hg : ObjList.get [(some r, Properties.create)] 0 = some r := rfl
  rw [if_neg (by simp [ObjList.count]), if_pos (by simp [ObjList.count]), hg, clone_wellFormed _ _ hw]
  rfl

/-! ## The static tracker -/

namespace Link

/-- What the tracker says about itself. -/
def introduction (depth ir : Bool) : Cli.About := ⟨b!"Static", b!"Static demo tracker", b!"Demo", 15, (Static.channels depth ir).toNat⟩

/-- The two ends of the connection: they agree, and what the client has not read is other output. -/
structure Linked (depth ir : Bool) (c s : Handle) (n : Nat) : Prop where
  client : c.server = false ∧ c.isAlive = true ∧ c.version = 4 ∧ c.objects = n ∧ c.stream.out.Reliable
  server : s.server = true ∧ s.isAlive = true ∧ s.objects = n ∧ s.stream.out.Reliable ∧ s.stream.input = []
  metadata : c.metadata.regions = 14 ∧ c.metadata.channels = Static.channels depth ir ∧ c.isMulti = true ∧ about c.metadata = introduction depth ir
  tracker : s.metadata.images = 15 ∧ s.metadata.channels = Static.channels depth ir ∧ s.isMulti = true
  noise : ∃ noise, Noise noise ∧ c.stream.input = bytes noise

/-- The request that the client has sent. -/
def Request (senv : Env) (s : Handle) (text : Str) (start : Option (Str × Region)) (props : List (Str × Str)) : Prop :=
  ∃ texts l, decodeImages senv s.metadata channelIndexes texts = .ok (some l) ∧ (∀ t ∈ texts, Plain t ∧ ¬ LooksLikeProperty t) ∧
    ImageList.count s.metadata.channels = .ok texts.length ∧ SendablePairs props ∧
    text = announcement .initialize (start.toList.map fun x => (x.1, x.2, Properties.create)) ++ wire .frame texts (Properties.ofPairs props).enumerate

/-- Images for all channels that are declared. -/
def Complete (depth ir : Bool) (images : Cli.FrameImages) : Prop := SendableImages (Static.channels depth ir) 15 (imageList images)

theorem channels_known (depth ir : Bool) : Static.channels depth ir &&& 7 = Static.channels depth ir ∧ Static.channels depth ir ≠ 0 := by
  cases depth <;> cases ir <;> decide

section
variable {env senv : Env} {depth ir : Bool} {c s : Handle} {n : Nat}

/-- What the client's calls need of the images. -/
theorem images_text (h : Linked depth ir c s n) (senv : Env) {images : Cli.FrameImages} (hi : Complete depth ir images) :
    ∃ texts l, encodeImages c.metadata.channels (imageList images) channelIndexes = .ok (some texts) ∧
      decodeImages senv s.metadata channelIndexes texts = .ok (some l) ∧ (∀ t ∈ texts, Plain t ∧ ¬ LooksLikeProperty t) ∧
      ImageList.count s.metadata.channels = .ok texts.length := by
  obtain ⟨hm1, hm2, -⟩ := h.tracker
  have hi' : SendableImages s.metadata.channels s.metadata.images (imageList images) := by rw [hm1, hm2]; exact hi
  obtain ⟨texts, l, i1, i2, -, i4, i5⟩ := images_transfer senv s.metadata (imageList images) channelIndexes (SendableImages.byIndex hi')
  refine ⟨texts, l, ?_, i2, i4, ?_⟩
  · rw [h.metadata.2.1, ← hm2]; exact i1
  · rw [i5]; exact count_known (by rw [hm2]; exact (channels_known depth ir).1)

theorem setup_linked (h : Linked depth ir c s 0) (env senv : Env) {r r' : Region} {t : Str} (hr : Sendable r) (hsp : ∀ code, r ≠ .special code) (ht : r.string = .ok (some t))
    (hp : Region.parse t = .ok ⟨1, some r', 0⟩) (ha : Arrives r r') (hw : WellFormed r') {kvs : List (Str × Str)} (hk : SendablePairs kvs) {images : Cli.FrameImages}
    (hi : Complete depth ir images) :
    ∃ st, Cpp.clientInitializeRegion env (some c) (imageList images) (some r) (some (Properties.ofPairs kvs)) =
        .ok (TRAX_OK, some { c with error := .none, objects := 1, stream := st }) ∧ st.out.Reliable ∧ st.input = c.stream.input ∧
      ∃ text, st.out.sent = c.stream.out.sent ++ text ∧ Request senv s text (some (t, r')) kvs := by
  obtain ⟨texts, l, i1, i2, i3, i4⟩ := images_text h senv hi
  obtain ⟨hc1, hc2, hc3, hc4, hc5⟩ := h.client
  have hsup : supports c.metadata.regions r.apiType = true := by
    rw [h.metadata.1]
    cases r with
    | special code => exact absurd rfl (hsp code)
    | rectangle => exact (by decide : supports 14 2 = true)
    | polygon => exact (by decide : supports 14 4 = true)
    | mask => exact (by decide : supports 14 8 = true)
  have hm : Announces .initialize [(r, [])] [(t, r', Properties.ofPairs [])] := .cons ht hp ha hw (by simp [SendablePairs]) .nil
  obtain ⟨st, e1, e2, e3, e4⟩ := request_ok env c 0 ⟨true, imageList images, [(r, [])], kvs, []⟩ [(r, [])] _ texts hc1 hc2 hc3 hc4 (by simp) (by simp [Exchange.count])
    (converted_self env _ [(r, [])] (by simpa using hsup)) hm i1 (fun t ht => plain_noNul (i3 t ht).1) hc5
  refine ⟨st, ?_, e3, e4, _, e2, texts, l, i2, i3, i4, hk, by simp [ofPairs_nil]⟩
  unfold Cpp.clientInitializeRegion
  dsimp only
  rw [Trax.oneObject_wellFormed _ (sendable_wellFormed hr), Outcome.bind_ok]
  have e1' : c.clientInitialize env (imageList images) (objectList [(r, [])]) (some (Properties.ofPairs kvs)) = .ok (TRAX_OK, { c with error := .none, objects := 1, stream := st }) := e1
  rw [e1', Outcome.bind_ok]
  rfl

theorem frame_linked (h : Linked depth ir c s 1) (env senv : Env) {images : Cli.FrameImages} (hi : Complete depth ir images) :
    ∃ st, Cpp.clientFrameImages env (some c) (imageList images) none = .ok (TRAX_OK, some { c with error := .none, objects := 1, stream := st }) ∧ st.out.Reliable ∧
      st.input = c.stream.input ∧ ∃ text, st.out.sent = c.stream.out.sent ++ text ∧ Request senv s text none [] := by
  obtain ⟨texts, l, i1, i2, i3, i4⟩ := images_text h senv hi
  obtain ⟨hc1, hc2, hc3, hc4, hc5⟩ := h.client
  obtain ⟨st, e1, e2, e3, e4⟩ := request_ok env c 1 ⟨false, imageList images, [], [], []⟩ [] [] texts hc1 hc2 hc3 hc4 (by simp) (by simp [Exchange.count])
    .nil .nil i1 (fun t ht => plain_noNul (i3 t ht).1) hc5
  refine ⟨st, ?_, e3, e4, _, e2, texts, l, i2, i3, i4, by simp [SendablePairs], by simp⟩
  unfold Cpp.clientFrameImages
  dsimp only
  have e1' : c.clientFrame env (imageList images) none none = .ok (TRAX_OK, { c with error := .none, objects := 1, stream := st }) := e1
  rw [e1']
  rfl

theorem outcome_map_map {α β γ : Type} (f : β → γ) (g : α → β) (o : Outcome α) : (o.map g).map f = o.map fun x => f (g x) := by cases o <;> rfl

/-- The memory of the tracker. -/
def remembered (r : Region) : ObjList := [(some r, Properties.create)]

theorem reply_one {s : Handle} {r : Region} {t : Str} (hs : s.server = true) (ha : s.isAlive = true) (ho : s.objects = 1) (hr : s.stream.out.Reliable)
    (ht : r.string = .ok (some t)) (hp : Region.parse t = .ok ⟨1, some r, 0⟩) (har : Arrives r r) (hw : WellFormed r) :
    ∃ st, serverReplyMot s (remembered r) = .ok (TRAX_OK, { s with error := .none, stream := st }) ∧
      st.out.sent = s.stream.out.sent ++ wire .state [t] Properties.create.enumerate ∧ st.out.Reliable ∧ st.input = s.stream.input := by
  have hm : Announces .state [(r, [])] [(t, r, Properties.ofPairs [])] := .cons ht hp har hw (by simp [SendablePairs]) .nil
  obtain ⟨st, e1, e2, e3, e4, -⟩ := replyLoop_sends hm s.clearError hr
  refine ⟨st, ?_, by rw [e2]; simp [announcement, ofPairs_nil, clearError], e3, e4⟩
  rw [serverReplyMot_loop s (remembered r) hs ha (fun _ => rfl) (by rw [ho]; rfl)]
  exact e1

/-- A turn of the tracker's loop. -/
theorem respond_linked {shared : Bool} {junk : UInt32} {stream : Stream} {s : Handle} {r : Region} {t : Str} {mem : Option ObjList} {buffered text : Str}
    {start : Option (Str × Region)} {props : List (Str × Str)} (hs : s.server = true) (ha : s.isAlive = true) (hrel : s.stream.out.Reliable)
    (hq : s.stream.input = []) (ht : r.string = .ok (some t)) (hp : Region.parse t = .ok ⟨1, some r, 0⟩) (har : Arrives r r) (hw : WellFormed r) (hb : Noise buffered)
    (hreq : Request senv s text start props)
    (hcase : (start = some (t, r) ∧ s.objects = 0 ∧ mem = none) ∨ (start = none ∧ s.objects = 1 ∧ mem = some (remembered r))) :
    ∃ st noise, (static senv shared depth ir junk stream).respond text (some ⟨s, mem, buffered⟩) =
        .ok (some ⟨{ s with error := .none, objects := 1, stream := st }, some (remembered r), []⟩, wire .state [t] Properties.create.enumerate ++ noise) ∧
      Noise noise ∧ st.out.Reliable ∧ st.input = [] := by
  obtain ⟨texts, l, i2, i3, i4, hk, htext⟩ := hreq
  have finish : ∀ (w : Handle) (line : Str), w.server = true → w.isAlive = true → w.objects = 1 → w.stream.out = s.stream.out → w.stream.input = [] → Noise line →
      (∀ st : Stream, ({ w with error := .none, stream := st } : Handle) = { s with error := .none, objects := 1, stream := st }) →
      ∃ st noise, (serverReplyMot w (remembered r)).map (fun x : Int × Handle => turned shared s
          (.go { handle := x.2, mem := some (remembered r), buffered := [] } (buffered ++ line))) =
        .ok (some ⟨{ s with error := .none, objects := 1, stream := st }, some (remembered r), []⟩, wire .state [t] Properties.create.enumerate ++ noise) ∧
      Noise noise ∧ st.out.Reliable ∧ st.input = [] := by
    intro w line h1 h2 h3 h4 h5 h6 h7
    obtain ⟨st, e1, e2, e3, e4⟩ := reply_one h1 h2 h3 (by rw [h4]; exact hrel) ht hp har hw
    refine ⟨st, if shared then buffered ++ line else [], ?_, .ite shared (hb.append h6), e3, by rw [e4, h5]⟩
    rw [e1]
    simp only [Outcome.map, Outcome.bind_ok, turned]
    rw [e2, h4, List.drop_left, h7]
  rcases hcase with ⟨rfl, hn, rfl⟩ | ⟨rfl, hn, rfl⟩
  · have hm : Announces .initialize [(r, [])] [(t, r, Properties.ofPairs [])] := .cons ht hp har hw (by simp [SendablePairs]) .nil
    have hwait := serverWait_request senv (reads s text) 0 ⟨true, [], [(r, [])], props, []⟩ [(r, [])] _ texts l hs ha hn (by simp) rfl hm i2 i3 i4 hk [] (by
      show s.stream.input ++ bytes text = _
      rw [hq, htext]
      simp [ofPairs_nil]) (text.length + 3) (by simp)
    obtain ⟨st, noise, f1, f2, f3, f4⟩ := finish { (reads s text) with error := .none, objects := 1, stream := { (reads s text).stream with input := [], mtype := some .frame } } b!"OUT: INIT\n"
      hs ha rfl rfl rfl (Noise.line (l := b!"OUT: INIT") (by unfold ForeignLine; decide)) (fun _ => rfl)
    refine ⟨st, noise, ?_, f2, f3, f4⟩
    show (match Static.turn senv (text.length + 3) ⟨reads s text, none, buffered⟩ with | none => _ | some o => o.map (turned shared s)) = _
    unfold Static.turn
    dsimp only
    rw [hwait]
    simp only [Option.map_some, Outcome.bind_ok]
    rw [if_pos (by simp)]
    have happ : ObjList.append senv.legacy senv.fresh (ObjList.create 0) (received [(t, r, Properties.ofPairs [])]) = .ok (remembered r) := by
      unfold ObjList.append received
      simp only [List.map_cons, List.map_nil, List.foldr_cons, List.foldr_nil, clone_wellFormed _ _ hw, Outcome.bind_ok]
      rfl
    simp only [List.cons_ne_nil, if_false, happ, Outcome.bind_ok]
    rw [outcome_map_map]
    exact f1
  · have hwait := serverWait_request senv (reads s text) 1 ⟨false, [], [], props, []⟩ [] [] texts l hs ha hn (by simp) rfl .nil i2 i3 i4 hk [] (by
      show s.stream.input ++ bytes text = _
      rw [hq, htext]
      simp) (text.length + 3) (by simp)
    obtain ⟨st, noise, f1, f2, f3, f4⟩ := finish { (reads s text) with error := .none, objects := 1, stream := { (reads s text).stream with input := [], mtype := some .frame } } b!"OUT: FRAME\n"
      hs ha rfl rfl rfl (Noise.line (l := b!"OUT: FRAME") (by unfold ForeignLine; decide)) (fun _ => rfl)
    refine ⟨st, noise, ?_, f2, f3, f4⟩
    show (match Static.turn senv (text.length + 3) ⟨reads s text, _, buffered⟩ with | none => _ | some o => o.map (turned shared s)) = _
    unfold Static.turn
    dsimp only
    rw [hwait]
    simp only [Option.map_some, Outcome.bind_ok]
    rw [if_neg (by simp), if_pos (by simp)]
    simp only [if_true, Outcome.bind_ok]
    rw [outcome_map_map]
    exact f1

end

/-- The metadata of the tracker. -/
def staticMetadata (depth ir : Bool) : Metadata :=
  ⟨14, 15, Static.channels depth ir, some b!"Static", some b!"Static demo tracker", some b!"Demo", Properties.create, 1⟩

theorem metadata_static (depth ir : Bool) : Static.metadata false depth ir = .ok (staticMetadata depth ir) := by
  unfold Static.metadata Metadata.create
  rw [if_pos (channels_known depth ir).2]
  rfl

theorem introducible_static (depth ir : Bool) : Introducible (staticMetadata depth ir) [] 4 :=
  ⟨by decide, (by decide : (14 : UInt32) &&& 14 = 14), (by decide : (15 : UInt32) &&& 15 = 15), channels_known depth ir, fun h => absurd h (by decide), by rintro s (h | h | h) <;> cases h <;> decide, rfl, by decide⟩

section
variable (senv env : Env) (shared depth ir : Bool) (junk : UInt32) (stream : Stream) (out : Writer)

/-- Before the initialization. -/
def Idle (c : Handle) (p : Option (Static.Program ObjList)) : Prop := ∃ s b, p = some ⟨s, none, b⟩ ∧ Noise b ∧ Linked depth ir c s 0

/-- After an answer. -/
def Tracking (r : Region) (c : Handle) (p : Option (Static.Program ObjList)) : Prop :=
  ∃ s b, p = some ⟨s, some (remembered r), b⟩ ∧ Noise b ∧ Linked depth ir c s 1

/-- After a request. -/
def Asked (r : Region) (t : Str) (c : Handle) (n : Nat) (p : Option (Static.Program ObjList)) : Prop :=
  ∃ s mem b start props, p = some ⟨s, mem, b⟩ ∧ Noise b ∧ Linked depth ir c { s with objects := 1 } 1 ∧ n ≤ c.stream.out.sent.length ∧
    Request senv s (c.stream.out.sent.drop n) start props ∧
    ((start = some (t, r) ∧ s.objects = 0 ∧ mem = none) ∨ (start = none ∧ s.objects = 1 ∧ mem = some (remembered r)))

theorem start_static (hin : stream.input = []) (hout : stream.out.Reliable) (hco : out.Reliable) :
    ∃ p news c, (static senv shared depth ir junk stream).start = .ok (p, news) ∧ clientSetup ⟨none, bytes news, out⟩ = .ok (some c) ∧ c.version ≤ 4 ∧
      c.stream.out.sent = out.sent ∧ Idle depth ir c p := by
  obtain ⟨s, news, h1, h2, h3, h4, h5, h6, h7, h8, h9, h10, h11, h12, h13⟩ :=
    C31_handshake_partial (staticMetadata depth ir) [] 4 (introducible_static depth ir) junk stream hout
  obtain ⟨c, g1, g2, g3, g4, g5, g6, g7, g8, g9, g10, g11, g12, -, g13⟩ := h13 none [] out
  rw [List.append_nil] at g1
  refine ⟨some ⟨s, none, b!"OUT: START\n"⟩, news, c, ?_, g1, by omega, by rw [g13], s, _, rfl, Noise.line (l := b!"OUT: START") (by unfold ForeignLine; decide),
    ⟨g4, g3, g2, g5, by rw [g13]; exact hco⟩, ⟨h5, h4, h6, h8, by rw [h7, hin]⟩, ⟨g6, g8, g12.mpr ⟨rfl, (by decide : (1 : UInt32) &&& 1 ≠ 0)⟩, ?_⟩,
    ⟨h10, h11, (h12 rfl).mpr (by decide : (1 : UInt32) &&& 1 ≠ 0)⟩, [], .nil, by rw [g13]; rfl⟩
  · show ((Static.begin false depth ir junk stream : Outcome (Static.Program ObjList)).map _) = _
    unfold Static.begin
    rw [metadata_static, Outcome.bind_ok]
    have : serverSetup junk (staticMetadata depth ir) stream (if false = true then 3 else 0) = .ok s := h1
    rw [this]
    show Outcome.ok (_, s.stream.out.sent.drop stream.out.sent.length) = _
    rw [h2, List.drop_left]
  · unfold about introduction
    rw [g7, g8, g9, g10, g11]
    rfl

variable {r r' : Region} {t : Str} {kvs : List (Str × Str)}

theorem serves_static (hin : stream.input = []) (hout : stream.out.Reliable) (hco : out.Reliable)
    (hr : Sendable r) (hsp : ∀ code, r ≠ .special code) (ht : r.string = .ok (some t)) (hp : Region.parse t = .ok ⟨1, some r', 0⟩) (ht' : r'.string = .ok (some t))
    (hr' : Sendable r') (ha : Arrives r r') (ha' : Arrives r' r') (hw : WellFormed r') (hk : SendablePairs kvs) :
    Serves (static senv shared depth ir junk stream) env out (introduction depth ir) (fun images r₁ (_ : Unit) => r₁ = r ∧ Complete depth ir images) (fun _ images _ => Complete depth ir images)
      (Properties.ofPairs kvs) (fun _ => r') (Idle depth ir) (fun _ => Tracking depth ir r') (fun _ => Asked senv depth ir r' t) where
  start := start_static senv shared depth ir junk stream out hin hout hco
  about := by rintro c p ⟨s, b, -, -, h⟩; exact h.metadata.2.2.2
  up := ⟨fun _ _ _ _ => rfl, fun _ _ _ _ _ => rfl, fun _ _ _ _ _ _ => rfl⟩
  alive := ⟨by rintro c p ⟨s, b, -, -, h⟩; exact h.client.2.1, by rintro - c p ⟨s, b, -, -, h⟩; exact h.client.2.1,
    by rintro - c n p ⟨s, mem, b, start, props, -, -, h, -⟩; exact h.client.2.1⟩
  setup := by
    rintro - c p images r₁ ⟨s, b, rfl, hb, h⟩ ⟨hr₁, hi⟩
    rw [hr₁]
    obtain ⟨st, e1, e2, e3, text, e4, e5⟩ := setup_linked h env senv hr hsp ht hp ha hw hk hi
    refine ⟨_, e1, s, none, b, _, kvs, rfl, hb, ⟨⟨h.client.1, h.client.2.1, h.client.2.2.1, rfl, e2⟩, ⟨h.server.1, h.server.2.1, rfl, h.server.2.2.2⟩, h.metadata, h.tracker, ?_⟩, ?_, ?_,
      .inl ⟨rfl, h.server.2.2.1, rfl⟩⟩
    · obtain ⟨noise, n1, n2⟩ := h.noise
      exact ⟨noise, n1, e3.trans n2⟩
    · rw [e4]; simp
    · rw [e4, List.drop_left]; exact e5
  frame := by
    rintro - - c p images ⟨s, b, rfl, hb, h⟩ hi
    obtain ⟨st, e1, e2, e3, text, e4, e5⟩ := frame_linked h env senv hi
    refine ⟨_, e1, s, _, b, none, [], rfl, hb, ⟨⟨h.client.1, h.client.2.1, h.client.2.2.1, rfl, e2⟩, ⟨h.server.1, h.server.2.1, rfl, h.server.2.2.2⟩, h.metadata, h.tracker, ?_⟩, ?_, ?_,
      .inr ⟨rfl, h.server.2.2.1, rfl⟩⟩
    · obtain ⟨noise, n1, n2⟩ := h.noise
      exact ⟨noise, n1, e3.trans n2⟩
    · rw [e4]; simp
    · rw [e4, List.drop_left]; exact e5
  wait := by
    rintro - c n p ⟨s, mem, b, start, props, rfl, hb, h, hn, hreq, hcase⟩
    obtain ⟨st, noise', e1, e2, e3, e4⟩ := respond_linked (shared := shared) (depth := depth) (ir := ir) (junk := junk) (stream := stream)
      (s := s) h.server.1 h.server.2.1 h.server.2.2.2.1 h.server.2.2.2.2 ht' hp ha' hw hb hreq hcase
    obtain ⟨noise, n1, n2⟩ := h.noise
    have hplain : Plain t ∧ ¬ LooksLikeProperty t := Region.string_deliverable ht
    have hwait := clientWaitRegion_one env { c with stream := { c.stream with input := c.stream.input ++ bytes (wire .state [t] Properties.create.enumerate ++ noise') } }
      (noise := noise) (t := t) (r := r') (bytes noise') h.client.1 h.client.2.1 h.client.2.2.2.1 n1 hplain hp hw (by
        show c.stream.input ++ _ = _
        rw [n2, bytes_append'])
    refine ⟨_, _, _, _, e1, hwait, rfl, rfl, rfl, rfl, _, _, rfl, .nil, ⟨⟨h.client.1, h.client.2.1, h.client.2.2.1, h.client.2.2.2.1, h.client.2.2.2.2⟩,
      ⟨h.server.1, h.server.2.1, rfl, e3, e4⟩, h.metadata, h.tracker, noise', e2, rfl⟩⟩

end

/-! ## The tracker for a single object -/

/-- The two ends of a connection of the single-object protocol. -/
structure LinkedSingle (depth ir : Bool) (c s : Handle) (n : Nat) : Prop where
  client : c.server = false ∧ c.isAlive = true ∧ c.version < 4 ∧ c.objects = n ∧ c.stream.out.Reliable
  server : s.server = true ∧ s.isAlive = true ∧ s.version < 4 ∧ s.stream.out.Reliable ∧ s.stream.input = []
  metadata : c.metadata.regions = 14 ∧ c.metadata.channels = Static.channels depth ir ∧ about c.metadata = introduction depth ir
  tracker : s.metadata.images = 15 ∧ s.metadata.channels = Static.channels depth ir
  noise : ∃ noise, Noise noise ∧ c.stream.input = bytes noise

/-- The request that the client has sent. -/
def RequestSingle (senv : Env) (s : Handle) (text : Str) (start : Option (Str × Region)) (props : List (Str × Str)) : Prop :=
  ∃ texts l, decodeImages senv s.metadata channelIndexes texts = .ok (some l) ∧ (∀ t ∈ texts, Plain t ∧ ¬ LooksLikeProperty t) ∧
    texts.length = (channelIndexes.filter fun i => supports s.metadata.channels (ImageList.channelId i)).length ∧
    ImageList.count s.metadata.channels = .ok texts.length ∧ SendablePairs props ∧
    text = wire (if start.isSome then .initialize else .frame) (texts ++ start.toList.map Prod.fst) (Properties.ofPairs props).enumerate

section
variable {env senv : Env} {depth ir : Bool} {c s : Handle} {n : Nat}

/-- A call of the client. -/
theorem call_linked (h : LinkedSingle depth ir c s n) (env senv : Env) {r r' : Region} {t : Str} (hr : Sendable r) (hsp : ∀ code, r ≠ .special code)
    (ht : r.string = .ok (some t)) {kvs : List (Str × Str)} (hk : SendablePairs kvs)
    {images : Cli.FrameImages} (hi : Complete depth ir images) (start : Bool) (hn : start = false → n = 1) :
    ∃ st, sotCall env c ⟨if start then some r else none, imageList images, kvs, r, []⟩ = .ok (TRAX_OK, { c with error := .none, objects := 1, stream := st }) ∧
      st.out.Reliable ∧ st.input = c.stream.input ∧
      ∃ text, st.out.sent = c.stream.out.sent ++ text ∧ RequestSingle senv s text (if start then some (t, r') else none) kvs := by
  obtain ⟨hm1, hm2⟩ := h.tracker
  have hi' : SendableImages s.metadata.channels s.metadata.images (imageList images) := by rw [hm1, hm2]; exact hi
  obtain ⟨texts, l, i1, i2, -, i4, i5⟩ := images_transfer senv s.metadata (imageList images) channelIndexes (SendableImages.byIndex hi')
  have hcount : ImageList.count s.metadata.channels = .ok texts.length := by rw [i5]; exact count_known (by rw [hm2]; exact (channels_known depth ir).1)
  have hsup : supports c.metadata.regions r.apiType = true := by
    rw [h.metadata.1]
    cases r with
    | special code => exact absurd rfl (hsp code)
    | rectangle => exact (by decide : supports 14 2 = true)
    | polygon => exact (by decide : supports 14 4 = true)
    | mask => exact (by decide : supports 14 8 = true)
  obtain ⟨hc1, hc2, hc3, hc4, hc5⟩ := h.client
  have hto : Region.toSend env.legacy env.fresh r c.metadata.regions = .ok r := by
    have := converted_self env c.metadata.regions [(r, [])] (by simpa using hsup)
    cases this with
    | cons hx _ => exact hx.1
  obtain ⟨st, data, e1, e2, e3, e4, e5⟩ := sot_call env c s n ⟨if start then some r else none, imageList images, kvs, r, []⟩ (some r) texts hc1 hc2 hc3 hc5 hc4
    ⟨fun hs => hn (by cases start; rfl; cases hs), hi', fun x hx => by
      cases start
      · cases hx
      · cases hx; exact ⟨hsp, r, rfl, hto, hr⟩, hk, hr, by simp [SendablePairs]⟩ (by rw [h.metadata.2.1, ← hm2]; exact i1) (fun t ht => plain_noNul (i4 t ht).1)
  refine ⟨st, e1, e3, e4, _, e2, texts, l, i2, i4, i5, hcount, hk, ?_⟩
  cases start with
  | false => rw [show data = [] from e5]; rfl
  | true =>
    obtain ⟨x, u, y, a1, a2, a3, -⟩ := e5
    cases a1
    rw [ht] at a3
    cases a3
    rw [a2]
    rfl

theorem setup_single (h : LinkedSingle depth ir c s 0) (env senv : Env) {r r' : Region} {t : Str} (hr : Sendable r) (hsp : ∀ code, r ≠ .special code) (ht : r.string = .ok (some t))
    {kvs : List (Str × Str)} (hk : SendablePairs kvs) {images : Cli.FrameImages} (hi : Complete depth ir images) :
    ∃ st, Cpp.clientInitializeRegion env (some c) (imageList images) (some r) (some (Properties.ofPairs kvs)) =
        .ok (TRAX_OK, some { c with error := .none, objects := 1, stream := st }) ∧ st.out.Reliable ∧ st.input = c.stream.input ∧
      ∃ text, st.out.sent = c.stream.out.sent ++ text ∧ RequestSingle senv s text (some (t, r')) kvs := by
  obtain ⟨st, e1, e2, e3, e4⟩ := call_linked (r' := r') h env senv hr hsp ht hk hi true (by simp)
  refine ⟨st, ?_, e2, e3, e4⟩
  unfold Cpp.clientInitializeRegion
  dsimp only
  rw [Trax.oneObject_wellFormed _ (sendable_wellFormed hr), Outcome.bind_ok]
  have e1' : c.clientInitialize env (imageList images) (objectList [(r, [])]) (some (Properties.ofPairs kvs)) = .ok (TRAX_OK, { c with error := .none, objects := 1, stream := st }) := e1
  rw [e1', Outcome.bind_ok]
  rfl

theorem frame_single (h : LinkedSingle depth ir c s 1) (env senv : Env) {images : Cli.FrameImages} {r : Region} {t : Str} (hr : Sendable r) (hsp : ∀ code, r ≠ .special code)
    (ht : r.string = .ok (some t)) (hi : Complete depth ir images) :
    ∃ st, Cpp.clientFrameImages env (some c) (imageList images) none = .ok (TRAX_OK, some { c with error := .none, objects := 1, stream := st }) ∧ st.out.Reliable ∧
      st.input = c.stream.input ∧ ∃ text, st.out.sent = c.stream.out.sent ++ text ∧ RequestSingle senv s text none [] := by
  obtain ⟨st, e1, e2, e3, e4⟩ := call_linked (r' := r) h env senv hr hsp ht (kvs := []) (by simp [SendablePairs]) hi false (fun _ => rfl)
  refine ⟨st, ?_, e2, e3, e4⟩
  unfold Cpp.clientFrameImages
  dsimp only
  have e1' : c.clientFrame env (imageList images) none none = .ok (TRAX_OK, { c with error := .none, objects := 1, stream := st }) := e1
  rw [e1']
  rfl

theorem reply_single {s : Handle} {r : Region} {t : Str} (hs : s.server = true) (ha : s.isAlive = true) (hv : s.version < 4) (hr : s.stream.out.Reliable)
    (ht : r.string = .ok (some t)) :
    ∃ st, serverReplySot s (some r) none = .ok (TRAX_OK, { s with error := .none, stream := st }) ∧
      st.out.sent = s.stream.out.sent ++ wire .state [t] Properties.create.enumerate ∧ st.out.Reliable ∧ st.input = s.stream.input := by
  have hwr := writeMessage_reliable s.stream.out hr .state [t] Properties.create Properties.wf_create (by
    intro t' h'; rw [List.mem_singleton] at h'; subst h'; exact plain_noNul (Region.string_deliverable ht).1)
  refine ⟨s.stream.write .state [t] Properties.create, ?_, hwr.1, hwr.2.2, rfl⟩
  unfold serverReplySot
  rw [if_neg (by simp [hs])]
  dsimp only
  rw [if_neg (by have : s.alive = true := ha; simpa [alive, clearError] using this), if_neg (Bool.eq_false_iff.mp (isV4_false hv)),
    show regionText (some r) = .ok (some t) from ht]
  rfl

/-- A turn of the tracker's loop. -/
theorem respond_single {shared : Bool} {junk : UInt32} {stream : Stream} {s : Handle} {r : Region} {t : Str} {mem : Option Region} {buffered text : Str}
    {start : Option (Str × Region)} {props : List (Str × Str)} (hs : s.server = true) (ha : s.isAlive = true) (hv : s.version < 4) (hrel : s.stream.out.Reliable)
    (hq : s.stream.input = []) (ht : r.string = .ok (some t)) (hp : Region.parse t = .ok ⟨1, some r, 0⟩) (hw : WellFormed r) (hb : Noise buffered)
    (hreq : RequestSingle senv s text start props) (hcase : (start = some (t, r) ∧ mem = none) ∨ (start = none ∧ mem = some r)) :
    ∃ st objects noise, (staticSingle senv shared depth ir junk stream).respond text (some ⟨s, mem, buffered⟩) =
        .ok (some ⟨{ s with error := .none, objects := objects, stream := st }, some r, []⟩, wire .state [t] Properties.create.enumerate ++ noise) ∧
      Noise noise ∧ st.out.Reliable ∧ st.input = [] := by
  obtain ⟨texts, l, i2, i3, i4, i5, hk, htext⟩ := hreq
  have finish : ∀ (w : Handle) (line : Str) (objects : Nat), w.server = true → w.isAlive = true → w.version < 4 → w.stream.out = s.stream.out → w.stream.input = [] → Noise line →
      (∀ st : Stream, ({ w with error := .none, stream := st } : Handle) = { s with error := .none, objects := objects, stream := st }) →
      ∃ st noise, (serverReplySot w (some r) none).map (fun x : Int × Handle => turned shared s
          (.go { handle := x.2, mem := some r, buffered := [] } (buffered ++ line))) =
        .ok (some ⟨{ s with error := .none, objects := objects, stream := st }, some r, []⟩, wire .state [t] Properties.create.enumerate ++ noise) ∧
      Noise noise ∧ st.out.Reliable ∧ st.input = [] := by
    intro w line objects h1 h2 h3 h4 h5 h6 h7
    obtain ⟨st, e1, e2, e3, e4⟩ := reply_single h1 h2 h3 (by rw [h4]; exact hrel) ht
    refine ⟨st, if shared then buffered ++ line else [], ?_, .ite shared (hb.append h6), e3, by rw [e4, h5]⟩
    rw [e1]
    simp only [Outcome.map, Outcome.bind_ok, turned]
    rw [e2, h4, List.drop_left, h7]
  have hplain := Region.string_deliverable ht
  rcases hcase with ⟨rfl, rfl⟩ | ⟨rfl, rfl⟩
  · obtain ⟨mt, objects, hwait⟩ := sot_wait senv (reads s text) ⟨some r, [], props, r, []⟩ texts [t] l (some r) hs ha hv i2 (by
        intro x hx
        rcases List.mem_append.mp hx with hx | hx
        · exact i3 x hx
        · rw [List.mem_singleton.mp hx]; exact hplain) i4 i5 hk ⟨t, r, rfl, rfl, hp⟩ (by
      show s.stream.input ++ bytes text = _
      rw [hq, htext]
      rfl)
    obtain ⟨st, noise, f1, f2, f3, f4⟩ := finish { (reads s text) with error := .none, objects := objects, stream := { (reads s text).stream with input := [], mtype := mt } } b!"OUT: INIT\n" objects
      hs ha hv rfl rfl (Noise.line (l := b!"OUT: INIT") (by unfold ForeignLine; decide)) (fun _ => rfl)
    refine ⟨st, objects, noise, ?_, f2, f3, f4⟩
    show (Static.turnSingle senv ⟨reads s text, none, buffered⟩).map (turned shared s) = _
    unfold Static.turnSingle
    dsimp only
    rw [hwait]
    simp only [Outcome.bind_ok]
    rw [if_pos (by simp)]
    simp only [clone_wellFormed _ _ hw, Outcome.bind_ok]
    rw [outcome_map_map]
    exact f1
  · obtain ⟨mt, objects, hwait⟩ := sot_wait senv (reads s text) ⟨none, [], props, r, []⟩ texts [] l none hs ha hv i2 (by simpa using i3) i4 i5 hk ⟨rfl, rfl⟩ (by
      show s.stream.input ++ bytes text = _
      rw [hq, htext]
      rfl)
    obtain ⟨st, noise, f1, f2, f3, f4⟩ := finish { (reads s text) with error := .none, objects := objects, stream := { (reads s text).stream with input := [], mtype := mt } } b!"OUT: FRAME\n" objects
      hs ha hv rfl rfl (Noise.line (l := b!"OUT: FRAME") (by unfold ForeignLine; decide)) (fun _ => rfl)
    refine ⟨st, objects, noise, ?_, f2, f3, f4⟩
    show (Static.turnSingle senv ⟨reads s text, _, buffered⟩).map (turned shared s) = _
    unfold Static.turnSingle
    dsimp only
    rw [hwait]
    simp only [Outcome.bind_ok]
    rw [if_neg (by simp), if_pos (by simp)]
    rw [outcome_map_map]
    exact f1

end

/-- The metadata of the tracker. -/
def singleMetadata (depth ir : Bool) : Metadata :=
  ⟨14, 15, Static.channels depth ir, some b!"Static", some b!"Static demo tracker", some b!"Demo", Properties.create, 0⟩

theorem metadata_single (depth ir : Bool) : Static.metadata true depth ir = .ok (singleMetadata depth ir) := by
  unfold Static.metadata Metadata.create
  rw [if_pos (channels_known depth ir).2]
  rfl

theorem introducible_single (depth ir : Bool) : Introducible (singleMetadata depth ir) [] 3 :=
  ⟨by decide, (by decide : (14 : UInt32) &&& 14 = 14), (by decide : (15 : UInt32) &&& 15 = 15), channels_known depth ir, fun h => absurd h (by decide),
    by rintro s (h | h | h) <;> cases h <;> decide, rfl, by decide⟩

section
variable (senv env : Env) (shared depth ir : Bool) (junk : UInt32) (stream : Stream) (out : Writer)

/-- Before the initialization. -/
def IdleSingle (c : Handle) (p : Option (Static.Program Region)) : Prop := ∃ s b, p = some ⟨s, none, b⟩ ∧ Noise b ∧ LinkedSingle depth ir c s 0

/-- After an answer. -/
def TrackingSingle (r : Region) (c : Handle) (p : Option (Static.Program Region)) : Prop :=
  ∃ s b, p = some ⟨s, some r, b⟩ ∧ Noise b ∧ LinkedSingle depth ir c s 1

/-- After a request. -/
def AskedSingle (r : Region) (t : Str) (c : Handle) (n : Nat) (p : Option (Static.Program Region)) : Prop :=
  ∃ s mem b start props, p = some ⟨s, mem, b⟩ ∧ Noise b ∧ LinkedSingle depth ir c s 1 ∧ n ≤ c.stream.out.sent.length ∧
    RequestSingle senv s (c.stream.out.sent.drop n) start props ∧ ((start = some (t, r) ∧ mem = none) ∨ (start = none ∧ mem = some r))

theorem start_single (hin : stream.input = []) (hout : stream.out.Reliable) (hco : out.Reliable) :
    ∃ p news c, (staticSingle senv shared depth ir junk stream).start = .ok (p, news) ∧ clientSetup ⟨none, bytes news, out⟩ = .ok (some c) ∧ c.version ≤ 4 ∧
      c.stream.out.sent = out.sent ∧ IdleSingle depth ir c p := by
  obtain ⟨s, news, h1, h2, h3, h4, h5, h6, h7, h8, h9, h10, h11, h12, h13⟩ :=
    C31_handshake_partial (singleMetadata depth ir) [] 3 (introducible_single depth ir) junk stream hout
  obtain ⟨c, g1, g2, g3, g4, g5, g6, g7, g8, g9, g10, g11, g12, -, g13⟩ := h13 none [] out
  rw [List.append_nil] at g1
  refine ⟨some ⟨s, none, b!"OUT: START\n"⟩, news, c, ?_, g1, by omega, by rw [g13], s, _, rfl, Noise.line (l := b!"OUT: START") (by unfold ForeignLine; decide),
    ⟨g4, g3, by omega, g5, by rw [g13]; exact hco⟩, ⟨h5, h4, by omega, h8, by rw [h7, hin]⟩, ⟨g6, g8, ?_⟩, ⟨h10, h11⟩, [], .nil, by rw [g13]; rfl⟩
  · show ((Static.begin true depth ir junk stream : Outcome (Static.Program Region)).map _) = _
    unfold Static.begin
    rw [metadata_single, Outcome.bind_ok]
    have : serverSetup junk (singleMetadata depth ir) stream (if true = true then 3 else 0) = .ok s := h1
    rw [this]
    show Outcome.ok (_, s.stream.out.sent.drop stream.out.sent.length) = _
    rw [h2, List.drop_left]
  · unfold about introduction
    rw [g7, g8, g9, g10, g11]
    rfl

variable {r r' : Region} {t : Str} {kvs : List (Str × Str)}

theorem serves_single (hin : stream.input = []) (hout : stream.out.Reliable) (hco : out.Reliable)
    (hr : Sendable r) (hsp : ∀ code, r ≠ .special code) (ht : r.string = .ok (some t)) (hp : Region.parse t = .ok ⟨1, some r', 0⟩) (ht' : r'.string = .ok (some t))
    (hr' : Sendable r') (hsp' : ∀ code, r' ≠ .special code) (hw : WellFormed r') (hk : SendablePairs kvs) :
    Serves (staticSingle senv shared depth ir junk stream) env out (introduction depth ir) (fun images r₁ (_ : Unit) => r₁ = r ∧ Complete depth ir images) (fun _ images _ => Complete depth ir images)
      (Properties.ofPairs kvs) (fun _ => r') (IdleSingle depth ir) (fun _ => TrackingSingle depth ir r') (fun _ => AskedSingle senv depth ir r' t) where
  start := start_single senv shared depth ir junk stream out hin hout hco
  about := by rintro c p ⟨s, b, -, -, h⟩; exact h.metadata.2.2
  up := ⟨fun _ _ _ _ => rfl, fun _ _ _ _ _ => rfl, fun _ _ _ _ _ _ => rfl⟩
  alive := ⟨by rintro c p ⟨s, b, -, -, h⟩; exact h.client.2.1, by rintro - c p ⟨s, b, -, -, h⟩; exact h.client.2.1,
    by rintro - c n p ⟨s, mem, b, start, props, -, -, h, -⟩; exact h.client.2.1⟩
  setup := by
    rintro - c p images r₁ ⟨s, b, rfl, hb, h⟩ ⟨hr₁, hi⟩
    rw [hr₁]
    obtain ⟨st, e1, e2, e3, text, e4, e5⟩ := setup_single (r' := r') h env senv hr hsp ht hk hi
    refine ⟨_, e1, s, none, b, _, kvs, rfl, hb, ⟨⟨h.client.1, h.client.2.1, h.client.2.2.1, rfl, e2⟩, h.server, h.metadata, h.tracker, ?_⟩, ?_, ?_, .inl ⟨rfl, rfl⟩⟩
    · obtain ⟨noise, n1, n2⟩ := h.noise
      exact ⟨noise, n1, e3.trans n2⟩
    · rw [e4]; simp
    · rw [e4, List.drop_left]; exact e5
  frame := by
    rintro - - c p images ⟨s, b, rfl, hb, h⟩ hi
    obtain ⟨st, e1, e2, e3, text, e4, e5⟩ := frame_single h env senv hr' hsp' ht' hi
    refine ⟨_, e1, s, _, b, none, [], rfl, hb, ⟨⟨h.client.1, h.client.2.1, h.client.2.2.1, rfl, e2⟩, h.server, h.metadata, h.tracker, ?_⟩, ?_, ?_, .inr ⟨rfl, rfl⟩⟩
    · obtain ⟨noise, n1, n2⟩ := h.noise
      exact ⟨noise, n1, e3.trans n2⟩
    · rw [e4]; simp
    · rw [e4, List.drop_left]; exact e5
  wait := by
    rintro - c n p ⟨s, mem, b, start, props, rfl, hb, h, hn, hreq, hcase⟩
    obtain ⟨st, objects, noise', e1, e2, e3, e4⟩ := respond_single (shared := shared) (depth := depth) (ir := ir) (junk := junk) (stream := stream)
      (s := s) h.server.1 h.server.2.1 h.server.2.2.1 h.server.2.2.2.1 h.server.2.2.2.2 ht' hp hw hb hreq hcase
    obtain ⟨noise, n1, n2⟩ := h.noise
    have hplain : Plain t ∧ ¬ LooksLikeProperty t := Region.string_deliverable ht
    have hwait := clientWaitRegion_one env { c with stream := { c.stream with input := c.stream.input ++ bytes (wire .state [t] Properties.create.enumerate ++ noise') } }
      (noise := noise) (t := t) (r := r') (bytes noise') h.client.1 h.client.2.1 h.client.2.2.2.1 n1 hplain hp hw (by
        show c.stream.input ++ _ = _
        rw [n2, bytes_append'])
    refine ⟨_, _, _, _, e1, hwait, rfl, rfl, rfl, rfl, _, _, rfl, .nil, ⟨⟨h.client.1, h.client.2.1, h.client.2.2.1, h.client.2.2.2.1, h.client.2.2.2.2⟩,
      ⟨h.server.1, h.server.2.1, h.server.2.2.1, e3, e4⟩, h.metadata, h.tracker, noise', e2, rfl⟩⟩

end

/-- The calls of `traxclient` go through the phases. -/
theorem phased_static {α : Type} {P : Peer π} {env : Env} {out : Writer} {turns : Nat → Bool} {a : Cli.About} {starts : Cli.FrameImages → Region → α → Prop}
    {goes : α → Cli.FrameImages → α → Prop} {props : Properties} {answer : α → Region} {idle : Handle → π → Prop} {tracking : α → Handle → π → Prop}
    {asked : α → Handle → Nat → π → Prop} (H : Serves P env out a starts goes props answer idle tracking asked) (limit : Bool) :
    Cli.Phased (process (world P env out turns) limit) a starts goes props answer (fun s => s.world.broken = false) (Phase P (settled idle) (fun _ => True))
      (fun x => Phase P (asked x) (· = some true)) (fun x => Phase P (settled (tracking x)) (· = some true)) where
  sound := ⟨fun _ h => h.sound, fun _ _ h => h.sound⟩
  ready := by
    intro s h
    refine ⟨s, ?_, h⟩
    show ((method (world P env out turns) limit .ready s).1.getD false, (method (world P env out turns) limit .ready s).2) = _
    unfold method
    rw [ready_idle H limit h]
    rfl
  metadata := by
    intro s h
    refine ⟨s, ?_, h⟩
    have e := ready_idle (turns := turns) H limit h
    obtain ⟨h1, ⟨c, p, h2, h3, h4, h5⟩, h6, h7⟩ := h
    show (match method (world P env out turns) limit .ready s with
      | (some true, s) =>
        match s.world.client with
        | some c => (some (about c.metadata), s)
        | none => (none, { s with world := { s.world with broken := true } })
      | (_, s) => (none, s)) = _
    unfold method
    rw [e]
    dsimp only
    rw [h2]
    dsimp only
    rw [H.about c p h5]
  setup := fun _ s images _ h hi => setup_idle H limit h hi
  wait := fun _ s h => wait_asked H limit h
  frame := fun _ _ s images h hi => frame_tracking H limit h hi
  reset := by
    intro x s h
    obtain ⟨s1, e1, e2⟩ := reset_tracking (turns := turns) H limit h
    refine ⟨s1, false, s1, e1, ?_, e2⟩
    have hr : Runs P s1 := e2.1
    show (method (world P env out turns) limit .query s1) = _
    unfold method Proc.step Proc.startProcess
    dsimp only
    rw [running_up hr]

end Link

end Trax
