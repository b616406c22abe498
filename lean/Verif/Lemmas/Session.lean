import Verif.Spec.Session
import Verif.Lemmas.ObjectSteps

/-!
# Lemmas on sessions
-/

namespace Trax
open Spec Handle
open Region (bind_eq_ok map_eq_ok)

/-! ## Regions -/

theorem region_transfer {r : Region} (h : Sendable r) :
    ∃ t r', r.string = .ok (some t) ∧ Region.parse t = .ok ⟨1, some r', 0⟩ ∧ Arrives r r' ∧ WellFormed r' := by
  cases r with
  | special code =>
    have h24 : (2 : Nat) ^ 24 = 16777216 := by norm_num
    have h' : code.natAbs ≤ 2 ^ 24 := h
    obtain ⟨t, h1, -, h3⟩ := C34_special_codes_partial code (by unfold InInt32; omega)
    exact ⟨t, _, h1, h3 h, rfl, trivial⟩
  | rectangle x y w h' =>
    obtain ⟨t, x', y', w', h'', h1, h2, h3⟩ := C36_rectangle x y w h' h.1 h.2
    exact ⟨t, _, h1, h2, ⟨x', y', w', h'', rfl, h3⟩, trivial⟩
  | polygon ps =>
    obtain ⟨t, ps', h1, h2, h3⟩ := C36_polygon ps h.1 h.2.1 h.2.2
    exact ⟨t, _, h1, h2, ⟨ps', rfl, h3⟩, trivial⟩
  | mask x y w h' data =>
    obtain ⟨hx, hy, hw, hh, hlen, hsize, hfg⟩ := h
    obtain ⟨t, data', h1, h2, h3, h4⟩ := C35_mask_partial x y w h' data hx hy hw hh hlen hsize hfg
    have h24 : (2 : Nat) ^ 24 = 16777216 := by norm_num
    exact ⟨t, _, h1, h2, ⟨data', rfl, h3, h4⟩, hw, hh, by rw [h3, hlen], by omega⟩

/-! ## Images -/

theorem base64_plain (s : List UInt8) : Plain (Base64.encode s) := by
  obtain ⟨h1, h2, -⟩ := Base64.encode_split s
  rw [h2]
  refine plain_append ?_ ?_
  · intro c hc
    have key : ∀ c : UInt8, Base64.InAlphabet c → c ≠ 0 ∧ c.toNat < 128 := by
      unfold Base64.InAlphabet
      apply Base64.forall_byte
      decide +kernel
    exact key c (h1 c hc)
  · intro c hc
    rw [List.eq_of_mem_replicate hc]
    decide

theorem image_transfer {img : Image} (h : SendableImage img) (fresh : Nat → UInt8) :
    ∃ t d img', img.encode = .ok t ∧ Image.decode fresh t = .ok d ∧ d.image = some img' ∧ ImageArrives img img' ∧ img'.type = img.type ∧
      Plain t ∧ ¬ LooksLikeProperty t := by
  cases img with
  | path p =>
    have hn : NoNul p := plain_noNul h
    obtain ⟨t, h1, h2⟩ := C24_path_round_trip fresh p hn
    rw [Image.createPath, cstr_of_noNul hn] at h1
    refine ⟨t, _, _, h1, h2, rfl, rfl, rfl, ?_⟩
    cases h1
    exact ⟨plain_append (by decide) h, not_property_of_colon (pre := b!"file") (by decide)⟩
  | url u => exact absurd h id
  | memory w h' f data =>
    obtain ⟨hf, -, -, hs, -, -⟩ := h.facts
    obtain ⟨-, t, h1, h2⟩ := C26_memory_partial fresh w h' f data h
    refine ⟨t, _, _, h1, h2, rfl, rfl, rfl, ?_⟩
    simp only [Image.encode, hs, Outcome.bind_ok] at h1
    split at h1
    · cases h1
    · next name hname =>
      split at h1
      · cases h1
        refine ⟨?_, not_property_of_colon (pre := b!"image") (by decide)⟩
        refine plain_append (plain_append (plain_append (plain_append (plain_append (plain_append (plain_append (by decide) (fmtInt_plain _)) (by decide))
          (fmtInt_plain _)) (by decide)) ?_) (by decide)) (base64_plain _)
        rcases hf with rfl | rfl | rfl <;> cases hname <;> decide
      · cases h1
  | buffer f data =>
    obtain ⟨-, t, h1, h2⟩ := C27_buffer_partial fresh f data h
    refine ⟨t, _, _, h1, h2, rfl, rfl, rfl, ?_⟩
    simp only [Image.encode] at h1
    split at h1
    · cases h1
    · next name hname =>
      cases h1
      refine ⟨?_, not_property_of_colon (pre := b!"data") (by decide)⟩
      refine plain_append (plain_append (plain_append (by decide) ?_) (by decide)) (base64_plain _)
      unfold Image.bufferFormatName at hname
      split at hname
      · cases hname; decide
      · split at hname
        · cases hname; decide
        · cases hname

theorem imageFormat_eq (img : Image) : imageFormat img = UInt32.ofNat img.type := by cases img <;> rfl

theorem SendableImages.byIndex {channels formats : UInt32} {images : ImageList} (h : SendableImages channels formats images) :
    ∀ i ∈ channelIndexes, channels &&& ImageList.channelId i ≠ 0 →
      ∃ img, images[i]? = some (some img) ∧ SendableImage img ∧ formats &&& UInt32.ofNat img.type ≠ 0 := by
  intro i hi hc
  have key : (i, ImageList.channelId i) ∈ channelFlags := by
    simp only [channelIndexes, List.mem_cons, List.not_mem_nil, or_false] at hi
    rcases hi with rfl | rfl | rfl <;> decide
  obtain ⟨img, h1, h2, h3⟩ := h _ key hc
  exact ⟨img, h1, h2, imageFormat_eq img ▸ h3⟩

theorem imagesArrive_of {channels : UInt32} {images images' : ImageList}
    (h : List.Forall₂ (fun i x => if channels &&& ImageList.channelId i ≠ 0
      then ∃ img img', images[i]? = some (some img) ∧ x = some img' ∧ ImageArrives img img' else x = none) channelIndexes images') :
    ImagesArrive channels images images' := by
  unfold channelIndexes at h
  cases h with | cons h0 h => cases h with | cons h1 h => cases h with | cons h2 h =>
  cases h
  exact .cons h0 (.cons h1 (.cons h2 .nil))

theorem images_transfer (env : Env) (m : Metadata) (images : ImageList) (is : List Nat)
    (h : ∀ i ∈ is, m.channels &&& ImageList.channelId i ≠ 0 →
      ∃ img, images[i]? = some (some img) ∧ SendableImage img ∧ m.images &&& UInt32.ofNat img.type ≠ 0) :
    ∃ texts l, encodeImages m.channels images is = .ok (some texts) ∧ decodeImages env m is texts = .ok (some l) ∧
      List.Forall₂ (fun i x => if m.channels &&& ImageList.channelId i ≠ 0
        then ∃ img img', images[i]? = some (some img) ∧ x = some img' ∧ ImageArrives img img' else x = none) is l ∧
      (∀ t ∈ texts, Plain t ∧ ¬ LooksLikeProperty t) ∧
      texts.length = (is.filter fun i => supports m.channels (ImageList.channelId i)).length := by
  induction is with
  | nil => exact ⟨[], [], rfl, rfl, .nil, by simp, rfl⟩
  | cons i is ih =>
    obtain ⟨texts, l, h1, h2, h3, h4, h5⟩ := ih fun j hj => h j (by simp [hj])
    by_cases hs : m.channels &&& ImageList.channelId i = 0
    · have hs' : supports m.channels (ImageList.channelId i) = false := by simp [supports, hs]
      refine ⟨texts, none :: l, ?_, ?_, .cons (by simp [hs]) h3, h4, by simp [hs', h5]⟩
      · simp [encodeImages, hs', h1]
      · simp [decodeImages, hs', h2, Outcome.map]
    · have hs' : supports m.channels (ImageList.channelId i) = true := by simp [supports, hs]
      obtain ⟨img, hi, hsend, hfmt⟩ := h i (by simp) hs
      obtain ⟨t, d, img', e1, e2, e3, e4, e5, e6⟩ := image_transfer hsend env.freshByte
      refine ⟨t :: texts, some img' :: l, ?_, ?_, .cons (by rw [if_pos hs]; exact ⟨img, img', hi, rfl, e4⟩) h3, ?_, by simp [hs', h5]⟩
      · simp [encodeImages, hs', hi, e1, h1, Outcome.map]
      · have : supports m.images (UInt32.ofNat img'.type) = true := by rw [e5]; simp [supports, hfmt]
        simp [decodeImages, hs', e2, e3, this, h2, Outcome.map]
      · intro t' ht'
        rcases List.mem_cons.mp ht' with rfl | ht'
        · exact e6
        · exact h4 t' ht'

theorem count_known {channels : UInt32} (h : channels &&& 7 = channels) :
    ImageList.count channels = .ok (channelIndexes.filter fun i => supports channels (ImageList.channelId i)).length := by
  have key : ∀ n : Fin 8, ImageList.count (UInt32.ofNat n.val) = .ok (channelIndexes.filter fun i => supports (UInt32.ofNat n.val) (ImageList.channelId i)).length := by
    decide +kernel
  have hlt : channels.toNat < 8 := by
    have : (channels &&& 7).toNat ≤ 7 := by rw [UInt32.toNat_and]; exact Nat.and_le_right
    rw [h] at this; omega
  have := key ⟨channels.toNat, hlt⟩
  simpa using this

/-! ## Messages -/

theorem deliverable_args {p : Properties} (hp : SendableProps p) {args : List Str} (ha : ∀ a ∈ args, Plain a ∧ ¬ LooksLikeProperty a) :
    Deliverable args p.enumerate :=
  ⟨fun a h => (ha a h).1, fun a h => (ha a h).2, hp.deliverable.keys_valid, hp.deliverable.values_plain⟩

theorem bytes_append' (a b : Str) : bytes (a ++ b) = bytes a ++ bytes b := by simp [bytes]

/-- The messages that announce objects. -/
inductive Announces (type : MsgType) : List (Region × List (Str × Str)) → List (Str × Region × Properties) → Prop
  | nil : Announces type [] []
  | cons {r kvs t r' objs ms} (hs : r.string = .ok (some t)) (hp : Region.parse t = .ok ⟨1, some r', 0⟩) (ha : Arrives r r') (hw : WellFormed r')
      (hk : SendablePairs kvs) (h : Announces type objs ms) :
      Announces type ((r, kvs) :: objs) ((t, r', Properties.ofPairs kvs) :: ms)

theorem announces (type : MsgType) {objs : List (Region × List (Str × Str))} (h : SendableObjects objs) : ∃ ms, Announces type objs ms := by
  induction objs with
  | nil => exact ⟨[], .nil⟩
  | cons o objs ih =>
    obtain ⟨r, kvs⟩ := o
    obtain ⟨ms, hms⟩ := ih fun o ho => h o (by simp [ho])
    obtain ⟨h1, h2⟩ := h (r, kvs) (by simp)
    obtain ⟨t, r', e1, e2, e3, e4⟩ := region_transfer h1
    exact ⟨_, .cons e1 e2 e3 e4 h2 hms⟩

/-- The text of the messages. -/
def announcement (type : MsgType) (ms : List (Str × Region × Properties)) : Str :=
  ms.flatMap fun m => wire type [m.1] m.2.2.enumerate

/-- The objects as they are received. -/
def received (ms : List (Str × Region × Properties)) : List (Option Region × Properties) := ms.map fun m => (some m.2.1, m.2.2)

theorem Announces.length {type : MsgType} {objs ms} (h : Announces type objs ms) : ms.length = objs.length := by
  induction h with
  | nil => rfl
  | cons _ _ _ _ _ _ ih => simp [ih]

theorem Announces.arrive {type : MsgType} {objs ms} (h : Announces type objs ms) : ObjectsArrive objs (received ms) := by
  induction h with
  | nil => exact .nil
  | cons _ _ ha _ _ _ ih => exact .cons ⟨⟨_, rfl, ha⟩, rfl⟩ ih

/-- Objects are announced. -/
theorem sendObjects_ok (env : Env) (formats : UInt32) {objs sent : List (Region × List (Str × Str))} {ms : List (Str × Region × Properties)}
    (hc : Converted env formats objs sent) (hm : Announces .initialize sent ms) : ∀ (s : Stream), s.out.Reliable →
    ∃ s', sendObjects env formats s (objectList objs) = .ok s' ∧ s'.out.sent = s.out.sent ++ announcement .initialize ms ∧ s'.out.Reliable ∧
      s'.input = s.input ∧ s'.mtype = s.mtype := by
  induction hm generalizing objs with
  | nil => intro s hs; cases hc; exact ⟨s, rfl, by simp [announcement], hs, rfl, rfl⟩
  | @cons r kvs t r' sent ms hs hp ha hw hk hm ih =>
    intro s hrel
    cases hc with
    | @cons o _ objs _ h1 h2 =>
      obtain ⟨r₀, kvs₀⟩ := o
      obtain ⟨hconv, hkv⟩ := h1
      dsimp only at hconv hkv
      subst hkv
      have hw := writeMessage_reliable s.out hrel .initialize [t] (Properties.ofPairs kvs) (Properties.wf_ofPairs _) (by
        intro a ha
        rw [List.mem_singleton] at ha
        subst ha
        exact plain_noNul (Region.string_deliverable hs).1)
      obtain ⟨s', e1, e2, e3, e4, e5⟩ := ih h2 (s.write .initialize [t] (Properties.ofPairs kvs)) hw.2.2
      refine ⟨s', ?_, ?_, e3, e4, e5⟩
      · simp only [objectList, List.map_cons, sendObjects, regionArgument, hconv, Outcome.bind_ok, hs, Outcome.map, Option.toList_some]
        exact e1
      · have : (s.write .initialize [t] (Properties.ofPairs kvs)).out.sent = s.out.sent ++ wire .initialize [t] (Properties.ofPairs kvs).enumerate := hw.1
        rw [e2, this]
        simp [announcement]

/-- The reply is sent. -/
theorem replyLoop_sends {objs : List (Region × List (Str × Str))} {ms : List (Str × Region × Properties)}
    (hm : Announces .state objs ms) : ∀ (h : Handle), h.stream.out.Reliable →
    ∃ s', replyLoop h (objectList objs) = .ok (TRAX_OK, { h with stream := s' }) ∧ s'.out.sent = h.stream.out.sent ++ announcement .state ms ∧ s'.out.Reliable ∧
      s'.input = h.stream.input ∧ s'.mtype = h.stream.mtype := by
  induction hm with
  | nil => intro h hs; exact ⟨h.stream, rfl, by simp [announcement], hs, rfl, rfl⟩
  | @cons r kvs t r' objs ms hs hp ha hw hk hm ih =>
    intro h hrel
    have hw := writeMessage_reliable h.stream.out hrel .state [t] (Properties.ofPairs kvs) (Properties.wf_ofPairs _) (by
      intro a ha
      rw [List.mem_singleton] at ha
      subst ha
      exact plain_noNul (Region.string_deliverable hs).1)
    obtain ⟨s', e1, e2, e3, e4, e5⟩ := ih { h with stream := h.stream.write .state [t] (Properties.ofPairs kvs) } hw.2.2
    refine ⟨s', ?_, ?_, e3, e4, e5⟩
    · simp only [objectList, List.map_cons, replyLoop, regionText, hs, Outcome.bind_ok]
      exact e1
    · have : (h.stream.write .state [t] (Properties.ofPairs kvs)).out.sent = h.stream.out.sent ++ wire .state [t] (Properties.ofPairs kvs).enumerate := hw.1
      rw [e2]
      dsimp only
      rw [this]
      simp [announcement]

/-- The server reads the announced objects. -/
theorem waitMotLoop_objects (env : Env) (count : Nat) (props : Option Properties) {objs : List (Region × List (Str × Str))}
    {ms : List (Str × Region × Properties)} (hm : Announces .initialize objs ms) : ∀ (fuel : Nat) (init : Bool) (os : List (Option Region × Properties))
      (h : Handle) (rest : List InEv), h.stream.input = bytes (announcement .initialize ms) ++ rest →
    ∃ mt, waitMotLoop env count props (fuel + ms.length) init os h =
      waitMotLoop env count props fuel (init || !ms.isEmpty) (os ++ received ms) { h with stream := { h.stream with input := rest, mtype := mt } } := by
  induction hm with
  | nil =>
    intro fuel init os h rest hin
    refine ⟨h.stream.mtype, ?_⟩
    have : h = { h with stream := { h.stream with input := rest, mtype := h.stream.mtype } } := by
      have : h.stream.input = rest := by simpa [announcement, bytes] using hin
      rw [← this]
    simp only [List.length_nil, Nat.add_zero, List.isEmpty_nil, Bool.not_true, Bool.or_false, received, List.map_nil, List.append_nil]
    exact congrArg _ this
  | @cons r kvs t r' objs ms hs hp ha hw hk hm ih =>
    intro fuel init os h rest hin
    have hsp := SendableProps.ofPairs hk
    have hin' : h.stream.input = bytes (wire .initialize [t] (Properties.ofPairs kvs).enumerate) ++ (bytes (announcement .initialize ms) ++ rest) := by
      rw [hin]; simp [announcement, bytes_append']
    have hread := Stream.read_wire h.stream .initialize [t] (Properties.ofPairs kvs) hsp.wf
      (deliverable_args hsp (by simpa using Region.string_deliverable hs)) _ hin'
    obtain ⟨mt, e⟩ := ih fuel true (os ++ [(some r', Properties.ofPairs kvs)])
      { h with stream := { h.stream with mtype := some .initialize, input := bytes (announcement .initialize ms) ++ rest } } rest rfl
    refine ⟨mt, ?_⟩
    rw [List.length_cons, ← Nat.add_assoc]
    rw [waitMotLoop]
    rw [hread]
    dsimp only
    simp only [List.length_cons, List.length_nil, Nat.zero_add, Nat.one_ne_zero, if_false, hp]
    rw [copyAll_create hsp.wf, e]
    simp [received]

theorem objList_set_snoc (env : Env) (done : ObjList) (p : Properties) (r₀ r : Region) (hr : WellFormed r) (rest : ObjList) :
    ObjList.set env.legacy env.fresh (done ++ (some r₀, p) :: rest) done.length (some r) = .ok (done ++ (some r, p) :: rest) := by
  unfold ObjList.set
  rw [if_neg (by simp only [List.length_append, List.length_cons]; omega)]
  simp only [Int.toNat_natCast, List.getElem?_append_right (Nat.le_refl _), Nat.sub_self, List.getElem?_cons_zero, clone_wellFormed _ _ hr]
  simp [Outcome.map, List.set_append_right]

/-- The client reads a reply. -/
theorem clientWaitLoop_reply (env : Env) (props : Option Properties) {objs : List (Region × List (Str × Str))}
    {ms : List (Str × Region × Properties)} (hm : Announces .state objs ms) : ∀ (i : Nat) (done : ObjList) (ret : Int)
      (h : Handle) (rest : List InEv), h.stream.input = bytes (announcement .state ms) ++ rest → done.length = i →
    ∃ mt, clientWaitLoop env i (done ++ ObjList.create ms.length) ret props h ms.length =
      .ok ⟨if ms.isEmpty then ret else TRAX_STATE, none, some (done ++ received ms), none, props,
        { h with stream := { h.stream with input := rest, mtype := mt } }⟩ := by
  induction hm with
  | nil =>
    intro i done ret h rest hin hi
    refine ⟨h.stream.mtype, ?_⟩
    have : h = { h with stream := { h.stream with input := rest, mtype := h.stream.mtype } } := by
      have : h.stream.input = rest := by simpa [announcement, bytes] using hin
      rw [← this]
    simp only [List.length_nil, clientWaitLoop, List.isEmpty_nil, if_true, received, List.map_nil, ObjList.create, List.replicate_zero]
    exact congrArg (fun h => Outcome.ok (WaitResult.mk ret none (some (done ++ [])) none props h)) this
  | @cons r kvs t r' objs ms hs hp ha hw hk hm ih =>
    intro i done ret h rest hin hi
    subst hi
    have hsp := SendableProps.ofPairs hk
    have hin' : h.stream.input = bytes (wire .state [t] (Properties.ofPairs kvs).enumerate) ++ (bytes (announcement .state ms) ++ rest) := by
      rw [hin]; simp [announcement, bytes_append']
    have hread := Stream.read_wire h.stream .state [t] (Properties.ofPairs kvs) hsp.wf
      (deliverable_args hsp (by simpa using Region.string_deliverable hs)) _ hin'
    obtain ⟨mt, e⟩ := ih (done.length + 1) (done ++ [(some r', Properties.ofPairs kvs)]) TRAX_STATE
      { h with stream := { h.stream with mtype := some .state, input := bytes (announcement .state ms) ++ rest } } rest rfl (by simp)
    refine ⟨mt, ?_⟩
    rw [List.length_cons, clientWaitLoop, hread]
    dsimp only
    rw [hp]
    simp only [Outcome.bind_ok, Nat.one_ne_zero, if_false]
    rw [show ObjList.create (ms.length + 1) = (some (Region.createSpecial 0), Properties.create) :: ObjList.create ms.length from rfl]
    rw [objList_set_snoc env done _ _ r' hw]
    simp only [Outcome.bind_ok]
    have hprops : (ObjList.properties (done ++ (some r', Properties.create) :: ObjList.create ms.length) (done.length : Nat)).getD Properties.create = Properties.create := by
      unfold ObjList.properties
      rw [if_neg (by simp only [List.length_append, List.length_cons]; omega)]
      simp
    rw [hprops, copyAll_create hsp.wf]
    have hset : ObjList.setProperties (done ++ (some r', Properties.create) :: ObjList.create ms.length) done.length (Properties.ofPairs kvs) =
        (done ++ [(some r', Properties.ofPairs kvs)]) ++ ObjList.create ms.length := by
      unfold ObjList.setProperties
      simp [List.modify_eq_set_getElem?]
    rw [hset, e]
    simp [received]

end Trax
