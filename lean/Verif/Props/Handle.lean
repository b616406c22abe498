import Verif.Lemmas.Handle
import Verif.Lemmas.SessionText

/-!
# Property theorems C05, C52–C54, C57–C62: handles

`Handle` is the state of one side of a session: `h.stream.input` is all that will arrive from the peer,
`h.stream.out.sent` all that was sent so far. A history of calls on a handle is a derivation of `Calls`.
-/

namespace Trax
open Spec Handle
open Region (bind_eq_ok map_eq_ok)

theorem any_some {α : Type} {o : Option α} {f : α → Bool} (h : o.any f = true) : ∃ a, o = some a ∧ f a = true := by
  cases o with
  | none => cases h
  | some a => exact ⟨a, rfl, h⟩

/-! ## A session to take examples from -/

namespace Demo

/-- A tracker for color images given by path or in memory, all region formats. -/
def metadata : Metadata :=
  ⟨14, 13, 1, some b!"demo", none, none, Properties.create, 1⟩

/-- A reliable output. -/
def out : Writer := ⟨[], false, [], []⟩

def env : Env := ⟨false, fun n => List.replicate n 0, fun _ => 0⟩

def serverStart (version : Int) : Option Handle :=
  match serverSetup 0 metadata ⟨none, [], out⟩ version with
  | .ok h => some h
  | _ => none

/-- The client that received the introduction. -/
def clientStart (version : Int) : Option Handle :=
  (serverStart version).bind fun s =>
    match clientSetup ⟨none, bytes s.stream.out.sent, out⟩ with
    | .ok h => h
    | _ => none

/-- The handles with more input. -/
def server (version : Int) (input : Str) : Option Handle :=
  (serverStart version).map fun h => { h with stream := { h.stream with input := bytes input } }

@[inherit_doc server] def client (version : Int) (input : Str) : Option Handle :=
  (clientStart version).map fun h => { h with stream := { h.stream with input := bytes input } }

def image : Image := .path b!"/a.jpg"
def images : ImageList := [some image, none, none]
def object : Option Region × Properties := (some (.special 0), Properties.create)
def target : Option Region × Properties :=
  (some (.rectangle (.fin false (2 ^ 149)) (.fin false (2 ^ 149)) (.fin false (2 ^ 150)) (.fin false (2 ^ 150))), Properties.create)

end Demo

/-! ## C52, C53: termination -/

/-- One call on a terminated handle: it returns at once, with an error if it communicates, and nothing but
the error text changes; only a call for the other side aborts. -/
theorem terminated_call (env : Env) (fuel : Nat) (h : Handle) (ht : h.terminated = true) (c : Call) :
    (∃ ret h', h.call env fuel c = some (.ok (ret, h')) ∧ h'.terminated = true ∧ h'.stream = h.stream ∧ h'.server = h.server ∧
      (c.communicates = true → ret = TRAX_ERROR) ∧ (∀ reason, c = .terminate reason → ret = TRAX_OK)) ∨
    (h.call env fuel c = some .abort ∧ c.side = some (!h.server)) := by
  cases hs : h.server <;> cases c <;>
    simp [call, clientWait, clientInitialize, clientFrame, serverWaitSot, serverWaitMot, serverReplySot, serverReplyMot, terminate,
      Call.side, Call.communicates, hs, alive, Outcome.map, setError, clearError, ht, setParameter, getParameter, isAlive]

/-- **C53.** After a handle is terminated, no history of calls reads from or writes to the stream
(`stream` includes both the unread input and everything sent), every communicating call returns an error,
and the handle does not become alive again. -/
theorem C53_terminated_is_silent (env : Env) (h h' : Handle) (cs : List Call) (rets : List Int) (ht : h.terminated = true)
    (hc : Calls env h cs rets h') :
    h'.stream = h.stream ∧ h'.isAlive = false ∧ rets.length = cs.length ∧
    ∀ (i : Nat) c ret, cs[i]? = some c → rets[i]? = some ret →
      (c.communicates = true → ret = TRAX_ERROR) ∧ (∀ reason, c = .terminate reason → ret = TRAX_OK) := by
  induction hc with
  | nil h => exact ⟨rfl, by simp [isAlive, alive, ht], rfl, by simp⟩
  | @cons h₁ c ret h₂ cs rets h₃ fuel hc hs ih =>
    rcases terminated_call env fuel h₁ ht c with ⟨ret', h₂', h1, h2, h3, -, h4⟩ | ⟨h1, -⟩
    · rw [h1] at hc
      cases hc
      obtain ⟨i1, i2, i3, i4⟩ := ih h2
      refine ⟨by rw [i1, h3], i2, by simp [i3], ?_⟩
      intro i c' r hi hr
      cases i with
      | zero => simp at hi hr; subst hi hr; exact h4
      | succ i => exact i4 i c' r (by simpa using hi) (by simpa using hr)
    · rw [h1] at hc; cases hc

/-- **C53, every call returns.** None of the calls hangs or aborts on a terminated handle, except for those made
for the other side. -/
theorem C53_calls_return (env : Env) (fuel : Nat) (h : Handle) (ht : h.terminated = true) (c : Call) (hside : c.side ≠ some (!h.server)) :
    ∃ ret h', h.call env fuel c = some (.ok (ret, h')) := by
  rcases terminated_call env fuel h ht c with ⟨ret, h', h1, -⟩ | ⟨-, h1⟩
  · exact ⟨ret, h', h1⟩
  · exact absurd h1 hside

/-- **C53, how a handle gets terminated.** By `trax_terminate`, and by every wait that reports quit. -/
theorem C53_quit_terminates (env : Env) (h : Handle) (props : Option Properties) (reason : Option Str) :
    (h.terminate reason).2.terminated = true ∧
    (∀ w, h.clientWait env props = .ok w → w.ret = TRAX_QUIT → w.handle.terminated = true) ∧
    (∀ w, h.serverWaitSot env props = .ok w → w.ret = TRAX_QUIT → w.handle.terminated = true) ∧
    (∀ fuel w, h.serverWaitMot env fuel props = some (.ok w) → w.ret = TRAX_QUIT → w.handle.terminated = true) := by
  refine ⟨?_, fun w hw => (clientWait_frame env h props w hw).2.2.1, fun w hw => (serverWaitSot_frame env h props w hw).2.1,
    fun fuel w hw => (serverWaitMot_frame env fuel h props w hw).2.1⟩
  simp only [terminate]
  split
  · next h1 => simpa [alive] using h1
  · rfl

/-- A history after termination. -/
example : ((Demo.client 4 b!"@@TRAX:state \"0\" \n").bind fun h => runCalls Demo.env 9 (h.terminate (some b!"done")).2
      [.clientFrame Demo.images none none, .clientWait none, .terminate none, .getParameter false 0]).map Prod.fst =
    some [-1, -1, 0, -1] := by
  decide +kernel

/-- **C52.** Terminating a live handle succeeds and sends exactly one quit message, with the reason as its only property; whatever
calls follow, any number of terminations among them, nothing more is sent, also not by the final
`trax_cleanup`; all the terminations succeed and the handle is not alive. -/
theorem C52_terminate_once (env : Env) (h : Handle) (ha : h.isAlive = true) (hout : h.stream.out.Reliable)
    (reason : Option Str) (hreason : ∀ s, reason = some s → NoNul s) :
    (h.terminate reason).1 = TRAX_OK ∧
    ∀ cs rets h', Calls env (h.terminate reason).2 cs rets h' →
      h'.stream.out.sent = h.stream.out.sent ++ wire .quit [] (reason.map fun s => (b!"trax.reason", s)).toList ∧
      h'.stream.input = h.stream.input ∧
      h'.cleanup.2.sent = h'.stream.out.sent ∧ h'.isAlive = false ∧
      ∀ (i : Nat) r ret, cs[i]? = some (.terminate r) → rets[i]? = some ret → ret = TRAX_OK := by
  have ht := (C53_quit_terminates env h none reason).1
  have ha' : h.clearError.alive = true := ha
  have e : h.terminate reason =
      (TRAX_OK, { h.clearError with terminated := true, stream := h.clearError.stream.write .quit [] (quitProperties reason) }) := by
    simp [terminate, ha']
  refine ⟨by rw [e], fun cs rets h' hc => ?_⟩
  obtain ⟨h1, h2, h3, h4⟩ := C53_terminated_is_silent env _ h' cs rets ht hc
  have hsent : (h.terminate reason).2.stream.out.sent =
      h.stream.out.sent ++ wire .quit [] (reason.map fun s => (b!"trax.reason", s)).toList := by
    rw [e]
    have hp : (quitProperties reason).WF := by
      cases reason with
      | none => exact Properties.wf_create
      | some s => exact Properties.wf_set Properties.wf_create _ _
    have := (writeMessage_reliable h.stream.out hout .quit [] (quitProperties reason) hp (by simp)).1
    rw [quitProperties_enumerate] at this
    have hr : reason.map (fun s => (b!"trax.reason", cstr s)) = reason.map (fun s => (b!"trax.reason", s)) := by
      cases reason with
      | none => rfl
      | some s => simp [cstr_of_noNul (hreason s rfl)]
    rw [hr] at this
    exact this
  refine ⟨by rw [h1, hsent], by rw [h1, e]; rfl, ?_, h2, fun i r ret hi hr => (h4 i _ ret hi hr).2 r rfl⟩
  have : h'.alive = false := h2
  simp [cleanup, terminate, clearError, alive] at this ⊢
  simp [this]

/-- **C52, cleanup.** `trax_cleanup` of a live handle sends exactly one quit message too. -/
theorem C52_cleanup (h : Handle) (ha : h.isAlive = true) (hout : h.stream.out.Reliable) :
    h.cleanup.1 = 0 ∧ h.cleanup.2.sent = h.stream.out.sent ++ wire .quit [] [] := by
  have := ((C52_terminate_once Demo.env h ha hout none nofun).2 [] [] _ (.nil _)).1
  exact ⟨rfl, this⟩

example : (Demo.client 4 []).map (fun h => (h.isAlive, (h.terminate (some b!"done")).2.stream.out.sent)) =
    some (true, b!"@@TRAX:quit \"trax.reason=done\" \n") := by
  decide +kernel

/-! ## C54: replies -/

/-- The objects of a list: regions and (key, value) pairs of the properties. -/
def Spec.objectList (objs : List (Region × List (Str × Str))) : ObjList :=
  objs.map fun o => (some o.1, Properties.ofPairs o.2)

/-- `ms` are the state messages for the objects, one for each and in order: the text of the region and the
properties. -/
def Spec.StateMessages (objs : List (Region × List (Str × Str))) (ms : List Str) : Prop :=
  List.Forall₂ (fun o m => ∃ text, o.1.string = .ok (some text) ∧ m = wire .state [text] (Properties.ofPairs o.2).enumerate) objs ms

theorem replyLoop_ok (objs : List (Region × List (Str × Str))) : ∀ (h h' : Handle), h.stream.out.Reliable →
    replyLoop h (objectList objs) = .ok (TRAX_OK, h') →
    ∃ ms, StateMessages objs ms ∧ h'.stream.out.sent = h.stream.out.sent ++ ms.flatten := by
  induction objs with
  | nil => intro h h' hr hl; cases hl; exact ⟨[], .nil, by simp⟩
  | cons e rest ih =>
    intro h h' hr hl
    obtain ⟨r, p⟩ := e
    simp only [replyLoop, objectList, List.map_cons] at hl
    obtain ⟨data, hd, hl'⟩ := bind_eq_ok hl
    cases data with
    | none => cases hl'
    | some text =>
      have hw := writeMessage_reliable h.stream.out hr .state [text] (Properties.ofPairs p) (Properties.wf_ofPairs _) (by
        intro a ha
        rw [List.mem_singleton] at ha
        subst ha
        exact plain_noNul (Region.string_deliverable hd).1)
      obtain ⟨ms, h1, h2⟩ := ih _ h' hw.2.2 hl'
      refine ⟨wire .state [text] (Properties.ofPairs p).enumerate :: ms, .cons ⟨text, hd, rfl⟩ h1, ?_⟩
      have h7 : (h.stream.write .state [text] (Properties.ofPairs p)).out.sent =
        h.stream.out.sent ++ wire .state [text] (Properties.ofPairs p).enumerate := hw.1
      rw [h2, h7]
      simp

theorem replyLoop_error (objs : ObjList) : ∀ (h h' : Handle) (ret : Int),
    replyLoop h objs = .ok (ret, h') → ret = TRAX_OK ∨ (ret = TRAX_ERROR ∧ ∃ e ∈ objs, regionText e.1 = .ok none) := by
  induction objs with
  | nil => intro h h' ret hl; cases hl; exact .inl rfl
  | cons e rest ih =>
    intro h h' ret hl
    simp only [replyLoop] at hl
    obtain ⟨data, hd, hl'⟩ := bind_eq_ok hl
    cases data with
    | none => cases hl'; exact .inr ⟨rfl, e, by simp, hd⟩
    | some text =>
      rcases ih _ _ _ hl' with h1 | ⟨h1, e', h2, h3⟩
      · exact .inl h1
      · exact .inr ⟨h1, e', by simp [h2], h3⟩

/-- **C54, accepted replies.** An accepted multi-object reply has one entry per tracked object, and one entry in
single-object mode; exactly one state message per object was sent, in order. -/
theorem C54_accepted (h h' : Handle) (hout : h.stream.out.Reliable) (objs : List (Region × List (Str × Str)))
    (hr : h.serverReplyMot (objectList objs) = .ok (TRAX_OK, h')) :
    objs.length = h.objects ∧ (h.isMulti = false → objs.length = 1) ∧
    ∃ ms, StateMessages objs ms ∧ h'.stream.out.sent = h.stream.out.sent ++ ms.flatten := by
  unfold serverReplyMot at hr
  split at hr
  · cases hr
  dsimp only at hr
  split at hr
  · cases hr
  split at hr
  · cases hr
  · next hm =>
    split at hr
    · cases hr
    · next hlen =>
      have hl : (objectList objs).length = objs.length := by simp [objectList]
      rw [hl] at hlen hm
      refine ⟨by simpa [clearError] using hlen, fun hmul => ?_, replyLoop_ok objs h.clearError h' hout hr⟩
      have : h.clearError.isMulti = false := hmul
      simpa [this] using hm

/-- **C54, accepted single-object replies.** -/
theorem C54_accepted_sot (h h' : Handle) (hout : h.stream.out.Reliable) (region : Option Region) (kvs : List (Str × Str))
    (hr : h.serverReplySot region (some (Properties.ofPairs kvs)) = .ok (TRAX_OK, h')) :
    ∃ r m, region = some r ∧ StateMessages [(r, kvs)] [m] ∧ h'.stream.out.sent = h.stream.out.sent ++ m := by
  unfold serverReplySot at hr
  split at hr
  · cases hr
  dsimp only at hr
  split at hr
  · cases hr
  split at hr
  · cases hr
  obtain ⟨data, hd, hr'⟩ := map_eq_ok hr
  cases data with
  | none => cases hr'
  | some text =>
    cases region with
    | none => cases hd
    | some r =>
      cases hr'
      refine ⟨r, _, rfl, .cons ⟨text, hd, rfl⟩ .nil, ?_⟩
      exact (writeMessage_reliable h.stream.out hout .state [text] (Properties.ofPairs kvs) (Properties.wf_ofPairs _) (by
        intro a ha
        rw [List.mem_singleton] at ha
        subst ha
        exact plain_noNul (Region.string_deliverable hd).1)).1

/-- **C54, refused replies.** A refused single-object reply sends nothing; a refused multi-object reply sends nothing if all
its entries have a region with a text (which only NULL and empty polygons have not). -/
theorem C54_refused_partial (h h' : Handle) (ret : Int) (hret : ret ≠ TRAX_OK) :
    (∀ region props, h.serverReplySot region props = .ok (ret, h') → h'.stream = h.stream ∧ h'.objects = h.objects) ∧
    (∀ objs : ObjList, (∀ e ∈ objs, ∃ r, e.1 = some r ∧ r ≠ .polygon []) →
      h.serverReplyMot objs = .ok (ret, h') → h'.stream = h.stream ∧ h'.objects = h.objects) := by
  constructor
  · intro region props hr
    unfold serverReplySot at hr
    split at hr
    · cases hr
    dsimp only at hr
    split at hr
    · cases hr; exact ⟨rfl, rfl⟩
    split at hr
    · cases hr; exact ⟨rfl, rfl⟩
    obtain ⟨data, hd, hr⟩ := map_eq_ok hr
    cases data with
    | none => cases hr; exact ⟨rfl, rfl⟩
    | some text => cases hr; exact absurd rfl hret
  · intro objs hobj hr
    unfold serverReplyMot at hr
    split at hr
    · cases hr
    dsimp only at hr
    split at hr
    · cases hr; exact ⟨rfl, rfl⟩
    split at hr
    · cases hr; exact ⟨rfl, rfl⟩
    split at hr
    · cases hr; exact ⟨rfl, rfl⟩
    · rcases replyLoop_error objs _ _ _ hr with h1 | ⟨-, e, he, hn⟩
      · exact absurd h1 hret
      · obtain ⟨r, h1, h2⟩ := hobj e he
        rw [h1] at hn
        cases r with
        | special code => cases hn
        | rectangle x y w h' => cases hn
        | polygon ps =>
          simp only [regionText, Region.string] at hn
          split at hn
          · next hps => subst hps; exact absurd rfl h2
          · cases hn
        | mask x y w h' data =>
          simp only [regionText, Region.string] at hn
          obtain ⟨length, -, hn⟩ := bind_eq_ok hn
          split at hn
          · cases hn
          · split at hn <;> cases hn

/-- A server that tracks two objects. -/
def Demo.server2 : Option Handle :=
  (Demo.server 4 b!"@@TRAX:initialize \"0\" \n@@TRAX:initialize \"0\" \n@@TRAX:frame \"file:///a.jpg\" \n").bind fun h =>
    (runCalls Demo.env 9 h [.serverWaitMot none]).map Prod.snd

/-- **C54 fails** for an entry without a region: the reply is refused after state messages for the entries before
it were sent. -/
theorem C54_refused_false :
    ∃ h h', Demo.server2 = some h ∧ h.serverReplyMot [Demo.object, (none, Properties.create)] = .ok (TRAX_ERROR, h') ∧
      h'.stream.out.sent = h.stream.out.sent ++ b!"@@TRAX:state \"0\" \n" := by
  have : (Demo.server2.any fun h => match h.serverReplyMot [Demo.object, (none, Properties.create)] with
      | .ok (ret, h') => decide (ret = TRAX_ERROR) && decide (h'.stream.out.sent = h.stream.out.sent ++ b!"@@TRAX:state \"0\" \n")
      | _ => false) = true := by decide +kernel
  obtain ⟨h, hh, hc⟩ := any_some this
  split at hc
  · next ret h' hr =>
    simp only [Bool.and_eq_true, decide_eq_true_eq] at hc
    exact ⟨h, h', hh, by rw [hr, hc.1], hc.2⟩
  · cases hc

/-- Accepted replies of both kinds. -/
example : (Demo.server2.any fun h => decide (h.stream.out.Reliable) &&
      match h.serverReplyMot (objectList [(.special 0, []), (.special 3, [(b!"a", b!"b")])]) with
      | .ok (ret, h') => decide (ret = TRAX_OK) &&
        decide (h'.stream.out.sent = h.stream.out.sent ++ b!"@@TRAX:state \"0\" \n" ++ b!"@@TRAX:state \"3\" \"a=b\" \n")
      | _ => false) = true := by decide +kernel

example : ((Demo.server 3 []).any fun h => decide (h.stream.out.Reliable) &&
      match h.serverReplySot (some (.special 3)) (some (Properties.ofPairs [])) with
      | .ok (ret, h') => decide (ret = TRAX_OK) && decide (h'.stream.out.sent = h.stream.out.sent ++ b!"@@TRAX:state \"3\" \n")
      | _ => false) = true := by decide +kernel

/-- A refused reply. -/
example : (Demo.server2.any fun h => match h.serverReplyMot [Demo.object] with
      | .ok (ret, _) => decide (ret = TRAX_ERROR)
      | _ => false) = true := by decide +kernel

/-! ## C57: refused calls of the client -/

/-- There is an image for every channel that the tracker asks for. -/
def Spec.Complete (channels : UInt32) (images : ImageList) : Prop :=
  (channels &&& 1 ≠ 0 → ∃ img, images.get 1 = .ok (some img)) ∧
  (channels &&& 2 ≠ 0 → ∃ img, images.get 2 = .ok (some img)) ∧
  (channels &&& 4 ≠ 0 → ∃ img, images.get 4 = .ok (some img))

theorem encodeImages_none (channels : UInt32) (images : ImageList) : ∀ is : List Nat,
    encodeImages channels images is = .ok none →
    ∃ i ∈ is, supports channels (ImageList.channelId i) = true ∧ images[i]? = some none := by
  intro is
  induction is with
  | nil => intro h; cases h
  | cons i is ih =>
    intro h
    unfold encodeImages at h
    split at h
    · next hs =>
      split at h
      · cases h
      · next hi => exact ⟨i, by simp, hs, hi⟩
      · obtain ⟨text, -, h⟩ := bind_eq_ok h
        obtain ⟨rest, h1, h2⟩ := map_eq_ok h
        cases rest with
        | some r => cases h2
        | none =>
          obtain ⟨j, h3, h4⟩ := ih h1
          exact ⟨j, by simp [h3], h4⟩
    · obtain ⟨j, h3, h4⟩ := ih h
      exact ⟨j, by simp [h3], h4⟩

theorem encodeImages_complete {channels : UInt32} {images : ImageList} (hc : Complete channels images) :
    encodeImages channels images channelIndexes ≠ .ok none := by
  intro h
  obtain ⟨i, hi, hs, hn⟩ := encodeImages_none channels images _ h
  obtain ⟨h1, h2, h3⟩ := hc
  simp only [channelIndexes, List.mem_cons, List.not_mem_nil, or_false] at hi
  rcases hi with rfl | rfl | rfl
  · obtain ⟨img, hg⟩ := h1 (by simpa [supports, ImageList.channelId] using hs)
    simp [ImageList.get, ImageList.channelIndex, hn] at hg
  · obtain ⟨img, hg⟩ := h2 (by simpa [supports, ImageList.channelId] using hs)
    simp [ImageList.get, ImageList.channelIndex, hn] at hg
  · obtain ⟨img, hg⟩ := h3 (by simpa [supports, ImageList.channelId] using hs)
    simp [ImageList.get, ImageList.channelIndex, hn] at hg

/-- A frame is refused before anything is sent, or because an image is missing. -/
theorem clientFrame_error {env : Env} {h h' : Handle} {images : ImageList} {objects : Option ObjList} {props : Option Properties} {ret : Int}
    (hret : ret ≠ TRAX_OK) (hr : h.clientFrame env images objects props = .ok (ret, h')) :
    (h'.stream = h.stream ∧ h'.objects = h.objects ∧
      (h.alive = false ∨ h.isV4 = false ∨ (h.objects + (objects.getD []).length > 1 ∧ ¬ h.isMulti = true))) ∨
    (h.isV4 = true ∧ encodeImages h.metadata.channels images channelIndexes = .ok none) := by
  unfold clientFrame at hr
  split at hr
  · cases hr
  dsimp only at hr
  split at hr
  · next ha => cases hr; exact .inl ⟨rfl, rfl, .inl (by simpa [alive, clearError] using ha)⟩
  split at hr
  · next hv =>
    split at hr
    · next hm => cases hr; exact .inl ⟨rfl, rfl, .inr (.inr hm)⟩
    · obtain ⟨stream, -, hr⟩ := bind_eq_ok hr
      obtain ⟨args, ha, hr⟩ := map_eq_ok hr
      cases args with
      | none => exact .inr ⟨hv, ha⟩
      | some args => cases hr; exact absurd rfl hret
  · next hv =>
    have hv' : h.isV4 = false := by simpa [isV4, clearError] using hv
    split at hr
    · cases hr; exact .inl ⟨rfl, rfl, .inr (.inl hv')⟩
    · obtain ⟨args, ha, hr⟩ := map_eq_ok hr
      cases args with
      | none => cases hr; exact .inl ⟨rfl, rfl, .inr (.inl hv')⟩
      | some args => cases hr; exact absurd rfl hret

theorem clientInitialize_error {env : Env} {h h' : Handle} {images : ImageList} {objects : ObjList} {props : Option Properties} {ret : Int}
    (hret : ret ≠ TRAX_OK) (hr : h.clientInitialize env images objects props = .ok (ret, h')) :
    (h'.stream = h.stream ∧ h'.objects = h.objects) ∨
    (h.isV4 = true ∧ encodeImages h.metadata.channels images channelIndexes = .ok none) := by
  unfold clientInitialize at hr
  split at hr
  · cases hr
  next hsrv =>
  dsimp only at hr
  split at hr
  · cases hr; exact .inl ⟨rfl, rfl⟩
  next hal =>
  split at hr
  · cases hr; exact .inl ⟨rfl, rfl⟩
  next hn0 =>
  split at hr
  · cases hr; exact .inl ⟨rfl, rfl⟩
  next hmulti =>
  split at hr
  · next hv =>
    split at hr
    · next hobj =>
      rcases clientFrame_error hret hr with ⟨-, -, h1 | h1 | h1⟩ | h1
      · exact absurd h1 (by simpa [alive, clearError] using hal)
      · have : h.clearError.isV4 = false := h1
        rw [this] at hv; cases hv
      · refine absurd ⟨h1.2, ?_⟩ hmulti
        have := h1.1
        simp only [Option.getD_some] at this
        omega
      · exact .inr h1
    · rcases clientFrame_error hret hr with ⟨h1, h2, -⟩ | h1
      · exact .inl ⟨h1, h2⟩
      · exact .inr h1
  · split at hr
    · cases hr
    · split at hr
      · cases hr
      · obtain ⟨args, ha, hr⟩ := bind_eq_ok hr
        cases args with
        | none => cases hr; exact .inl ⟨rfl, rfl⟩
        | some args =>
          obtain ⟨data, -, hr⟩ := map_eq_ok hr
          cases hr; exact absurd rfl hret

/-- **C57, what holds.** If initialize or frame is refused and the images are complete, or the protocol version is
below 4, then nothing was sent and the number of tracked objects is unchanged. -/
theorem C57_refused_partial (env : Env) (h h' : Handle) (images : ImageList) (props : Option Properties) (ret : Int) (hret : ret ≠ TRAX_OK)
    (hi : Complete h.metadata.channels images ∨ h.version < 4) :
    (∀ objects, h.clientFrame env images objects props = .ok (ret, h') → h'.stream = h.stream ∧ h'.objects = h.objects) ∧
    (∀ objects, h.clientInitialize env images objects props = .ok (ret, h') → h'.stream = h.stream ∧ h'.objects = h.objects) := by
  have key : ¬ (h.isV4 = true ∧ encodeImages h.metadata.channels images channelIndexes = .ok none) := by
    rintro ⟨h1, h2⟩
    rcases hi with hi | hi
    · exact encodeImages_complete hi h2
    · simp [isV4] at h1; omega
  exact ⟨fun objects hr => ((clientFrame_error hret hr).resolve_right key).imp_right And.left,
    fun objects hr => (clientInitialize_error hret hr).resolve_right key⟩

example : ((Demo.client 4 []).any fun h => decide (h.metadata.channels = 1) &&
    match h.clientInitialize Demo.env Demo.images [] none with
      | .ok (ret, _) => decide (ret = TRAX_ERROR)
      | _ => false) = true := by decide +kernel

example : Complete 1 Demo.images := ⟨fun _ => ⟨_, rfl⟩, fun h => absurd rfl h, fun h => absurd rfl h⟩

/-- **C57 fails** if an image is missing: the objects were sent, and the client counts them. -/
theorem C57_refused_false :
    ∃ h h', Demo.client 4 [] = some h ∧ h.clientInitialize Demo.env ImageList.create [Demo.target] none = .ok (TRAX_ERROR, h') ∧
      h'.stream.out.sent = h.stream.out.sent ++ b!"@@TRAX:initialize \"1.0000,1.0000,2.0000,2.0000\" \n" ∧ h.objects = 0 ∧ h'.objects = 1 := by
  have : ((Demo.client 4 []).any fun h => match h.clientInitialize Demo.env ImageList.create [Demo.target] none with
      | .ok (ret, h') => decide (ret = TRAX_ERROR) && decide (h'.stream.out.sent = h.stream.out.sent ++ b!"@@TRAX:initialize \"1.0000,1.0000,2.0000,2.0000\" \n" ∧
          h.objects = 0 ∧ h'.objects = 1)
      | _ => false) = true := by decide +kernel
  obtain ⟨h, hh, hc⟩ := any_some this
  split at hc
  · next ret h' hr =>
    simp only [Bool.and_eq_true, decide_eq_true_eq] at hc
    exact ⟨h, h', hh, by rw [hr, hc.1], hc.2⟩
  · cases hc

/-! ## C05: failed writes -/

/-- **C05 fails** at the API: a call whose messages could not be sent returns `TRAX_OK`. Here the
connection is gone, nothing is sent at all, and the client counts the object as tracked. -/
theorem C05_failure_not_reported :
    ∃ h h', Demo.client 4 [] = some h ∧
      ({ h with stream := { h.stream with out := ⟨[], true, [], []⟩ } }).clientInitialize Demo.env Demo.images [Demo.target] none =
        .ok (TRAX_OK, h') ∧ h'.stream.out.sent = [] ∧ h'.objects = 1 := by
  have : ((Demo.client 4 []).any fun h =>
      match ({ h with stream := { h.stream with out := ⟨[], true, [], []⟩ } }).clientInitialize Demo.env Demo.images [Demo.target] none with
      | .ok (ret, h') => decide (ret = TRAX_OK) && decide (h'.stream.out.sent = [] ∧ h'.objects = 1)
      | _ => false) = true := by decide +kernel
  obtain ⟨h, hh, hc⟩ := any_some this
  split at hc
  · next ret h' hr =>
    simp only [Bool.and_eq_true, decide_eq_true_eq] at hc
    exact ⟨h, h', hh, by rw [hr, hc.1], hc.2⟩
  · cases hc

/-! ## C58: waiting for a client that is gone -/

/-- The stream after everything that arrives has been read. -/
def Spec.readAll (s : Stream) : Stream := (fun s => s.read.2)^[s.input.length] s

theorem readAll_eof (n : Nat) (s : Stream) (h : s.input = []) : (fun s => s.read.2)^[n] s = s := by
  induction n with
  | zero => rfl
  | succ n ih => rw [Function.iterate_succ_apply]; simp only [(s.read_eof h).2.2.2, ih]

theorem readAll_enough (n : Nat) : ∀ (m : Nat) (s : Stream), s.input.length ≤ n → s.input.length ≤ m →
    (fun s : Stream => s.read.2)^[n] s = (fun s => s.read.2)^[m] s := by
  induction n with
  | zero =>
    intro m s h _
    have h0 : s.input = [] := List.length_eq_zero_iff.mp (Nat.le_zero.mp h)
    rw [readAll_eof _ s h0, readAll_eof _ s h0]
  | succ n ih =>
    intro m s h hm
    by_cases h0 : s.input = []
    · rw [readAll_eof _ s h0, readAll_eof _ s h0]
    · have h1 := s.read_shorter h0
      cases m with
      | zero => exact absurd (List.length_eq_zero_iff.mp (Nat.le_zero.mp hm)) h0
      | succ m =>
        rw [Function.iterate_succ_apply, Function.iterate_succ_apply]
        exact ih m _ (by omega) (by omega)

theorem readAll_read (s : Stream) : readAll s.read.2 = readAll s := by
  by_cases h0 : s.input = []
  · rw [(s.read_eof h0).2.2.2]
  · have h1 := s.read_shorter h0
    obtain ⟨k, hk⟩ : ∃ k, s.input.length = k + 1 := ⟨s.input.length - 1, by omega⟩
    unfold readAll
    rw [hk, Function.iterate_succ_apply]
    exact readAll_enough _ _ _ (Nat.le_refl _) (by omega)

/-- The types with which the loop of the wait goes on. -/
def Spec.Continues (t : Option MsgType) : Prop := t = some .hello ∨ t = some .initialize ∨ t = some .state

theorem waitMotLoop_hangs (env : Env) (count : Nat) (props : Option Properties) (n : Nat) :
    ∀ (init : Bool) (objs : List (Option Region × Properties)) (h : Handle), h.stream.input.length ≤ n →
    (∀ fuel, waitMotLoop env count props fuel init objs h = none) → Continues (readAll h.stream).mtype := by
  induction n with
  | zero =>
    intro init objs h hn hf
    have h0 : h.stream.input = [] := List.length_eq_zero_iff.mp (Nat.le_zero.mp hn)
    have h1 := hf 1
    have h2 : readAll h.stream = h.stream := readAll_eof _ _ h0
    rw [h2]
    obtain ⟨e1, e2, e3, e4⟩ := h.stream.read_eof h0
    simp only [waitMotLoop, e1] at h1
    cases ht : h.stream.mtype with
    | none => rw [ht] at h1; cases h1
    | some t =>
      rw [ht] at h1
      cases t with
      | hello => exact .inl rfl
      | «initialize» => exact .inr (.inl rfl)
      | state => exact .inr (.inr rfl)
      | frame => simp only at h1; split at h1 <;> [cases h1; (split at h1 <;> cases h1)]
      | quit => simp only at h1; split at h1 <;> cases h1
  | succ n ih =>
    intro init objs h hn hf
    by_cases h0 : h.stream.input = []
    · exact ih init objs h (by simp [h0]) hf
    · have hlt := h.stream.read_shorter h0
      have hle : h.stream.read.2.input.length ≤ n := by omega
      rw [← readAll_read]
      have step : ∀ fuel, waitMotLoop env count props (fuel + 1) init objs h = none := fun fuel => hf (fuel + 1)
      simp only [waitMotLoop] at step
      cases ht : h.stream.read.1.mtype with
      | none => rw [ht] at step; cases step 0
      | some t =>
        rw [ht] at step
        cases t with
        | hello => exact ih init objs { h with stream := h.stream.read.2 } hle step
        | state => exact ih init objs { h with stream := h.stream.read.2 } hle step
        | frame =>
          have := step 0
          simp only at this; split at this <;> [cases this; (split at this <;> cases this)]
        | quit => have := step 0; simp only at this; split at this <;> cases this
        | «initialize» =>
          simp only at step
          split at step
          · exact ih true objs { h with stream := h.stream.read.2, objects := 0 } hle step
          · split at step
            · split at step
              · cases step 0
              · cases step 0
              · split at step
                · cases step 0
                · exact ih true _ { h with stream := h.stream.read.2 } hle step
            · cases step 0

/-- **C58, what holds.** Let all that will ever arrive be any finite sequence of bytes and failures, after which the connection is dead.
If a server wait never returns, then the message type in force after everything was read is hello, initialize or
state. So the wait returns if the last message before the end was a frame or a quit, that is, if the
client died between two calls; also the wait of the single-object interface and that of the client always return (they are total functions
of the model). -/
theorem C58_wait_ends_partial (env : Env) (h : Handle) (props : Option Properties)
    (hend : ¬ Continues (readAll h.stream).mtype) : ∃ fuel o, h.serverWaitMot env fuel props = some o := by
  by_contra hno
  apply hend
  have hf : ∀ fuel, h.serverWaitMot env fuel props = none := by
    intro fuel
    cases hw : h.serverWaitMot env fuel props with
    | none => rfl
    | some o => exact absurd ⟨fuel, o, hw⟩ hno
  unfold serverWaitMot at hf
  split at hf
  · cases hf 0
  · dsimp only at hf
    split at hf
    · cases hf 0
    · split at hf
      · exact waitMotLoop_hangs env _ props _ _ _ h.clearError (Nat.le_refl _) hf
      · cases hf 0
      · cases hf 0

/-- **C58, at the end of the input.** If nothing arrives any more, and the wait returns, then with an error or with quit. -/
theorem C58_error_or_quit_partial (env : Env) (h : Handle) (hin : h.stream.input = []) (hch : h.metadata.channels ≠ 0)
    (props : Option Properties) (w : WaitResult) :
    (h.serverWaitSot env props = .ok w → w.ret = TRAX_ERROR ∨ w.ret = TRAX_QUIT) ∧
    (∀ fuel, h.serverWaitMot env fuel props = some (.ok w) → w.ret = TRAX_ERROR ∨ w.ret = TRAX_QUIT) := by
  obtain ⟨e1, e2, e3, e4⟩ := h.stream.read_eof hin
  have hcount : ∀ c, ImageList.count h.metadata.channels = .ok c → c ≠ 0 := by
    intro c hc h0
    rw [count_eq] at hc
    split at hc
    · cases hc
      have := bitCount_pos (k := 32) (n := h.metadata.channels.toNat) (by
        rcases Nat.eq_zero_or_pos h.metadata.channels.toNat with h1 | h1
        · exact absurd (UInt32.toNat_inj.mp (by simpa using h1)) hch
        · exact h1) h.metadata.channels.toNat_lt
      omega
    · cases hc
  constructor
  · intro hw
    unfold serverWaitSot at hw
    split at hw
    · cases hw
    dsimp only at hw
    split at hw
    · cases hw; exact .inl rfl
    split at hw
    · cases hw; exact .inl rfl
    obtain ⟨count, hc, hw⟩ := bind_eq_ok hw
    have hc0 := hcount count hc
    have e2' : h.clearError.stream.read.1.args = [] := e2
    rw [e2'] at hw
    split at hw
    · rw [if_pos (by simpa using fun h => hc0 h.symm)] at hw; cases hw; exact .inl rfl
    · split at hw
      · cases hw; exact .inl rfl
      · cases hw; exact .inr rfl
    · rw [if_pos (by simp)] at hw; cases hw; exact .inl rfl
    · cases hw; exact .inl rfl
  · intro fuel hw
    obtain ⟨-, ⟨ha, rfl⟩ | ⟨ha, count, hc, hw⟩⟩ := serverWaitMot_ok hw
    · exact .inl rfl
    have hc0 := hcount count hc
    have key : ∀ fuel init objs (h : Handle), h.stream.input = [] → waitMotLoop env count props fuel init objs h = some (.ok w) →
        w.ret = TRAX_ERROR ∨ w.ret = TRAX_QUIT := by
      intro fuel
      induction fuel with
      | zero => intro init objs h _ hw; cases hw
      | succ fuel ih =>
        intro init objs h hin hw
        obtain ⟨e1, e2, e3, e4⟩ := h.stream.read_eof hin
        simp only [waitMotLoop, e2] at hw
        split at hw
        · rw [failMot_ok (Option.some.inj hw)]; exact .inl rfl
        · rw [if_neg (by simp)] at hw
          obtain ⟨l, -, hl⟩ := finishMot_ok (Option.some.inj hw)
          rw [hl]; exact .inr rfl
        · split at hw
          · rw [failMot_ok (Option.some.inj hw)]; exact .inl rfl
          · rw [if_pos (by simpa using fun h => hc0 h.symm)] at hw
            rw [failMot_ok (Option.some.inj hw)]; exact .inl rfl
        · rw [if_pos (by simp)] at hw
          exact ih _ _ _ (by simpa [e4] using hin) hw
        · exact ih _ _ _ (by simpa [e4] using hin) hw
    exact key fuel _ _ h.clearError hin hw

/-- **C58 fails.** If the client dies after it announced an object and before it sent the frame, the wait
of the server never returns: at the end of the input every read gives the last message type again (C10). -/
theorem C58_wait_ends_false :
    ∃ h, Demo.server 4 b!"@@TRAX:initialize \"0\" \n" = some h ∧ ∀ fuel, h.serverWaitMot Demo.env fuel none = none := by
  have key : ∀ fuel count init objs (h : Handle), h.stream.input = [] → h.stream.mtype = some .initialize →
      waitMotLoop Demo.env count none fuel init objs h = none := by
    intro fuel
    induction fuel with
    | zero => intro count init objs h _ _; rfl
    | succ fuel ih =>
      intro count init objs h hin ht
      obtain ⟨e1, e2, e3, e4⟩ := h.stream.read_eof hin
      simp only [waitMotLoop, e1, e2, ht]
      rw [if_pos (by simp)]
      exact ih _ _ _ _ (by simp [e4, hin]) (by simp [e4, ht])
  have : ((Demo.server 4 b!"@@TRAX:initialize \"0\" \n").any fun h => decide (h.server = true) && decide (h.terminated = false) &&
      decide (ImageList.count h.metadata.channels = .ok 1) && decide (h.stream.read.1.mtype = some .initialize) &&
      decide (h.stream.read.1.args = [b!"0"]) && decide (h.stream.read.2.input = []) &&
      decide (h.stream.read.2.mtype = some .initialize)) = true := by
    decide +kernel
  obtain ⟨h, hh, hc⟩ := any_some this
  simp only [Bool.and_eq_true, decide_eq_true_eq] at hc
  obtain ⟨⟨⟨⟨⟨⟨c1, c2⟩, c3⟩, c4⟩, c5⟩, c6⟩, c7⟩ := hc
  refine ⟨h, hh, fun fuel => ?_⟩
  cases fuel with
  | zero => simp [serverWaitMot, c1, clearError, alive, c2, c3, waitMotLoop]
  | succ fuel =>
    simp only [serverWaitMot, c1, clearError, alive, c2, c3, waitMotLoop, c4, c5]
    have hp : Region.parse b!"0" = .ok ⟨1, some (.special 0), 0⟩ := by decide +kernel
    simp [hp]
    exact key _ _ _ _ _ c6 c7

example : ((Demo.server 4 b!"@@TRAX:initialize \"0\" \n@@TRAX:frame \"file:///a.jpg\" \n").any fun h =>
    decide ((readAll h.stream).mtype = some .frame)) = true := by decide +kernel

/-! ## C59: what the server returns -/

/-- The images are those of the declared channels, with declared formats. -/
def Spec.AsDeclared (m : Metadata) (images : ImageList) : Prop :=
  ∀ c : Int, c = 1 ∨ c = 2 ∨ c = 4 →
    ∃ o, images.get c = .ok o ∧ (o.isSome = true ↔ m.channels &&& UInt32.ofNat c.toNat ≠ 0) ∧
      ∀ img, o = some img → m.images &&& UInt32.ofNat img.type ≠ 0

theorem decodeImages_declared {env : Env} {m : Metadata} {args : List Str} {images : ImageList}
    (h : decodeImages env m channelIndexes args = .ok (some images)) : AsDeclared m images := by
  obtain ⟨hlen, hk⟩ := decodeImages_ok env m _ _ _ h
  have key : ∀ (i : Nat) (c : Int), channelIndexes[i]? = some i → ImageList.channelIndex c = i → i < 3 →
      ImageList.channelId i = UInt32.ofNat c.toNat → ∃ o, images.get c = .ok o ∧ (o.isSome = true ↔ m.channels &&& UInt32.ofNat c.toNat ≠ 0) ∧
      ∀ img, o = some img → m.images &&& UInt32.ofNat img.type ≠ 0 := by
    intro i c hi hc hlt hid
    obtain ⟨h1, h2⟩ := hk i i hi
    have hget : ∀ o, images[i]? = some o → images.get c = .ok o := by
      intro o ho
      unfold ImageList.get
      rw [hc]
      dsimp only
      rw [if_neg (by omega)]
      simp [ho]
    rw [hid] at h1 h2
    cases hs : supports m.channels (UInt32.ofNat c.toNat) with
    | false =>
      refine ⟨none, hget _ (h1 hs), ?_, nofun⟩
      simpa [supports] using hs
    | true =>
      obtain ⟨img, h3, h4⟩ := h2 hs
      refine ⟨some img, hget _ h3, ?_, ?_⟩
      · simpa [supports] using hs
      · rintro img' ⟨⟩
        simpa [supports] using h4
  rintro c (rfl | rfl | rfl)
  · exact key 0 1 rfl rfl (by decide) rfl
  · exact key 1 2 rfl rfl (by decide) rfl
  · exact key 2 4 rfl rfl (by decide) rfl

/-- **C59.** Whatever the peer sent: when a wait of the server returns initialize or frame, the image list has images for
exactly the declared channels, all of declared formats. -/
theorem C59_images_as_declared (env : Env) (h : Handle) (props : Option Properties) (w : WaitResult)
    (hret : w.ret = TRAX_INITIALIZE ∨ w.ret = TRAX_FRAME)
    (hw : h.serverWaitSot env props = .ok w ∨ ∃ fuel, h.serverWaitMot env fuel props = some (.ok w)) :
    ∃ images, w.images = some images ∧ AsDeclared h.metadata images := by
  rcases hw with hw | ⟨fuel, hw⟩
  · unfold serverWaitSot at hw
    split at hw
    · cases hw
    dsimp only at hw
    split at hw
    · cases hw; rcases hret with h | h <;> cases h
    split at hw
    · cases hw; rcases hret with h | h <;> cases h
    obtain ⟨count, -, hw⟩ := bind_eq_ok hw
    split at hw
    · split at hw
      · cases hw; rcases hret with h | h <;> cases h
      · obtain ⟨images, hi, hw⟩ := map_eq_ok hw
        cases images with
        | none => cases hw; rcases hret with h | h <;> cases h
        | some images => cases hw; exact ⟨images, rfl, decodeImages_declared hi⟩
    · split at hw <;> (cases hw; rcases hret with h | h <;> cases h)
    · split at hw
      · cases hw; rcases hret with h | h <;> cases h
      · obtain ⟨images, hi, hw⟩ := bind_eq_ok hw
        cases images with
        | none => cases hw; rcases hret with h | h <;> cases h
        | some images =>
          dsimp only at hw
          split at hw
          · cases hw
          · obtain ⟨parsed, -, hw⟩ := map_eq_ok hw
            split at hw
            · cases hw; rcases hret with h | h <;> cases h
            · cases hw; exact ⟨images, rfl, decodeImages_declared hi⟩
    · cases hw; rcases hret with h | h <;> cases h
  · obtain ⟨-, ⟨ha, rfl⟩ | ⟨ha, count, hc, hw⟩⟩ := serverWaitMot_ok hw
    · rcases hret with h | h <;> cases h
    · obtain ⟨i', o', h', h1, h2, h3, h4, h5, h6, h7⟩ := waitMotLoop_ok env count props fuel _ _ _ _ hw
      rcases h7 with ⟨e, rfl⟩ | ⟨p, hf⟩ | ⟨msg, images, -, -, hi, hf⟩
      · rcases hret with h | h <;> cases h
      · obtain ⟨l, -, rfl⟩ := finishMot_ok hf
        rcases hret with h | h <;> cases h
      · obtain ⟨l, -, rfl⟩ := finishMot_ok hf
        have hm : h'.metadata = h.metadata := h1.3
        rw [hm] at hi
        exact ⟨images, rfl, decodeImages_declared hi⟩

/-- The result of a wait, for examples. -/
def Demo.waitMot (input : Str) : Option WaitResult :=
  (Demo.server 4 input).bind fun h => (h.serverWaitMot Demo.env 9 (some Properties.create)).bind fun o =>
    match o with
    | .ok w => some w
    | _ => none

@[inherit_doc Demo.waitMot] def Demo.waitSot (input : Str) : Option WaitResult :=
  (Demo.server 3 input).bind fun h => match h.serverWaitSot Demo.env (some Properties.create) with
    | .ok w => some w
    | _ => none

example : (Demo.waitMot b!"@@TRAX:initialize \"1,2,3,4\" \n@@TRAX:frame \"file:///a.jpg\" \n").map (fun w => (w.ret, w.images)) =
    some (TRAX_INITIALIZE, some Demo.images) := by decide +kernel

example : (Demo.waitSot b!"@@TRAX:initialize \"file:///a.jpg\" \"1,2,3,4\" \n").map (fun w => (w.ret, w.images)) =
    some (TRAX_INITIALIZE, some Demo.images) := by decide +kernel

/-- An image of a format that was not declared (URL) is refused. -/
example : (Demo.waitMot b!"@@TRAX:frame \"http://a\" \n").map (fun w => (w.ret, w.images)) = some (TRAX_ERROR, none) := by decide +kernel

/-! ## C60: initialize and frame -/

theorem buildObjects_length (env : Env) : ∀ (objs : List (Option Region × Properties)) (l : ObjList),
    buildObjects env objs = .ok l → l.length = objs.length := by
  intro objs
  induction objs with
  | nil => intro l h; cases h; rfl
  | cons e rest ih =>
    intro l h
    obtain ⟨r, p⟩ := e
    simp only [buildObjects] at h
    obtain ⟨c, -, h'⟩ := bind_eq_ok h
    cases r with
    | none => cases h'
    | some r =>
      obtain ⟨t, ht, hl⟩ := map_eq_ok h'
      rw [← hl, List.length_cons, List.length_cons, ih t ht]

/-- **C60, multi-object interface.** Whatever the peer sent: if a wait reports initialize, then there is at least
one new object and no object is tracked beside the new ones; if it reports frame, then there are no
new objects, or others are tracked beside them. In both cases the tracked objects are those before plus the new ones, or
just the new ones. -/
theorem C60_initialize_or_frame_partial (env : Env) (fuel : Nat) (h : Handle) (props : Option Properties) (w : WaitResult)
    (hw : h.serverWaitMot env fuel props = some (.ok w)) :
    let new := (w.objects.getD []).length
    (w.ret = TRAX_INITIALIZE → 0 < new ∧ w.handle.objects = new) ∧
    (w.ret = TRAX_FRAME → 0 < new → new < w.handle.objects) ∧
    (w.ret = TRAX_INITIALIZE ∨ w.ret = TRAX_FRAME → w.handle.objects = h.objects + new ∨ w.handle.objects = new) := by
  obtain ⟨-, ⟨ha, rfl⟩ | ⟨ha, count, hc, hw⟩⟩ := serverWaitMot_ok hw
  · exact ⟨nofun, nofun, by rintro (h | h) <;> cases h⟩
  · obtain ⟨i', o', h', h1, h2, h3, h4, h5, h6, h7⟩ := waitMotLoop_ok env count props fuel _ _ _ _ hw
    rcases h7 with ⟨e, rfl⟩ | ⟨p, hf⟩ | ⟨msg, images, hio, -, hi, hf⟩
    · exact ⟨nofun, nofun, by rintro (h | h) <;> cases h⟩
    · obtain ⟨l, -, rfl⟩ := finishMot_ok hf
      exact ⟨nofun, nofun, by rintro (h | h) <;> cases h⟩
    · obtain ⟨l, hl, rfl⟩ := finishMot_ok hf
      have hlen : ((if o'.length = 0 then none else some l : Option ObjList).getD []).length = o'.length := by
        split
        · next h0 => simp [h0]
        · simpa using buildObjects_length env _ _ hl
      dsimp only
      rw [hlen]
      have hobj : h'.objects = h.objects ∨ h'.objects = 0 := by
        rcases h3 with h3 | ⟨h3, -⟩
        · exact .inl h3
        · exact .inr h3
      have hinit : 0 < o'.length → i' = true := by
        intro hpos
        apply h4
        rintro rfl
        simp at hpos
      refine ⟨?_, ?_, ?_⟩
      · intro hr
        split at hr
        · cases hr
        · next hcond =>
          have hc1 : i' = true := by by_contra hn; exact hcond (.inl hn)
          have hc2 : h'.objects = 0 := by by_contra hn; exact hcond (.inr (by omega))
          have : o'.length ≠ 0 := fun h => hio ⟨hc1, h⟩
          omega
      · intro hr hpos
        split at hr
        · next hcond =>
          rcases hcond with hn | hn
          · exact absurd (hinit hpos) hn
          · omega
        · cases hr
      · intro _
        omega

example : (Demo.waitMot b!"@@TRAX:frame \"file:///a.jpg\" \n").map (fun w => (w.ret, w.objects)) = some (TRAX_FRAME, none) := by decide +kernel

example : ((Demo.waitMot b!"@@TRAX:initialize \"1,2,3,4\" \n@@TRAX:frame \"file:///a.jpg\" \n@@TRAX:initialize \"1,2,3,4\" \n@@TRAX:frame \"file:///a.jpg\" \n").bind
    fun w => match w.handle.serverWaitMot Demo.env 9 none with
      | some (.ok w) => some (w.ret, (w.objects.getD []).length, w.handle.objects)
      | _ => none) = some (TRAX_FRAME, 1, 2) := by decide +kernel

/-- **C60 fails** for the single-object interface when the text of the region is empty: initialize is reported
without a region. -/
theorem C60_no_region_false :
    (Demo.waitSot b!"@@TRAX:initialize \"file:///a.jpg\" \"\" \n").map (fun w => (w.ret, w.region, w.handle.objects)) =
      some (TRAX_INITIALIZE, none, 1) := by decide +kernel

/-- **C60, single-object interface.** initialize is reported only for an initialize message, frame only
for a frame message; initialize comes with a region unless its text was empty (or could not be decoded, in which case
the wait fails). -/
theorem C60_sot_partial (env : Env) (h : Handle) (props : Option Properties) (w : WaitResult) (hw : h.serverWaitSot env props = .ok w) :
    (w.ret = TRAX_INITIALIZE → h.stream.read.1.mtype = some .initialize ∧ w.handle.objects = 1) ∧
    (w.ret = TRAX_FRAME → h.stream.read.1.mtype = some .frame ∧ w.handle.objects = h.objects ∧ w.region = none) := by
  unfold serverWaitSot at hw
  split at hw
  · cases hw
  dsimp only at hw
  split at hw
  · cases hw; exact ⟨nofun, nofun⟩
  split at hw
  · cases hw; exact ⟨nofun, nofun⟩
  obtain ⟨count, -, hw⟩ := bind_eq_ok hw
  split at hw
  · next ht =>
    split at hw
    · cases hw; exact ⟨nofun, nofun⟩
    · obtain ⟨images, hi, hw⟩ := map_eq_ok hw
      cases images with
      | none => cases hw; exact ⟨nofun, nofun⟩
      | some images => cases hw; exact ⟨nofun, fun _ => ⟨ht, rfl, rfl⟩⟩
  · split at hw <;> (cases hw; exact ⟨nofun, nofun⟩)
  · next ht =>
    split at hw
    · cases hw; exact ⟨nofun, nofun⟩
    · obtain ⟨images, hi, hw⟩ := bind_eq_ok hw
      cases images with
      | none => cases hw; exact ⟨nofun, nofun⟩
      | some images =>
        dsimp only at hw
        split at hw
        · cases hw
        · obtain ⟨parsed, -, hw⟩ := map_eq_ok hw
          split at hw
          · cases hw; exact ⟨nofun, nofun⟩
          · cases hw; exact ⟨fun _ => ⟨ht, rfl⟩, nofun⟩
  · cases hw; exact ⟨nofun, nofun⟩

/-! ## C61: modes -/

/-- **C61.** Single-object calls are refused on a live version 4 server without touching the stream; a client refuses
objects beyond one unless the tracker supports multiple objects, and refuses new objects in a frame before
version 4, each time without touching the stream or the count of tracked objects. -/
theorem C61_modes (env : Env) (h : Handle) (ha : h.isAlive = true) :
    (h.server = true → h.version ≥ 4 → ∀ region props,
      (∃ h', h.serverReplySot region props = .ok (TRAX_ERROR, h') ∧ h'.stream = h.stream ∧ h'.objects = h.objects) ∧
      (∃ w, h.serverWaitSot env props = .ok w ∧ w.ret = TRAX_ERROR ∧ w.handle.stream = h.stream ∧ w.handle.objects = h.objects ∧ w.props = props)) ∧
    (h.server = false → h.isMulti = false → ∀ images (objects : ObjList) props,
      (objects.length > 1 → ∃ h', h.clientInitialize env images objects props = .ok (TRAX_ERROR, h') ∧ h'.stream = h.stream ∧ h'.objects = h.objects) ∧
      (h.objects + objects.length > 1 → 0 < objects.length → ∃ h', h.clientFrame env images (some objects) props = .ok (TRAX_ERROR, h') ∧
        h'.stream = h.stream ∧ h'.objects = h.objects)) ∧
    (h.server = false → h.version < 4 → ∀ images (objects : ObjList) props, 0 < objects.length →
      ∃ h', h.clientFrame env images (some objects) props = .ok (TRAX_ERROR, h') ∧ h'.stream = h.stream ∧ h'.objects = h.objects) := by
  have ha' : h.terminated = false := by simpa [isAlive, alive] using ha
  refine ⟨?_, ?_, ?_⟩
  · intro hs hv region props
    constructor
    · refine ⟨h.clearError.setError b!"Invalid mode", ?_, rfl, rfl⟩
      simp [serverReplySot, hs, alive, clearError, ha', isV4, hv]
    · refine ⟨⟨TRAX_ERROR, none, none, none, props, h.clearError.setError b!"Invalid mode"⟩, ?_, rfl, rfl, rfl, rfl⟩
      simp [serverWaitSot, hs, alive, clearError, ha', isV4, hv]
  · intro hs hm images objects props
    constructor
    · intro hlen
      have hm' : h.clearError.isMulti = false := hm
      refine ⟨h.clearError.setError b!"Too many objects given", ?_, rfl, rfl⟩
      unfold clientInitialize
      rw [if_neg (by simp [hs])]
      dsimp only
      rw [if_neg (by simp [alive, clearError, ha']), if_neg (by omega), if_pos ⟨by simp [hm'], hlen⟩]
    · intro hlen hpos
      by_cases hv : h.version ≥ 4
      · refine ⟨h.clearError.setError b!"Invalid mode", ?_, rfl, rfl⟩
        unfold clientFrame
        rw [if_neg (by simp [hs])]
        dsimp only
        rw [if_neg (by simp [alive, clearError, ha']), if_pos (by simpa [isV4, clearError] using hv), if_pos]
        exact ⟨hlen, by simpa [isMulti, clearError] using hm⟩
      · refine ⟨h.clearError.setError b!"Unable to add new objects", ?_, rfl, rfl⟩
        unfold clientFrame
        rw [if_neg (by simp [hs])]
        dsimp only
        rw [if_neg (by simp [alive, clearError, ha']), if_neg (by simpa [isV4, clearError] using hv), if_pos (by simpa using hpos)]
  · intro hs hv images objects props hpos
    refine ⟨h.clearError.setError b!"Unable to add new objects", ?_, rfl, rfl⟩
    unfold clientFrame
    rw [if_neg (by simp [hs])]
    dsimp only
    rw [if_neg (by simp [alive, clearError, ha']), if_neg (by simp [isV4, clearError]; omega), if_pos (by simpa using hpos)]

example : ((Demo.server 4 []).map fun h => (h.isAlive, h.server, h.version)) = some (true, true, 4) := by decide +kernel
example : ((Demo.client 3 []).map fun h => (h.isAlive, h.server, h.version, h.isMulti)) = some (true, false, 3, false) := by decide +kernel

/-! ## C62: the reason -/

theorem copyAll_get {p d : Properties} (hp : p.WF) (hd : d.WF) {k : Str} (hk : NoNul k) :
    (copyAll p d).get k = (p.get k).or (d.get k) :=
  (PropRep.append (p := p) (d := d) (a := p.get) (b := d.get) ⟨hp, fun _ _ => rfl⟩ ⟨hd, fun _ _ => rfl⟩ true).2 k hk

theorem quit_deliverable {reason : Str} (hr : Plain reason) : Deliverable [] (quitProperties (some reason)).enumerate := by
  rw [quitProperties_enumerate]
  refine ⟨by simp, by simp, ?_, ?_⟩
  · intro kv hkv
    simp at hkv; subst hkv; exact (by decide : ValidKey b!"trax.reason")
  · intro kv hkv
    simp at hkv; subst hkv
    rw [cstr_of_noNul (plain_noNul hr)]; exact hr

/-- The bytes that `trax_terminate` adds. -/
theorem terminate_sent (h : Handle) (ha : h.isAlive = true) (hout : h.stream.out.Reliable) (reason : Str) (hr : Plain reason) :
    (h.terminate (some reason)).2.stream.out.sent = h.stream.out.sent ++ wire .quit [] (quitProperties (some reason)).enumerate := by
  have := ((C52_terminate_once Demo.env h ha hout (some reason) (by rintro s ⟨⟩; exact plain_noNul hr)).2 [] [] _ (.nil _)).1
  rw [this, quitProperties_enumerate]
  simp [cstr_of_noNul (plain_noNul hr)]

/-- **C62, what holds.** The server terminates with a reason; if the next thing that arrives at the client is what
`trax_terminate` sent, and the client tracks at least one object, then its wait reports quit and the reason
is in the properties. The same holds for a client that terminates and a server with the single-object
interface. -/
theorem C62_reason_partial (env : Env) (sender receiver : Handle) (hs : sender.isAlive = true) (hout : sender.stream.out.Reliable)
    (hr : receiver.isAlive = true) (reason : Str) (hreason : Plain reason) (kvs : List (Str × Str)) (news : Str) (rest : List InEv)
    (hnew : (sender.terminate (some reason)).2.stream.out.sent = sender.stream.out.sent ++ news)
    (hin : receiver.stream.input = bytes news ++ rest) :
    (receiver.server = false → 0 < receiver.objects →
      ∃ w p, receiver.clientWait env (some (Properties.ofPairs kvs)) = .ok w ∧ w.ret = TRAX_QUIT ∧ w.props = some p ∧
        p.get b!"trax.reason" = some reason) ∧
    (receiver.server = true → receiver.version < 4 → receiver.metadata.channels.toNat < 2 ^ 31 →
      ∃ w p, receiver.serverWaitSot env (some (Properties.ofPairs kvs)) = .ok w ∧ w.ret = TRAX_QUIT ∧ w.props = some p ∧
        p.get b!"trax.reason" = some reason) := by
  have hin' : receiver.stream.input = bytes (wire .quit [] (quitProperties (some reason)).enumerate) ++ rest := by
    rw [terminate_sent sender hs hout reason hreason] at hnew
    rw [hin, List.append_cancel_left hnew]
  have hwf : (quitProperties (some reason)).WF := Properties.wf_set Properties.wf_create _ _
  have hread := receiver.stream.read_wire .quit [] _ hwf (quit_deliverable hreason) rest hin'
  have ha : receiver.terminated = false := by simpa [isAlive, alive] using hr
  have hget : (copyAll (quitProperties (some reason)) (Properties.ofPairs kvs)).get b!"trax.reason" = some reason := by
    rw [copyAll_get hwf (Properties.wf_ofPairs _) (by decide)]
    have : (quitProperties (some reason)).get b!"trax.reason" = some reason := by
      unfold quitProperties
      rw [Properties.get_set Properties.wf_create, if_pos rfl, cstr_of_noNul (plain_noNul hreason)]
    rw [this]; rfl
  constructor
  · intro hsrv hobj
    obtain ⟨k, hk⟩ : ∃ k, receiver.objects = k + 1 := ⟨receiver.objects - 1, by omega⟩
    refine ⟨⟨TRAX_QUIT, none, none, none, _, { receiver with
      terminated := true, stream := { receiver.stream with mtype := some .quit, input := rest } }⟩, _, ?_, rfl, rfl, hget⟩
    simp only [clientWait, hsrv, alive, ha, hk, clientWaitLoop, hread]
    rfl
  · intro hsrv hv hch
    refine ⟨⟨TRAX_QUIT, none, none, none, _, { receiver.clearError with
      terminated := true, stream := { receiver.stream with mtype := some .quit, input := rest } }⟩, _, ?_, rfl, rfl, hget⟩
    have hv' : ¬ 4 ≤ receiver.version := by omega
    simp [serverWaitSot, hsrv, alive, clearError, ha, isV4, count_eq, hread, hv']
    rw [if_pos (by simpa using hch)]
    rfl

/-- The situation of the theorem: the client hears of the end while it waits for a reply. -/
example : ((Demo.client 4 []).bind fun c => (runCalls Demo.env 9 c [.clientInitialize Demo.images [Demo.target] none]).bind fun r =>
    (Demo.serverStart 4).map fun s =>
      let s' := (s.terminate (some b!"out of memory")).2
      match ({ r.2 with stream := { r.2.stream with input := bytes (s'.stream.out.sent.drop s.stream.out.sent.length) } }).clientWait
        Demo.env (some Properties.create) with
      | .ok w => (w.ret, w.props.bind fun p => p.get b!"trax.reason")
      | _ => (0, none)) = some (TRAX_QUIT, some b!"out of memory") := by decide +kernel

/-- **C62 fails** for the multi-object interface of the server (only properties without the prefix `trax.` are copied), and for a client that tracks
nothing (it does not read). -/
theorem C62_reason_false :
    (Demo.waitMot b!"@@TRAX:quit \"trax.reason=done\" \"a=b\" \n").map (fun w => (w.ret, w.props.map Properties.enumerate)) =
      some (TRAX_QUIT, some [(b!"a", b!"b")]) ∧
    ((Demo.client 4 b!"@@TRAX:quit \"trax.reason=done\" \n").map fun h => (h.clientWait Demo.env (some Properties.create)).map fun w => w.ret) =
      some (.ok TRAX_ERROR) := by
  decide +kernel

end Trax
