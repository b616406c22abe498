import Verif.Props.Handshake

/-!
# Property theorem C110: the parameters of a handle
-/

namespace Trax

open Spec Handle
open Region (bind_eq_ok map_eq_ok)

/-- Everything that was agreed at the start. -/
def SameAgreement (h h' : Handle) : Prop := h'.server = h.server ∧ h'.version = h.version ∧ h'.metadata = h.metadata

theorem clientFrame_agreement {env : Env} {h : Handle} {images : ImageList} {objects : Option ObjList} {props : Option Properties}
    {r : Int × Handle} (hr : h.clientFrame env images objects props = .ok r) : SameAgreement h r.2 := by
  unfold clientFrame at hr
  dsimp only at hr
  split at hr
  · cases hr
  split at hr
  · cases hr; exact ⟨rfl, rfl, rfl⟩
  split at hr
  · split at hr
    · cases hr; exact ⟨rfl, rfl, rfl⟩
    · obtain ⟨s, -, hr⟩ := bind_eq_ok hr
      obtain ⟨a, -, rfl⟩ := map_eq_ok hr
      cases a <;> exact ⟨rfl, rfl, rfl⟩
  · split at hr
    · cases hr; exact ⟨rfl, rfl, rfl⟩
    · obtain ⟨a, -, rfl⟩ := map_eq_ok hr
      cases a <;> exact ⟨rfl, rfl, rfl⟩

theorem clientInitialize_agreement {env : Env} {h : Handle} {images : ImageList} {objects : ObjList} {props : Option Properties}
    {r : Int × Handle} (hr : h.clientInitialize env images objects props = .ok r) : SameAgreement h r.2 := by
  unfold clientInitialize at hr
  dsimp only at hr
  split at hr
  · cases hr
  split at hr
  · cases hr; exact ⟨rfl, rfl, rfl⟩
  split at hr
  · cases hr; exact ⟨rfl, rfl, rfl⟩
  split at hr
  · cases hr; exact ⟨rfl, rfl, rfl⟩
  split at hr
  · obtain ⟨h1, h2, h3⟩ := clientFrame_agreement hr
    split at hr
    · next hp => rw [if_pos hp] at h1 h2 h3; exact ⟨h1, h2, h3⟩
    · next hp => rw [if_neg hp] at h1 h2 h3; exact ⟨h1, h2, h3⟩
  · split at hr
    · cases hr
    · split at hr
      · cases hr
      · obtain ⟨a, -, hr⟩ := bind_eq_ok hr
        cases a with
        | none => cases hr; exact ⟨rfl, rfl, rfl⟩
        | some a =>
          obtain ⟨d, -, rfl⟩ := map_eq_ok hr
          exact ⟨rfl, rfl, rfl⟩

theorem replyLoop_agreement (objs : ObjList) : ∀ {h : Handle} {r : Int × Handle}, replyLoop h objs = .ok r → SameAgreement h r.2 := by
  induction objs with
  | nil => intro h r hr; cases hr; exact ⟨rfl, rfl, rfl⟩
  | cons o rest ih =>
    intro h r hr
    obtain ⟨d, -, hr⟩ := bind_eq_ok hr
    cases d with
    | none => cases hr; exact ⟨rfl, rfl, rfl⟩
    | some t => obtain ⟨h1, h2, h3⟩ := ih (show replyLoop _ rest = .ok r from hr); exact ⟨h1, h2, h3⟩

/-- No call changes what was agreed at the start. -/
theorem call_agreement {env : Env} {fuel : Nat} {h h' : Handle} {c : Call} {ret : Int} (hc : h.call env fuel c = some (.ok (ret, h'))) :
    SameAgreement h h' := by
  cases c with
  | clientWait props =>
    obtain ⟨w, hw, e⟩ := map_eq_ok (Option.some.inj hc)
    cases e
    obtain ⟨h1, -⟩ := clientWait_frame env h props w hw
    exact ⟨h1.1, h1.2, h1.3⟩
  | clientInitialize i o p => exact clientInitialize_agreement (Option.some.inj hc)
  | clientFrame i o p => exact clientFrame_agreement (Option.some.inj hc)
  | serverWaitSot props =>
    obtain ⟨w, hw, e⟩ := map_eq_ok (Option.some.inj hc)
    cases e
    obtain ⟨h1, -⟩ := serverWaitSot_frame env h props w hw
    exact ⟨h1.1, h1.2, h1.3⟩
  | serverWaitMot props =>
    obtain ⟨o, ho, e⟩ := Option.map_eq_some_iff.mp hc
    obtain ⟨w, hw, e⟩ := map_eq_ok e
    cases e
    subst hw
    obtain ⟨h1, -⟩ := serverWaitMot_frame env fuel h props w ho
    exact ⟨h1.1, h1.2, h1.3⟩
  | serverReplySot r p =>
    have hc := Option.some.inj hc
    unfold serverReplySot at hc
    dsimp only at hc
    split at hc
    · cases hc
    split at hc
    · cases hc; exact ⟨rfl, rfl, rfl⟩
    split at hc
    · cases hc; exact ⟨rfl, rfl, rfl⟩
    · obtain ⟨d, -, e⟩ := map_eq_ok hc
      cases d <;> cases e <;> exact ⟨rfl, rfl, rfl⟩
  | serverReplyMot o =>
    have hc := Option.some.inj hc
    unfold serverReplyMot at hc
    dsimp only at hc
    split at hc
    · cases hc
    split at hc
    · cases hc; exact ⟨rfl, rfl, rfl⟩
    split at hc
    · cases hc; exact ⟨rfl, rfl, rfl⟩
    split at hc
    · cases hc; exact ⟨rfl, rfl, rfl⟩
    · exact replyLoop_agreement o hc
  | terminate r =>
    have hc := Outcome.ok.inj (Option.some.inj hc)
    unfold terminate at hc
    dsimp only at hc
    split at hc <;> cases hc <;> exact ⟨rfl, rfl, rfl⟩
  | setParameter => cases hc; exact ⟨rfl, rfl, rfl⟩
  | getParameter => cases hc; exact ⟨rfl, rfl, rfl⟩
  | getError => cases hc; exact ⟨rfl, rfl, rfl⟩
  | isAlive => cases hc; exact ⟨rfl, rfl, rfl⟩

theorem calls_agreement {env : Env} {h h' : Handle} {cs : List Call} {rets : List Int} (hc : Calls env h cs rets h') : SameAgreement h h' := by
  induction hc with
  | nil h => exact ⟨rfl, rfl, rfl⟩
  | cons fuel hc hs ih =>
    obtain ⟨h1, h2, h3⟩ := call_agreement hc
    exact ⟨ih.1.trans h1, ih.2.1.trans h2, ih.2.2.trans h3⟩

/-- **C110, for the version, the side, the kind of connection, and (on the server with version 4) the multi-object mode.**
After the introduction both sides read the same version and multi-object mode, and each its own side; this does not change in
any history of calls, as long as the handle is alive; other parameters are reported as unknown and `*value` is left as it was.
After termination every query is an error. -/
theorem C110_parameters_partial (m : Metadata) (kvs : List (Str × Str)) (version : Int) (hm : Introducible m kvs version)
    (junk : UInt32) (stream : Stream) (hout : stream.out.Reliable) :
    ∃ s news, serverSetup junk m stream version = .ok s ∧ s.stream.out.sent = stream.out.sent ++ news ∧
      (∀ env cs rets s', Calls env s cs rets s' → ∀ socket,
        (s'.isAlive = true →
          s'.getParameter socket 0 = (1, some version) ∧ s'.getParameter socket 1 = (1, some 0) ∧
          s'.getParameter socket 2 = (1, some (if socket then 1 else 0)) ∧
          (version = 4 → s'.getParameter socket 5 = (1, some (if m.flags &&& 1 ≠ 0 then 1 else 0))) ∧
          ∀ id, id ∉ [0, 1, 2, 5] → s'.getParameter socket id = (0, none)) ∧
        (s'.isAlive = false → ∀ id, s'.getParameter socket id = (-1, none))) ∧
      ∀ (mt : Option MsgType) (rest : List InEv) (out : Writer),
        ∃ c, clientSetup ⟨mt, bytes news ++ rest, out⟩ = .ok (some c) ∧
          ∀ env cs rets c', Calls env c cs rets c' → ∀ socket,
            (c'.isAlive = true →
              c'.getParameter socket 0 = (1, some version) ∧ c'.getParameter socket 1 = (1, some 1) ∧
              c'.getParameter socket 2 = (1, some (if socket then 1 else 0)) ∧
              c'.getParameter socket 5 = (1, some (if version = 4 ∧ m.flags &&& 1 ≠ 0 then 1 else 0)) ∧
              ∀ id, id ∉ [0, 1, 2, 5] → c'.getParameter socket id = (0, none)) ∧
            (c'.isAlive = false → ∀ id, c'.getParameter socket id = (-1, none)) := by
  obtain ⟨s, news, e1, e2, s1, -, s2, -, -, -, -, -, -, s3, hc⟩ := C31_handshake_partial m kvs version hm junk stream hout
  have hmulti : ∀ {h h' : Handle}, SameAgreement h h' → h'.isMulti = h.isMulti := by
    intro h h' ha; simp only [isMulti, ha.2.2]
  have hother : ∀ (h : Handle) (socket : Bool), h.isAlive = true → ∀ id, id ∉ [0, 1, 2, 5] → h.getParameter socket id = (0, none) := by
    intro h socket ha id hid
    simp only [List.mem_cons, List.not_mem_nil, or_false, not_or] at hid
    unfold getParameter
    rw [if_neg (by simpa [isAlive] using ha), if_neg hid.1, if_neg hid.2.1, if_neg hid.2.2.1, if_neg hid.2.2.2]
  have hdead : ∀ (h : Handle) (socket : Bool), h.isAlive = false → ∀ id, h.getParameter socket id = (-1, none) := by
    intro h socket ha id
    unfold getParameter
    rw [if_pos (by simpa [isAlive] using ha)]
  refine ⟨s, news, e1, e2, fun env cs rets s' hcs socket => ⟨fun ha => ?_, hdead s' socket⟩, fun mt rest out => ?_⟩
  · have hk := calls_agreement hcs
    have ha' : ¬ ¬ s'.alive = true := by simpa [isAlive] using ha
    refine ⟨?_, ?_, ?_, fun h4 => ?_, hother s' socket ha⟩ <;> unfold getParameter <;> rw [if_neg ha']
    · rw [if_pos rfl, hk.2.1, s1]
    · rw [if_neg (by decide), if_pos rfl, hk.1, s2]; rfl
    · rfl
    · rw [if_neg (by decide), if_neg (by decide), if_neg (by decide), if_pos rfl, hmulti hk]
      have := s3 h4
      by_cases hf : m.flags &&& 1 = 0
      · rw [if_neg (by rw [this]; simpa using hf), if_neg (by simpa using hf)]
      · rw [if_pos (this.mpr hf), if_pos hf]
  · obtain ⟨c, c1, c2, -, c3, -, -, -, -, -, -, -, c4, -⟩ := hc mt rest out
    refine ⟨c, c1, fun env cs rets c' hcs socket => ⟨fun ha => ?_, hdead c' socket⟩⟩
    have hk := calls_agreement hcs
    have ha' : ¬ ¬ c'.alive = true := by simpa [isAlive] using ha
    refine ⟨?_, ?_, ?_, ?_, hother c' socket ha⟩ <;> unfold getParameter <;> rw [if_neg ha']
    · rw [if_pos rfl, hk.2.1, c2]
    · rw [if_neg (by decide), if_pos rfl, hk.1, c3]; rfl
    · rfl
    · rw [if_neg (by decide), if_neg (by decide), if_neg (by decide), if_pos rfl, hmulti hk]
      by_cases hf : version = 4 ∧ m.flags &&& 1 ≠ 0
      · rw [if_pos (c4.mpr hf), if_pos hf]
      · rw [if_neg (fun h => hf (c4.mp h)), if_neg hf]

/-- The hypotheses are met, with calls between the introduction and the queries. -/
example : Introducible Demo.metadata [] 1 ∧
    ((Demo.client 4 b!"@@TRAX:state \"0\" \n").bind fun h => runCalls Demo.env 9 h
      [.clientFrame Demo.images none none, .getParameter false 0, .getParameter false 3, .terminate none, .getParameter false 0]).map Prod.fst =
    some [0, 1, 0, 0, -1] := by
  refine ⟨⟨by decide, by decide, by decide, by decide, by decide, by rintro s (h | h | h) <;> cases h; decide, rfl, by decide⟩, ?_⟩
  decide +kernel

/-- **C110, violated.** The parameters for the declared region and image formats (3 and 4) can never be read. A server with
version 3 reports whatever a variable had that was never set: with the value 1 it claims to be in multi-object mode, although
nothing of the kind was declared and the client says otherwise. -/
theorem C110_parameters_false :
    (∀ (h : Handle) (socket : Bool), (h.getParameter socket 3).2 = none ∧ (h.getParameter socket 4).2 = none) ∧
    (∃ s c, serverSetup 1 ⟨2, 1, 1, none, none, none, Properties.create, 0⟩ ⟨none, [], ⟨[], false, [], []⟩⟩ 3 = .ok s ∧
      clientSetup ⟨none, bytes s.stream.out.sent, ⟨[], false, [], []⟩⟩ = .ok (some c) ∧
      s.getParameter false 5 = (1, some 1) ∧ c.getParameter false 5 = (1, some 0)) := by
  constructor
  · intro h socket
    unfold getParameter
    constructor <;> split <;> rfl
  · have h1 : (match serverSetup 1 ⟨2, 1, 1, none, none, none, Properties.create, 0⟩ ⟨none, [], ⟨[], false, [], []⟩⟩ 3 with
        | .ok s => (match clientSetup ⟨none, bytes s.stream.out.sent, ⟨[], false, [], []⟩⟩ with
          | .ok (some c) => decide (s.getParameter false 5 = (1, some 1) ∧ c.getParameter false 5 = (1, some 0))
          | _ => false)
        | _ => false) = true := by decide +kernel
    split at h1
    · next s hs =>
      split at h1
      · next c hc => exact ⟨s, c, hs, hc, of_decide_eq_true h1⟩
      · cases h1
    · cases h1

end Trax
