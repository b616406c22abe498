import Verif.Props.Handshake
import Verif.Spec.ErrorText

/-!
# Property theorems C162: the texts of errors
-/

namespace Trax
open Spec Handle
open Region (bind_eq_ok map_eq_ok)

theorem clientWaitLoop_told (env : Env) (k : Nat) : ∀ (i : Nat) (acc : ObjList) (ret : Int) (props : Option Properties) (h : Handle) (w : WaitResult),
    clientWaitLoop env i acc ret props h k = .ok w → w.handle.error = h.error := by
  induction k with
  | zero => intro i acc ret props h w hw; cases hw; rfl
  | succ k ih =>
    intro i acc ret props h w hw
    simp only [clientWaitLoop] at hw
    split at hw
    · cases hw; rfl
    · split at hw
      · obtain ⟨parsed, -, hw⟩ := bind_eq_ok hw
        split at hw
        · cases hw; rfl
        · obtain ⟨acc', -, hw⟩ := bind_eq_ok hw
          split at hw
          · cases hw
          · exact (ih _ _ _ _ _ _ hw).trans rfl
      · cases hw; rfl
    · split at hw
      · cases hw; rfl
      · cases hw; rfl
    · exact (ih _ _ _ _ _ _ hw).trans rfl

theorem waitMotLoop_told (env : Env) (count : Nat) (props : Option Properties) (fuel : Nat) :
    ∀ (init : Bool) (objs : List (Option Region × Properties)) (h : Handle) (w : WaitResult),
    waitMotLoop env count props fuel init objs h = some (.ok w) → w.ret = TRAX_ERROR ∨ w.handle.error = h.error := by
  have fail : ∀ {objs : List (Option Region × Properties)} {h : Handle} {w : WaitResult}, some (failMot objs props h) = some (.ok w) →
      w.ret = TRAX_ERROR := by
    intro objs h w hw
    rw [failMot_ok (Option.some.inj hw)]
  induction fuel with
  | zero => intro init objs h w hw; cases hw
  | succ fuel ih =>
    intro init objs h w hw
    simp only [waitMotLoop] at hw
    split at hw
    · exact .inl (fail hw)
    · split at hw
      · exact .inl (fail hw)
      · obtain ⟨l, -, rfl⟩ := finishMot_ok (Option.some.inj hw)
        exact .inr rfl
    · split at hw
      · exact .inl (fail hw)
      · split at hw
        · exact .inl (fail hw)
        · obtain ⟨images, -, hw⟩ := bind_eq_ok (Option.some.inj hw)
          cases images with
          | none => exact .inl (fail (congrArg some hw))
          | some images =>
            obtain ⟨l, -, rfl⟩ := finishMot_ok hw
            exact .inr rfl
    · split at hw
      · have := ih _ _ _ _ hw; exact this
      · split at hw
        · split at hw
          · cases hw
          · cases hw
          · split at hw
            · exact .inl (fail hw)
            · have := ih _ _ _ _ hw; exact this
        · exact .inl (fail hw)
    · have := ih _ _ _ _ hw; exact this

theorem replyLoop_told (objs : ObjList) : ∀ {h : Handle} {r : Int × Handle}, replyLoop h objs = .ok r → r.2.error = h.error := by
  induction objs with
  | nil => intro h r hr; cases hr; rfl
  | cons o rest ih =>
    intro h r hr
    obtain ⟨d, -, hr⟩ := bind_eq_ok hr
    cases d with
    | none => cases hr; rfl
    | some t => exact (ih (show replyLoop _ rest = .ok r from hr)).trans rfl

theorem clientFrame_told {env : Env} {h : Handle} {images : ImageList} {objects : Option ObjList} {props : Option Properties}
    {r : Int × Handle} (hr : h.clientFrame env images objects props = .ok r) :
    (r.1 = TRAX_ERROR ∧ r.2.error ≠ .none) ∨ (r.1 = TRAX_OK ∧ r.2.error = .none) := by
  unfold clientFrame at hr
  dsimp only at hr
  split at hr
  · cases hr
  split at hr
  · cases hr; exact .inl ⟨rfl, nofun⟩
  split at hr
  · split at hr
    · cases hr; exact .inl ⟨rfl, nofun⟩
    · obtain ⟨s, -, hr⟩ := bind_eq_ok hr
      obtain ⟨a, -, rfl⟩ := map_eq_ok hr
      cases a
      · exact .inl ⟨rfl, nofun⟩
      · exact .inr ⟨rfl, rfl⟩
  · split at hr
    · cases hr; exact .inl ⟨rfl, nofun⟩
    · obtain ⟨a, -, rfl⟩ := map_eq_ok hr
      cases a
      · exact .inl ⟨rfl, nofun⟩
      · exact .inr ⟨rfl, rfl⟩

theorem clientInitialize_told {env : Env} {h : Handle} {images : ImageList} {objects : ObjList} {props : Option Properties}
    {r : Int × Handle} (hr : h.clientInitialize env images objects props = .ok r) :
    (r.1 = TRAX_ERROR ∧ r.2.error ≠ .none) ∨ (r.1 = TRAX_OK ∧ r.2.error = .none) := by
  unfold clientInitialize at hr
  dsimp only at hr
  split at hr
  · cases hr
  split at hr
  · cases hr; exact .inl ⟨rfl, nofun⟩
  split at hr
  · cases hr; exact .inl ⟨rfl, nofun⟩
  split at hr
  · cases hr; exact .inl ⟨rfl, nofun⟩
  split at hr
  · exact clientFrame_told hr
  · split at hr
    · cases hr
    · split at hr
      · cases hr
      · obtain ⟨a, -, hr⟩ := bind_eq_ok hr
        cases a with
        | none => cases hr; exact .inl ⟨rfl, nofun⟩
        | some a =>
          obtain ⟨d, -, rfl⟩ := map_eq_ok hr
          exact .inr ⟨rfl, rfl⟩

theorem serverWaitSot_told {env : Env} {h : Handle} {props : Option Properties} {w : WaitResult} (hw : h.serverWaitSot env props = .ok w) :
    w.ret = TRAX_ERROR ∨ w.handle.error = .none := by
  unfold serverWaitSot at hw
  split at hw
  · cases hw
  dsimp only at hw
  split at hw
  · cases hw; exact .inl rfl
  split at hw
  · cases hw; exact .inl rfl
  obtain ⟨count, -, hw⟩ := bind_eq_ok hw
  split at hw
  · split at hw
    · cases hw; exact .inl rfl
    · obtain ⟨images, -, hw⟩ := map_eq_ok hw
      split at hw <;> cases hw
      · exact .inl rfl
      · exact .inr rfl
  · split at hw
    · cases hw; exact .inl rfl
    · cases hw; exact .inr rfl
  · split at hw
    · cases hw; exact .inl rfl
    · obtain ⟨images, -, hw⟩ := bind_eq_ok hw
      split at hw
      · cases hw; exact .inl rfl
      · split at hw
        · cases hw
        · obtain ⟨parsed, -, hw⟩ := map_eq_ok hw
          split at hw <;> cases hw
          · exact .inl rfl
          · exact .inr rfl
  · cases hw; exact .inl rfl

/-- The calls other than the wait of the client and the questions leave no text behind when they succeed. -/
theorem call_error {env : Env} {fuel : Nat} {h h' : Handle} {c : Call} {ret : Int} (hc : h.call env fuel c = some (.ok (ret, h')))
    (hw : ∀ p, c ≠ .clientWait p) (ha : ¬ Asks c) : ret = TRAX_ERROR ∨ h'.error = .none := by
  cases c with
  | clientWait p => exact absurd rfl (hw p)
  | clientInitialize i o p => rcases clientInitialize_told (Option.some.inj hc) with h | h; exact .inl h.1; exact .inr h.2
  | clientFrame i o p => rcases clientFrame_told (Option.some.inj hc) with h | h; exact .inl h.1; exact .inr h.2
  | serverWaitSot props =>
    obtain ⟨w, hw, e⟩ := map_eq_ok (Option.some.inj hc)
    cases e
    exact serverWaitSot_told hw
  | serverWaitMot props =>
    obtain ⟨o, ho, e⟩ := Option.map_eq_some_iff.mp hc
    obtain ⟨w, hw, e⟩ := map_eq_ok e
    cases e
    subst hw
    obtain ⟨-, ⟨-, rfl⟩ | ⟨-, count, -, hl⟩⟩ := serverWaitMot_ok ho
    · exact .inl rfl
    · exact waitMotLoop_told env count props fuel _ _ _ _ hl
  | serverReplySot r p =>
    have hc := Option.some.inj hc
    unfold serverReplySot at hc
    dsimp only at hc
    split at hc
    · cases hc
    split at hc
    · cases hc; exact .inl rfl
    split at hc
    · cases hc; exact .inl rfl
    · obtain ⟨d, -, e⟩ := map_eq_ok hc
      cases d <;> cases e
      · exact .inl rfl
      · exact .inr rfl
  | serverReplyMot o =>
    have hc := Option.some.inj hc
    unfold serverReplyMot at hc
    dsimp only at hc
    split at hc
    · cases hc
    split at hc
    · cases hc; exact .inl rfl
    split at hc
    · cases hc; exact .inl rfl
    split at hc
    · cases hc; exact .inl rfl
    · exact .inr (replyLoop_told o hc)
  | terminate r =>
    have hc := Outcome.ok.inj (Option.some.inj hc)
    unfold terminate at hc
    dsimp only at hc
    split at hc <;> cases hc <;> exact .inr rfl
  | setParameter => exact absurd trivial ha
  | getParameter => exact absurd trivial ha
  | getError => exact absurd trivial ha
  | isAlive => exact absurd trivial ha

/-- A call that is not allowed is refused with its text. -/
theorem call_refused (env : Env) (fuel : Nat) (h : Handle) (c : Call) (text : Str) (hs : c.side = some h.server)
    (hr : Refused h.isAlive h.isMulti h.version h.objects c text) :
    h.call env fuel c = some (.ok (TRAX_ERROR, { h with error := .text text })) := by
  obtain ⟨sv, tm, ver, n, e, m, st⟩ := h
  have hm : ∀ e', isMulti ⟨sv, tm, ver, n, e', m, st⟩ = isMulti ⟨sv, tm, ver, n, e, m, st⟩ := fun _ => rfl
  generalize hmu : isMulti ⟨sv, tm, ver, n, e, m, st⟩ = mu at hr hm
  cases c with
  | clientWait p =>
    obtain rfl : false = sv := Option.some.inj hs
    obtain ⟨ha, rfl⟩ := hr
    cases tm with
    | false => cases ha
    | true => rfl
  | clientInitialize i o p =>
    obtain rfl : false = sv := Option.some.inj hs
    rcases hr with ⟨ha, rfl⟩ | ⟨ha, rfl, rfl⟩ | ⟨ha, hmu', hn, rfl⟩
    · cases tm with
      | false => cases ha
      | true => rfl
    · cases tm with
      | true => cases ha
      | false => rfl
    · cases tm with
      | true => cases ha
      | false =>
        show some (clientInitialize env _ i o p) = _
        unfold clientInitialize clearError
        dsimp only
        rw [if_neg (by decide), if_neg (by simp [alive]), if_neg (by omega), if_pos ⟨by rw [hm, hmu']; decide, by omega⟩]
        rfl
  | clientFrame i o p =>
    obtain rfl : false = sv := Option.some.inj hs
    rcases hr with ⟨ha, rfl⟩ | ⟨ha, hv, hmu', hn, rfl⟩ | ⟨ha, hv, hn, rfl⟩
    · cases tm with
      | false => cases ha
      | true => rfl
    · cases tm with
      | true => cases ha
      | false =>
        show some (clientFrame env _ i o p) = _
        unfold clientFrame clearError
        dsimp only at hv hn ⊢
        rw [if_neg (by decide), if_neg (by simp [alive]), if_pos (by simp [isV4]; omega), if_pos ⟨by omega, by rw [hm, hmu']; decide⟩]
        rfl
    · cases tm with
      | true => cases ha
      | false =>
        show some (clientFrame env _ i o p) = _
        unfold clientFrame clearError
        dsimp only at hv hn ⊢
        rw [if_neg (by decide), if_neg (by simp [alive]), if_neg (by simp [isV4]; omega), if_pos (by omega)]
        rfl
  | serverWaitSot p =>
    obtain rfl : true = sv := Option.some.inj hs
    rcases hr with ⟨ha, rfl⟩ | ⟨ha, hv, rfl⟩
    · cases tm with
      | false => cases ha
      | true => rfl
    · cases tm with
      | true => cases ha
      | false =>
        show some ((serverWaitSot env _ p).map _) = _
        unfold serverWaitSot clearError
        dsimp only at hv ⊢
        rw [if_neg (by decide), if_neg (by simp [alive]), if_pos (by simp [isV4]; omega)]
        rfl
  | serverWaitMot p =>
    obtain rfl : true = sv := Option.some.inj hs
    obtain ⟨ha, rfl⟩ := hr
    cases tm with
    | false => cases ha
    | true => rfl
  | serverReplySot r p =>
    obtain rfl : true = sv := Option.some.inj hs
    rcases hr with ⟨ha, rfl⟩ | ⟨ha, hv, rfl⟩
    · cases tm with
      | false => cases ha
      | true => rfl
    · cases tm with
      | true => cases ha
      | false =>
        show some (serverReplySot _ r p) = _
        unfold serverReplySot clearError
        dsimp only at hv ⊢
        rw [if_neg (by decide), if_neg (by simp [alive]), if_pos (by simp [isV4]; omega)]
        rfl
  | serverReplyMot o =>
    obtain rfl : true = sv := Option.some.inj hs
    rcases hr with ⟨ha, rfl⟩ | ⟨ha, hmu', hn, rfl⟩ | ⟨ha, ho, hn, rfl⟩
    · cases tm with
      | false => cases ha
      | true => rfl
    · cases tm with
      | true => cases ha
      | false =>
        show some (serverReplyMot _ o) = _
        unfold serverReplyMot clearError
        dsimp only at hn ⊢
        rw [if_neg (by decide), if_neg (by simp [alive]), if_pos ⟨by rw [hm, hmu']; decide, hn⟩]
        rfl
    · cases tm with
      | true => cases ha
      | false =>
        show some (serverReplyMot _ o) = _
        unfold serverReplyMot clearError
        dsimp only at hn ⊢
        rw [if_neg (by decide), if_neg (by simp [alive]), if_neg ?_, if_pos hn]
        · rfl
        · rintro ⟨h1, h2⟩
          rcases ho with ho | ho
          · exact h1 (by rw [hm, ho])
          · exact h2 ho
  | terminate r => cases hs
  | setParameter => cases hs
  | getParameter => cases hs
  | getError => cases hs
  | isAlive => cases hs

/-- **C162, what holds.** For every handle and call: a call that is not allowed fails, changes nothing else, and leaves the text that says why;
a call of the client that sends leaves a text exactly when it fails; no call other than the client's wait leaves a text when it succeeds;
and asking does not change the text. Missing from the full claim: the wait of the client, failures in what the peer sends or in the objects
of a reply, and the texts with numbers in them (see the theorems below). -/
theorem C162_reported_partial (env : Env) (fuel : Nat) (h : Handle) (c : Call) :
    (∀ text, c.side = some h.server → Refused h.isAlive h.isMulti h.version h.objects c text →
      ∃ h', h.call env fuel c = some (.ok (TRAX_ERROR, h')) ∧ h'.getError = .text text ∧ h'.stream = h.stream ∧ h'.objects = h.objects) ∧
    (∀ ret h', h.call env fuel c = some (.ok (ret, h')) →
      (Sends c → (ret = TRAX_ERROR ↔ h'.getError ≠ .none)) ∧
      ((∀ p, c ≠ .clientWait p) → ¬ Asks c → ret ≠ TRAX_ERROR → h'.getError = .none) ∧
      (Asks c → h'.getError = h.getError)) := by
  refine ⟨fun text hs hr => ⟨_, call_refused env fuel h c text hs hr, rfl, rfl, rfl⟩, fun ret h' hc => ⟨fun hs => ?_, fun hw ha hr => ?_, fun ha => ?_⟩⟩
  · have key : (ret = TRAX_ERROR ∧ h'.error ≠ .none) ∨ (ret = TRAX_OK ∧ h'.error = .none) := by
      cases c with
      | clientInitialize i o p => exact clientInitialize_told (Option.some.inj hc)
      | clientFrame i o p => exact clientFrame_told (Option.some.inj hc)
      | clientWait => exact absurd hs id
      | serverWaitSot => exact absurd hs id
      | serverWaitMot => exact absurd hs id
      | serverReplySot => exact absurd hs id
      | serverReplyMot => exact absurd hs id
      | terminate => exact absurd hs id
      | setParameter => exact absurd hs id
      | getParameter => exact absurd hs id
      | getError => exact absurd hs id
      | isAlive => exact absurd hs id
    rcases key with ⟨h1, h2⟩ | ⟨h1, h2⟩
    · exact ⟨fun _ => h2, fun _ => h1⟩
    · exact ⟨fun e => (by rw [h1] at e; cases e), fun e => absurd h2 e⟩
  · rcases call_error hc hw ha with h | h
    · exact absurd h hr
    · exact h
  · cases c with
    | setParameter => cases hc; rfl
    | getParameter => cases hc; rfl
    | getError => cases hc; rfl
    | isAlive => cases hc; rfl
    | clientInitialize => exact absurd ha id
    | clientFrame => exact absurd ha id
    | clientWait => exact absurd ha id
    | serverWaitSot => exact absurd ha id
    | serverWaitMot => exact absurd ha id
    | serverReplySot => exact absurd ha id
    | serverReplyMot => exact absurd ha id
    | terminate => exact absurd ha id

/-- Calls that are not allowed: a start without objects, and a reply with two objects when there is one. -/
example : (∃ h, Demo.client 4 [] = some h ∧
      Refused h.isAlive h.isMulti h.version h.objects (.clientInitialize Demo.images [] none) b!"At least one object required" ∧
      (Call.clientInitialize Demo.images [] none).side = some h.server) ∧
    (∃ h, Demo.server 4 [] = some h ∧
      Refused h.isAlive h.isMulti h.version h.objects (.serverReplyMot [Demo.object]) b!"Invalid object count" ∧
      (Call.serverReplyMot [Demo.object]).side = some h.server) := by
  refine ⟨⟨(Demo.client 4 []).get (by decide +kernel), by simp, .inr (.inl ⟨by decide +kernel, rfl, rfl⟩), by decide +kernel⟩,
    ⟨(Demo.server 4 []).get (by decide +kernel), by simp, .inr (.inr ⟨by decide +kernel, .inr rfl, by decide +kernel, rfl⟩), by decide +kernel⟩⟩

/-- **C162, violated.** The wait of the client never touches the text while the handle is alive: whatever arrives, a failure is not explained, and
the text of an earlier call stays after a success. -/
theorem C162_wait_false (env : Env) (fuel : Nat) (h : Handle) (ha : h.isAlive = true) (props : Option Properties) (ret : Int) (h' : Handle)
    (hc : h.call env fuel (.clientWait props) = some (.ok (ret, h'))) : h'.getError = h.getError := by
  obtain ⟨w, hw, e⟩ := map_eq_ok (Option.some.inj hc)
  cases e
  unfold clientWait at hw
  unfold isAlive at ha
  split at hw
  · cases hw
  · exact clientWaitLoop_told env _ _ _ _ _ _ _ hw

/-- What the calls return and the text at the end. -/
def Demo.told (h : Option Handle) (cs : List Call) : Option (List Int × ErrorText) :=
  h.bind fun h => (runCalls Demo.env 10 h cs).map fun r => (r.1, r.2.getError)

/-- A client whose tracker answers without a region; and one that first tries to start with no object and then does it right. -/
example : Demo.told (Demo.client 4 b!"@@TRAX:state \n") [.clientInitialize Demo.images [Demo.target] none, .clientWait none] = some ([TRAX_OK, TRAX_ERROR], .none) ∧
    Demo.told (Demo.client 4 b!"@@TRAX:state \"1,2,3,4\" \n")
      [.clientInitialize Demo.images [Demo.target] none, .clientInitialize Demo.images [] none, .clientWait none] =
      some ([TRAX_OK, TRAX_ERROR, TRAX_STATE], .text b!"At least one object required") := by decide +kernel

/-- **C162, violated.** When reading gives no message (the connection ends before the first one, or a line cannot be read), the wait of the server fails and says nothing. -/
theorem C162_closed_false (env : Env) (fuel : Nat) (h : Handle) (hs : h.server = true) (ha : h.isAlive = true)
    (hc : ∃ n, ImageList.count h.metadata.channels = .ok n) (hr : h.stream.read.1.mtype = none) (props : Option Properties) :
    (∃ h', h.call env (fuel + 1) (.serverWaitMot props) = some (.ok (TRAX_ERROR, h')) ∧ h'.getError = .none) ∧
    (h.version < 4 → ∃ h', h.call env fuel (.serverWaitSot props) = some (.ok (TRAX_ERROR, h')) ∧ h'.getError = .none) := by
  obtain ⟨sv, tm, ver, n, e, m, st⟩ := h
  obtain rfl : sv = true := hs
  obtain ⟨k, hk⟩ := hc
  dsimp only at hk hr
  cases tm with
  | true => cases ha
  | false =>
    constructor
    · refine ⟨⟨true, false, ver, n, .none, m, st.read.2⟩, ?_, rfl⟩
      show (serverWaitMot env (fuel + 1) _ props).map _ = _
      unfold serverWaitMot clearError
      dsimp only
      rw [if_neg (by decide), if_neg (by simp [alive]), hk]
      dsimp only
      unfold waitMotLoop
      dsimp only
      rw [hr]
      rfl
    · intro hv
      refine ⟨⟨true, false, ver, n, .none, m, st.read.2⟩, ?_, rfl⟩
      show some ((serverWaitSot env _ props).map _) = _
      unfold serverWaitSot clearError
      dsimp only at hv ⊢
      rw [if_neg (by decide), if_neg (by simp [alive]), if_neg (by simp [isV4]; omega), hk, Outcome.bind_ok]
      rw [hr]
      rfl

example : ∃ h, Demo.server 3 [] = some h ∧ h.server = true ∧ h.isAlive = true ∧ ImageList.count h.metadata.channels = .ok 1 ∧
    h.stream.read.1.mtype = none ∧ h.version < 4 :=
  ⟨(Demo.server 3 []).get (by decide +kernel), by simp, by decide +kernel, by decide +kernel, by decide +kernel, by decide +kernel, by decide +kernel⟩

/-- **C162, violated.** The texts with a number in them: when an image is missing, or a message has the wrong number of arguments, the text is
indeterminate. And a reply with an object that has no region fails without any text. -/
theorem C162_number_false :
    Demo.told (Demo.client 4 []) [.clientInitialize [none, none, none] [Demo.target] none] = some ([TRAX_ERROR], .garbled) ∧
    Demo.told (Demo.server 3 b!"@@TRAX:frame \n") [.serverWaitSot none] = some ([TRAX_ERROR], .garbled) ∧
    Demo.told (Demo.server 3 b!"@@TRAX:frame \"file:///a.jpg\" \n") [.serverWaitSot none, .serverReplySot none none] =
      some ([TRAX_FRAME, TRAX_ERROR], .none) := by decide +kernel

end Trax
