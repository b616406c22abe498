import Verif.Props.Session
import Verif.Spec.Single

/-!
# Property theorems C65, C78: single objects through the C++ classes
-/

namespace Trax
open Spec Handle Cpp
open Region (bind_eq_ok map_eq_ok)

/-! ## Lemmas -/

theorem exchange_inv {clientEnv serverEnv : Env} {fuel : Nat} {c s : Handle} {e : Exchange} {o c' s'}
    (h : exchange clientEnv serverEnv fuel c s e = some (.ok (o, c', s'))) :
    ∃ c₁, (if e.start then c.clientInitialize clientEnv e.images (objectList e.objects) (some (Properties.ofPairs e.props))
        else c.clientFrame clientEnv e.images (some (objectList e.objects)) (some (Properties.ofPairs e.props))) = .ok (o.call, c₁) ∧
      serverWaitMot serverEnv fuel (deliver c c₁ s) (some Properties.create) = some (.ok o.request) ∧
      serverReplyMot o.request.handle (objectList e.reply) = .ok (o.replied, s') ∧
      clientWait clientEnv (deliver o.request.handle s' c₁) (some Properties.create) = .ok o.answer ∧ c' = o.answer.handle := by
  unfold exchange at h
  split at h
  · next call c₁ h1 =>
    refine ⟨c₁, ?_⟩
    cases h2 : serverWaitMot serverEnv fuel (deliver c c₁ s) (some Properties.create) with
    | none => rw [h2] at h; cases h
    | some w =>
      rw [h2] at h
      rw [Option.map_some, Option.some.injEq] at h
      cases w with
      | ok request =>
        rw [Outcome.bind_ok] at h
        obtain ⟨⟨replied, s₁⟩, h3, h⟩ := bind_eq_ok h
        obtain ⟨answer, h4, h⟩ := map_eq_ok h
        cases h
        exact ⟨h1, rfl, h3, h4, rfl⟩
      | abort => cases h
      | ub => cases h
  · cases h
  · cases h

theorem sendable_wellFormed {r : Region} (h : Sendable r) : WellFormed r := by
  cases r with
  | mask x y w h' data =>
    obtain ⟨-, -, h1, h2, h3, h4, -⟩ := h
    refine ⟨h1, h2, h3, ?_⟩
    omega
  | _ => trivial

theorem arrives_wellFormed {r r' : Region} (h : Sendable r) (ha : Arrives r r') : WellFormed r' := by
  cases r with
  | special c => cases ha; trivial
  | rectangle x y w h' => obtain ⟨_, _, _, _, rfl, -⟩ := ha; trivial
  | polygon ps => obtain ⟨_, rfl, -⟩ := ha; trivial
  | mask x y w h' data =>
    obtain ⟨data', rfl, hl, -⟩ := ha
    obtain ⟨-, -, h1, h2, h3, h4, -⟩ := h
    refine ⟨h1, h2, by rw [hl]; exact h3, ?_⟩
    omega

theorem oneObject_wellFormed (env : Env) {r : Region} (h : WellFormed r) : oneObject env (some r) = .ok (objectList [(r, [])]) := by
  unfold oneObject ObjList.set
  rw [if_neg (by simp [ObjList.create])]
  simp only [ObjList.create, List.replicate, Int.toNat_zero, List.getElem?_cons_zero, clone_wellFormed _ _ h]
  rfl

theorem append_empty (p : Properties) (overwrite : Bool) : Properties.append Properties.create p overwrite = p := rfl

theorem ofPairs_nil : Properties.ofPairs [] = Properties.create := rfl

/-! ## C78: exchanges -/

/-- The exchange of the list interface that an exchange with a single region stands for. -/
def singleAs (e : Cpp.Spec.SingleExchange) : Exchange :=
  ⟨e.start.isSome, e.images, match e.start with | some r => [(r, [])] | none => [], e.props, [(e.reply, [])]⟩

/-- The exchange, with the properties that the server sees. -/
theorem single_exchange (clientEnv serverEnv : Env) (c s : Handle) (n : Nat) (e : Cpp.Spec.SingleExchange) (sent : Option Region)
    (hc : Connected c s n) (hp : e.Proper clientEnv c s n sent) :
    ∃ o c' s', (∀ fuel, 3 ≤ fuel → Cpp.Spec.singleExchange clientEnv serverEnv fuel c s e = some (.ok (o, some c', some s'))) ∧
      e.Seen s sent o ∧ Connected c' s' 1 ∧ c'.metadata = c.metadata ∧ s'.metadata = s.metadata ∧
      o.request.props = Properties.ofPairs e.props := by
  obtain ⟨hst, himg, hreg, hprops, hreply⟩ := hp
  have hcount : (singleAs e).count n = 1 := by
    unfold singleAs Exchange.count
    cases h : e.start with
    | none => simp [hst h]
    | some r => simp
  have hconv : ∃ sent', Converted clientEnv c.metadata.regions (singleAs e).objects sent' ∧ SendableObjects sent' ∧
      ∀ r r', e.start = some r → sent = some r' → sent' = [(r', [])] := by
    unfold singleAs
    cases h : e.start with
    | none => exact ⟨[], .nil, fun o ho => (List.not_mem_nil ho).elim, fun r r' h => by cases h⟩
    | some r =>
      obtain ⟨hw, r', hs, ht, hsend⟩ := hreg r h
      refine ⟨[(r', [])], .cons ⟨ht, rfl⟩ .nil, ?_, fun _ r2 _ h2 => by rw [hs] at h2; cases h2; rfl⟩
      intro o ho
      rw [List.mem_singleton] at ho
      subst ho
      exact ⟨hsend, by simp [SendablePairs]⟩
  obtain ⟨sent', hcv, hso, hsent⟩ := hconv
  have hproper : (singleAs e).Proper clientEnv c s n sent' := by
    refine ⟨by omega, ?_, fun _ => hcount, himg, hcv, hso, hprops, by rw [hcount]; rfl, ?_⟩
    · intro h
      unfold singleAs at h ⊢
      cases he : e.start with
      | none => rw [he] at h; cases h
      | some r => simp
    · intro o ho
      simp only [singleAs, List.mem_singleton] at ho
      subst ho
      exact ⟨hreply, by simp [SendablePairs]⟩
  obtain ⟨o, c', s', hex, hseen, hconn, hmc, hms⟩ := C56_exchange_partial clientEnv serverEnv c s n (singleAs e) sent' hc hproper
  rw [hcount] at hconn
  obtain ⟨⟨hs1, hs2⟩, hs3, ⟨il, hs4, hs4'⟩, hs5, hs6, hs7, ⟨rl, hs8, hs9⟩, hs10⟩ := hseen
  have hobjlen : (singleAs e).objects.length ≤ 1 := by unfold singleAs; cases e.start <;> simp
  have hinv := fun fuel (hf : 3 ≤ fuel) => exchange_inv (hex fuel (by omega))
  -- the call
  have hcall : ∀ c₁, (if (singleAs e).start then c.clientInitialize clientEnv (singleAs e).images (objectList (singleAs e).objects) (some (Properties.ofPairs (singleAs e).props))
        else c.clientFrame clientEnv (singleAs e).images (some (objectList (singleAs e).objects)) (some (Properties.ofPairs (singleAs e).props))) = .ok (o.call, c₁) →
      Cpp.Spec.singleCall clientEnv c e = .ok (o.call, some c₁) := by
    intro c₁ h
    unfold Cpp.Spec.singleCall
    cases he : e.start with
    | none =>
      simp only [singleAs, he, Option.isSome_none, Bool.false_eq_true, if_false] at h
      dsimp only
      unfold clientFrameImages
      have : clientFrame clientEnv c e.images none (some (Properties.ofPairs e.props)) =
          clientFrame clientEnv c e.images (some (objectList [])) (some (Properties.ofPairs e.props)) := rfl
      simp only [this, h, Outcome.map, Outcome.bind_ok]
    | some r =>
      obtain ⟨hw, -⟩ := hreg r he
      simp only [singleAs, he, Option.isSome_some, if_true] at h
      dsimp only
      unfold clientInitializeRegion
      simp only [oneObject_wellFormed _ hw, Outcome.bind_ok, h]
      rfl
  -- the server's wait
  have hreqw : ∃ region props, takeObject serverEnv o.request none (o.request.props.getD Properties.create) false =
      .ok ⟨o.request.ret, o.request.images, region, props, some o.request.handle⟩ ∧
      (∀ r, e.start = some r → ∃ r' r'', sent = some r' ∧ region = some r'' ∧ Arrives r' r'') ∧
      props = Properties.ofPairs e.props := by
    rw [hs6]
    rcases hs5 with ⟨h1, h2⟩ | ⟨l, h1, h2, h3⟩
    · refine ⟨none, Properties.ofPairs e.props, ?_, ?_, rfl⟩
      · unfold takeObject; rw [h1]; rfl
      · intro r hr
        simp [singleAs, hr] at h2
    · cases he : e.start with
      | none => simp [singleAs, he] at h2
      | some r =>
        obtain ⟨hw, r', hse, ht, hsend⟩ := hreg r he
        have hsent := hsent r r' he hse
        subst hsent
        cases h3 with
        | @cons _ x _ l' hx hnil =>
          cases hnil
          obtain ⟨⟨rr, hx1, harr⟩, hx2⟩ := hx
          obtain ⟨x1, x2⟩ := x
          dsimp only at hx1 hx2 harr
          subst hx1; subst hx2
          have hwf := arrives_wellFormed hsend harr
          refine ⟨some rr, Properties.ofPairs e.props, ?_, ?_, rfl⟩
          · unfold takeObject
            rw [h1]
            dsimp only
            have hg : ObjList.get [(some rr, Properties.ofPairs [])] 0 = some rr := rfl
            have hpz : (ObjList.properties [(some rr, Properties.ofPairs [])] 0).getD Properties.create = Properties.create := rfl
            rw [if_neg (by simp [ObjList.count]), if_pos (by simp [ObjList.count])]
            rw [hg, hpz, clone_wellFormed _ _ hwf]
            simp only [Outcome.map, Outcome.bind_ok, append_empty]
            rfl
          · intro r2 hr2
            exact ⟨r', rr, hse, rfl, harr⟩
  obtain ⟨region, props, hw1, hw2, hw3⟩ := hreqw
  -- the client's wait
  have hansw : ∃ region props, takeObject clientEnv o.answer none (o.answer.props.getD Properties.create) true =
      .ok ⟨o.answer.ret, o.answer.images, region, props, some o.answer.handle⟩ ∧ (∃ r, region = some r ∧ Arrives e.reply r) ∧ props = Properties.create := by
    cases hs9 with
    | @cons _ x _ l' hx hnil =>
      cases hnil
      obtain ⟨⟨rr, hx1, harr⟩, hx2⟩ := hx
      obtain ⟨x1, x2⟩ := x
      dsimp only at hx1 hx2 harr
      subst hx1; subst hx2
      have hwf := arrives_wellFormed hreply harr
      refine ⟨some rr, o.answer.props.getD Properties.create, ?_, ⟨rr, rfl, harr⟩, by rw [hs10]; rfl⟩
      unfold takeObject
      rw [hs8]
      dsimp only
      have hg : ObjList.get [(some rr, Properties.ofPairs [])] 0 = some rr := rfl
      have hpz : (ObjList.properties [(some rr, Properties.ofPairs [])] 0).getD Properties.create = Properties.create := rfl
      rw [if_neg (by simp [ObjList.count]), if_pos (by simp [ObjList.count])]
      rw [hg, hpz, clone_wellFormed _ _ hwf]
      simp only [Outcome.map, Outcome.bind_ok, append_empty]
      rfl
  obtain ⟨region', props', ha1, ha2, ha3⟩ := hansw
  have hr := oneObject_wellFormed serverEnv (sendable_wellFormed hreply)
  refine ⟨⟨o.call, ⟨o.request.ret, o.request.images, region, props, some o.request.handle⟩, o.replied,
    ⟨o.answer.ret, o.answer.images, region', props', some o.answer.handle⟩⟩, c', s', ?_, ?_, hconn, hmc, hms, hw3⟩
  · intro fuel hf
    obtain ⟨c₁, i1, i2, i3, i4, i5⟩ := hinv fuel hf
    have i3' : serverReplyMot o.request.handle (objectList [(e.reply, [])]) = .ok (o.replied, s') := i3
    unfold Cpp.Spec.singleExchange
    rw [hcall c₁ i1]
    dsimp only
    unfold serverWaitRegion
    simp only [i2, Option.map_some, Outcome.bind_ok, hw1]
    unfold serverReplyRegion
    simp only [hr, Outcome.bind_ok, i3']
    have hrel : releaseObjects (objectList [(e.reply, [])]) = .ok () := rfl
    simp only [hrel, Outcome.map, Outcome.bind_ok]
    unfold clientWaitRegion
    simp only [i4, Outcome.bind_ok, ha1]
    rw [i5]
  · refine ⟨⟨hs1, hs2⟩, ?_, ⟨il, hs4, hs4'⟩, hw2, (by intro k _; dsimp only; rw [hw3]), hs7, ha2, ha3⟩
    have : o.request.ret = if e.start.isSome = true ∨ (n = 0 ∧ (singleAs e).objects ≠ []) then TRAX_INITIALIZE else TRAX_FRAME := hs3
    rw [this]
    cases he : e.start with
    | none => simp [singleAs, he]
    | some r => simp

/-- **C78, what holds.** In every proper exchange of two connected handles through the C++ classes with single regions, all calls succeed; the
server's wait gives the start region (if any), the images and the properties that the client sent, the client's wait gives the region of the
server's reply; and afterwards the handles are connected again, with one object. Missing from the full claim: the properties of
the reply (C65), and the regions, images and properties that cannot be sent (see C56). -/
theorem C78_single_exchange_partial (clientEnv serverEnv : Env) (c s : Handle) (n : Nat) (e : Cpp.Spec.SingleExchange) (sent : Option Region)
    (hc : Connected c s n) (hp : e.Proper clientEnv c s n sent) :
    ∃ o c' s', (∀ fuel, 3 ≤ fuel → Cpp.Spec.singleExchange clientEnv serverEnv fuel c s e = some (.ok (o, some c', some s'))) ∧
      e.Seen s sent o ∧ Connected c' s' 1 ∧ c'.metadata = c.metadata ∧ s'.metadata = s.metadata := by
  obtain ⟨o, c', s', h1, h2, h3, h4, h5, -⟩ := single_exchange clientEnv serverEnv c s n e sent hc hp
  exact ⟨o, c', s', h1, h2, h3, h4, h5⟩

/-- Two connected handles and an exchange that meets the hypotheses: the client starts tracking. -/
example : ∃ c s, Connected c s 0 ∧ Cpp.Spec.SingleExchange.Proper Demo.env c s 0
    ⟨some Demo.rectangle, Demo.images, [(b!"time", b!"0")], Demo.rectangle, [(b!"score", b!"0.5")]⟩ (some Demo.rectangle) := by
  have : (Demo.pair.any fun (c, s) => decide (Connected c s 0) && decide (c.metadata.regions = Demo.metadata.regions ∧
      s.metadata.images = Demo.metadata.images ∧ s.metadata.channels = Demo.metadata.channels)) = true := by decide +kernel
  obtain ⟨⟨c, s⟩, hp, hc⟩ := any_some this
  rw [Bool.and_eq_true] at hc
  obtain ⟨h1, h2, h3⟩ := of_decide_eq_true hc.2
  refine ⟨c, s, of_decide_eq_true hc.1, by simp, ?_, ?_, by decide, rectangle_sendable⟩
  · intro i hi hch
    rw [h3] at hch
    refine ⟨Demo.image, ?_, (by decide : Plain b!"/a.jpg"), by rw [h2]; decide⟩
    simp only [channelFlags, List.mem_cons, List.not_mem_nil, or_false] at hi
    rcases hi with rfl | rfl | rfl
    · rfl
    · exact absurd (by decide) hch
    · exact absurd (by decide) hch
  · intro r hr
    cases hr
    refine ⟨trivial, _, rfl, ?_, rectangle_sendable⟩
    rw [h1]
    unfold Region.toSend
    rw [if_pos (by decide)]

/-- **C78 (the caller's Region).** Waiting puts the region that came into the `Region` object of the caller, and leaves the object as it is if none came: for all three
classes, whatever the object was before, everything else that waiting gives is as with an empty object. -/
theorem C78_caller_region (env : Env) (fuel : Nat) (h : Option Handle) (region : Option Region) (props : Properties) :
    clientWaitRegion env h region props = (clientWaitRegion env h none props).map (fun w => { w with region := w.region.or region }) ∧
    serverWaitRegion env fuel h region props =
      (serverWaitRegion env fuel h none props).map (fun o => o.map fun w => { w with region := w.region.or region }) ∧
    serverSotWait env h region props = (serverSotWait env h none props).map (fun w => { w with region := w.region.or region }) := by
  have take : ∀ (w : WaitResult) (p : Properties) (free : Bool),
      takeObject env w region p free = (takeObject env w none p free).map (fun w => { w with region := w.region.or region }) := by
    intro w p free
    unfold takeObject
    cases w.objects with
    | none => rfl
    | some l =>
      dsimp only
      split
      · cases releaseObjects l <;> rfl
      · split
        · cases Region.clone env.legacy env.fresh (l.get 0) with
          | ok c =>
            cases free
            · cases c <;> rfl
            · cases releaseObjects l <;> cases c <;> rfl
          | abort => rfl
          | ub => rfl
        · cases free
          · rfl
          · cases releaseObjects l <;> rfl
  refine ⟨?_, ?_, ?_⟩
  · cases h with
    | none => rfl
    | some h =>
      unfold clientWaitRegion
      dsimp only
      cases clientWait env h (some props) with
      | ok w => exact take _ _ _
      | abort => rfl
      | ub => rfl
  · cases h with
    | none => rfl
    | some h =>
      unfold serverWaitRegion
      dsimp only
      cases serverWaitMot env fuel h (some props) with
      | none => rfl
      | some o =>
        cases o with
        | ok w => exact congrArg some (take _ _ _)
        | abort => rfl
        | ub => rfl
  · cases h with
    | none => rfl
    | some h =>
      unfold serverSotWait
      dsimp only
      cases serverWaitSot env h (some props) with
      | ok w =>
        show Outcome.ok _ = Outcome.ok _
        simp only [Option.or_none]
      | abort => rfl
      | ub => rfl

/-- **C78 (no connection).** Every call on an object without a connection reports an error, and gives and changes nothing. -/
theorem C78_no_connection (env : Env) (fuel : Nat) (images : ImageList) (region : Option Region) (props : Properties) :
    clientWaitRegion env none region props = .ok ⟨TRAX_ERROR, none, region, props, none⟩ ∧
    clientInitializeRegion env none images region (some props) = .ok (TRAX_ERROR, none) ∧
    clientFrameImages env none images (some props) = .ok (TRAX_ERROR, none) ∧
    serverWaitRegion env fuel none region props = some (.ok ⟨TRAX_ERROR, none, region, props, none⟩) ∧
    serverReplyRegion env none region (some props) = .ok (TRAX_ERROR, none, some props) ∧
    serverSotWait env none region props = .ok ⟨TRAX_ERROR, none, region, props, none⟩ ∧
    serverSotReply none region (some props) = .ok (TRAX_ERROR, none) := ⟨rfl, rfl, rfl, rfl, rfl, rfl, rfl⟩

/-- **C78, violated for empty regions.** A reply with an empty `Region` object (one that holds no C region, as after
construction or after a wait without a region) is undefined behaviour: the list made for it is released with a NULL region. -/
theorem C78_empty_region_false (env : Env) (h : Handle) (hs : h.server = true) (props : Option Properties) :
    serverReplyRegion env (some h) none props = .ub := by
  have h1 : oneObject env none = .ok [(none, Properties.create)] := rfl
  have h2 : ∃ r, serverReplyMot h [(none, Properties.create)] = .ok r := by
    unfold serverReplyMot
    rw [if_neg (by simp [hs])]
    dsimp only
    split
    · exact ⟨_, rfl⟩
    · split
      · exact ⟨_, rfl⟩
      · split <;> exact ⟨_, rfl⟩
  obtain ⟨r, h2⟩ := h2
  unfold serverReplyRegion
  simp only [h1, Outcome.bind_ok, h2]
  rfl

/-! ## C65 -/

/-- **C65, what holds.** A reply without properties arrives: the client gets the region, and no properties. Missing: any reply with
properties, see `C65_reply_properties_false`. -/
theorem C65_no_properties_partial (clientEnv serverEnv : Env) (c s : Handle) (n : Nat) (e : Cpp.Spec.SingleExchange) (sent : Option Region)
    (hc : Connected c s n) (hp : e.Proper clientEnv c s n sent) (hno : e.replyProps = []) :
    ∃ o c' s', (∀ fuel, 3 ≤ fuel → Cpp.Spec.singleExchange clientEnv serverEnv fuel c s e = some (.ok (o, some c', some s'))) ∧
      o.replied = TRAX_OK ∧ o.answer.ret = TRAX_STATE ∧ (∃ r, o.answer.region = some r ∧ Arrives e.reply r) ∧
      ∀ k, o.answer.props.get k = (Properties.ofPairs e.replyProps).get k := by
  obtain ⟨o, c', s', h1, h2, -⟩ := C78_single_exchange_partial clientEnv serverEnv c s n e sent hc hp
  exact ⟨o, c', s', h1, h2.calls.2, h2.answer, h2.reply, fun k => by rw [h2.answerProps, hno]; rfl⟩

/-- **C65, violated for all properties.** What `reply` does on the connection does not depend on the properties given: with any properties it
returns the same and sends the same as with any other. -/
theorem C65_reply_properties_false (env : Env) (h : Option Handle) (region : Option Region) (p q : Option Properties) :
    (serverReplyRegion env h region p).map (fun r => (r.1, r.2.1)) = (serverReplyRegion env h region q).map (fun r => (r.1, r.2.1)) := by
  unfold serverReplyRegion
  cases h with
  | none => rfl
  | some h =>
    dsimp only
    cases oneObject env region with
    | ok objects =>
      simp only [Outcome.bind_ok]
      cases serverReplyMot h objects with
      | ok r =>
        obtain ⟨ret, h⟩ := r
        simp only [Outcome.bind_ok]
        cases releaseObjects objects <;> rfl
      | abort => rfl
      | ub => rfl
    | abort => rfl
    | ub => rfl

/-- **C65, violated, as seen by the client.** The server replies with a region and a property; the client gets the region, and no properties. -/
theorem C65_lost_false :
    ∃ c s o c' s', Connected c s 0 ∧ Cpp.Spec.singleExchange Demo.env Demo.env 10 c s
        ⟨some Demo.rectangle, Demo.images, [], Demo.rectangle, [(b!"score", b!"0.5")]⟩ = some (.ok (o, c', s')) ∧
      o.replied = TRAX_OK ∧ o.answer.ret = TRAX_STATE ∧ o.answer.region.map Region.apiType = some 2 ∧ o.answer.props.get b!"score" = none ∧
      o.answer.props.count = 0 := by
  have : (Demo.pair.any fun (c, s) => decide (Connected c s 0) && match Cpp.Spec.singleExchange Demo.env Demo.env 10 c s
        ⟨some Demo.rectangle, Demo.images, [], Demo.rectangle, [(b!"score", b!"0.5")]⟩ with
      | some (.ok (o, _, _)) => decide (o.replied = TRAX_OK ∧ o.answer.ret = TRAX_STATE ∧ o.answer.region.map Region.apiType = some 2 ∧ o.answer.props.get b!"score" = none ∧
      o.answer.props.count = 0)
      | _ => false) = true := by decide +kernel
  obtain ⟨⟨c, s⟩, hp, hc⟩ := any_some this
  rw [Bool.and_eq_true] at hc
  obtain ⟨h0, hc⟩ := hc
  split at hc
  · rename_i o c' s' h3
    exact ⟨c, s, o, c', s', of_decide_eq_true h0, h3, of_decide_eq_true hc⟩
  · cases hc

end Trax
