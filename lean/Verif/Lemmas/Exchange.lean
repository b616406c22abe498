import Verif.Lemmas.Session

/-!
# Lemmas on single exchanges of a session
-/

namespace Trax
open Spec Handle
open Region (bind_eq_ok map_eq_ok)

theorem buildObjects_received (env : Env) {type : MsgType} {objs ms} (hm : Announces type objs ms) : buildObjects env (received ms) = .ok (received ms) := by
  induction hm with
  | nil => rfl
  | @cons r kvs t r' objs ms hs hp ha hw hk hm ih =>
    have : received ((t, r', Properties.ofPairs kvs) :: ms) = (some r', Properties.ofPairs kvs) :: received ms := rfl
    rw [this, buildObjects, clone_wellFormed _ _ hw]
    simp only [Outcome.bind_ok, ih, Outcome.map, copyAll_create (Properties.wf_ofPairs kvs)]

/-- A frame that is sent. -/
theorem clientFrame_ok (env : Env) (h : Handle) (images : ImageList) (objs sent : List (Region × List (Str × Str))) (kvs : List (Str × Str))
    (ms : List (Str × Region × Properties)) (texts : List Str) (hs : h.server = false) (ha : h.isAlive = true) (hv : h.version = 4)
    (hmode : h.isMulti = false → h.objects + objs.length ≤ 1) (hc : Converted env h.metadata.regions objs sent) (hm : Announces .initialize sent ms)
    (he : encodeImages h.metadata.channels images channelIndexes = .ok (some texts)) (ht : ∀ t ∈ texts, NoNul t) (hr : h.stream.out.Reliable) :
    ∃ st, clientFrame env h images (some (objectList objs)) (some (Properties.ofPairs kvs)) =
        .ok (TRAX_OK, { h with error := .none, objects := h.objects + objs.length, stream := st }) ∧
      st.out.sent = h.stream.out.sent ++ announcement .initialize ms ++ wire .frame texts (Properties.ofPairs kvs).enumerate ∧ st.out.Reliable ∧
      st.input = h.stream.input := by
  obtain ⟨s', e1, e2, e3, e4, -⟩ := sendObjects_ok env h.metadata.regions hc hm h.stream hr
  have hw := writeMessage_reliable s'.out e3 .frame texts (Properties.ofPairs kvs) (Properties.wf_ofPairs _) ht
  refine ⟨s'.write .frame texts (Properties.ofPairs kvs), ?_, ?_, hw.2.2, e4⟩
  · have hal : h.alive = true := ha
    have hal' : h.clearError.alive = true := ha
    have hv4 : h.clearError.isV4 = true := by simp [isV4, clearError, hv]
    have hlen : (objectList objs).length = objs.length := by simp [objectList]
    have hmm : ¬ (h.clearError.objects + (objectList objs).length > 1 ∧ ¬ h.clearError.isMulti = true) := by
      rintro ⟨h1, h2⟩
      have : h.isMulti = false := Bool.eq_false_iff.mpr h2
      have := hmode this
      rw [hlen] at h1
      have : h.clearError.objects = h.objects := rfl
      omega
    unfold clientFrame
    rw [if_neg (show ¬ h.server = true by simp [hs])]
    simp only [hal', not_true_eq_false, if_false, hv4, if_true, Option.getD_some, hmm]
    have : sendObjects env h.clearError.metadata.regions h.clearError.stream (objectList objs) = .ok s' := e1
    rw [this]
    simp only [Outcome.bind_ok]
    have : encodeImages h.clearError.metadata.channels images channelIndexes = .ok (some texts) := he
    rw [this]
    simp only [Outcome.map, Outcome.bind_ok, hlen]
    rfl
  · show (s'.out.writeMessage _ _ _).sent = _
    rw [hw.1, e2]

/-- The request of an exchange: what the client's call does. -/
theorem request_ok (env : Env) (c : Handle) (n : Nat) (e : Exchange) (sent : List (Region × List (Str × Str)))
    (ms : List (Str × Region × Properties)) (texts : List Str) (hs : c.server = false) (ha : c.isAlive = true) (hv : c.version = 4) (hn : c.objects = n)
    (hst : e.start = true → e.objects ≠ []) (hmode : c.isMulti = false → e.count n = 1) (hc : Converted env c.metadata.regions e.objects sent) (hm : Announces .initialize sent ms)
    (he : encodeImages c.metadata.channels e.images channelIndexes = .ok (some texts)) (ht : ∀ t ∈ texts, NoNul t) (hr : c.stream.out.Reliable) :
    ∃ st, (if e.start then c.clientInitialize env e.images (objectList e.objects) (some (Properties.ofPairs e.props))
        else c.clientFrame env e.images (some (objectList e.objects)) (some (Properties.ofPairs e.props))) =
        .ok (TRAX_OK, { c with error := .none, objects := e.count n, stream := st }) ∧
      st.out.sent = c.stream.out.sent ++ ((if e.start = true ∧ 0 < n then wire .initialize [] [] else []) ++ announcement .initialize ms ++
        wire .frame texts (Properties.ofPairs e.props).enumerate) ∧ st.out.Reliable ∧
      st.input = c.stream.input := by
  cases hstart : e.start with
  | false =>
    obtain ⟨st, h1, h2, h3, h4⟩ := clientFrame_ok env c e.images e.objects sent e.props ms texts hs ha hv (by
      intro hmul; have := hmode hmul; simp only [Exchange.count, hstart, Bool.false_eq_true, if_false] at this; omega) hc hm he ht hr
    refine ⟨st, ?_, by simpa using h2, h3, h4⟩
    simp only [Bool.false_eq_true, if_false, h1, Exchange.count, hstart, hn]
  | true =>
    have hlen : (objectList e.objects).length = e.objects.length := by simp [objectList]
    have hpos : 0 < e.objects.length := List.length_pos_iff.mpr (hst hstart)
    have hcount : e.count n = e.objects.length := by simp [Exchange.count, hstart]
    have hal' : c.clearError.alive = true := ha
    have hv4 : c.clearError.isV4 = true := by simp [isV4, clearError, hv]
    have hmm : ¬ (¬ c.clearError.isMulti = true ∧ (objectList e.objects).length > 1) := by
      rintro ⟨h1, h2⟩
      have : c.isMulti = false := Bool.eq_false_iff.mpr h1
      have := hmode this
      omega
    have hinit : c.clientInitialize env e.images (objectList e.objects) (some (Properties.ofPairs e.props)) =
        clientFrame env (if 0 < n then { c.clearError with stream := c.stream.write .initialize [] Properties.create, objects := 0 } else c.clearError)
          e.images (some (objectList e.objects)) (some (Properties.ofPairs e.props)) := by
      unfold clientInitialize
      rw [if_neg (show ¬ c.server = true by simp [hs])]
      simp only [hal', not_true_eq_false, if_false, hv4, if_true, hmm]
      rw [if_neg (by omega)]
      have : c.clearError.objects = n := hn
      simp only [this, gt_iff_lt]
      rfl
    rw [if_pos rfl, hinit]
    by_cases hz : 0 < n
    · rw [if_pos hz]
      have hw := writeMessage_reliable c.stream.out hr .initialize [] Properties.create Properties.wf_create (by simp)
      obtain ⟨st, h1, h2, h3, h4⟩ := clientFrame_ok env { c.clearError with stream := c.stream.write .initialize [] Properties.create, objects := 0 }
        e.images e.objects sent e.props ms texts hs ha hv (by
          intro hmul; have := hmode hmul; dsimp only; omega) hc hm he ht hw.2.2
      refine ⟨st, ?_, ?_, h3, h4⟩
      · rw [h1]
        simp only [hcount, Nat.zero_add]
        rfl
      · rw [h2]
        have : (c.stream.write .initialize [] Properties.create).out.sent = c.stream.out.sent ++ wire .initialize [] Properties.create.enumerate := hw.1
        dsimp only
        rw [this, if_pos ⟨rfl, hz⟩]
        have : Properties.create.enumerate = [] := rfl
        rw [this]
        simp
    · rw [if_neg hz]
      have hn0 : c.clearError.objects = 0 := by show c.objects = 0; omega
      obtain ⟨st, h1, h2, h3, h4⟩ := clientFrame_ok env c.clearError e.images e.objects sent e.props ms texts hs ha hv (by
          intro hmul; have := hmode hmul; omega) hc hm he ht hr
      refine ⟨st, ?_, ?_, h3, h4⟩
      · rw [h1]
        simp only [hcount, hn0, Nat.zero_add]
        rfl
      · rw [h2, if_neg (by simp [hz])]
        simp [clearError]

/-- The server waits for a request. -/
theorem serverWait_request (env : Env) (s : Handle) (n : Nat) (e : Exchange) (sent : List (Region × List (Str × Str)))
    (ms : List (Str × Region × Properties)) (texts : List Str) (l : ImageList) (hs : s.server = true) (ha : s.isAlive = true) (hn : s.objects = n)
    (hst : e.start = true → e.objects ≠ []) (hlen : sent.length = e.objects.length) (hm : Announces .initialize sent ms)
    (hd : decodeImages env s.metadata channelIndexes texts = .ok (some l)) (ht : ∀ t ∈ texts, Plain t ∧ ¬ LooksLikeProperty t)
    (hcount : ImageList.count s.metadata.channels = .ok texts.length) (hk : SendablePairs e.props) (rest : List InEv)
    (hin : s.stream.input = bytes ((if e.start = true ∧ 0 < n then wire .initialize [] [] else []) ++ announcement .initialize ms ++
        wire .frame texts (Properties.ofPairs e.props).enumerate) ++ rest) (fuel : Nat) (hf : e.objects.length + 2 ≤ fuel) :
    serverWaitMot env fuel s (some Properties.create) = some (.ok
      ⟨if e.start = true ∨ (n = 0 ∧ e.objects ≠ []) then TRAX_INITIALIZE else TRAX_FRAME, some l,
        if e.objects = [] then none else some (received ms), none, some (Properties.ofPairs e.props),
        { s with error := .none, objects := e.count n, stream := { s.stream with input := rest, mtype := some .frame } }⟩) := by
  have hsp := SendableProps.ofPairs hk
  have hml : ms.length = e.objects.length := by rw [hm.length, hlen]
  -- the last message
  have last : ∀ (fuel : Nat) (init : Bool) (h : Handle) (mt : Option MsgType) (objects : Nat), h = { s with error := .none, objects := objects, stream := { s.stream with input := bytes (wire .frame texts (Properties.ofPairs e.props).enumerate) ++ rest, mtype := mt } } →
      (init = true → e.objects ≠ []) → (init = false → e.objects = []) →
      waitMotLoop env texts.length (some Properties.create) (fuel + 1) init (received ms) h = some (.ok
        ⟨if init = true ∧ objects = 0 then TRAX_INITIALIZE else TRAX_FRAME, some l,
          if e.objects = [] then none else some (received ms), none, some (Properties.ofPairs e.props),
          { s with error := .none, objects := objects + e.objects.length, stream := { s.stream with input := rest, mtype := some .frame } }⟩) := by
    intro fuel init h mt objects hh hi1 hi2
    subst hh
    have hread := Stream.read_wire { s.stream with input := bytes (wire .frame texts (Properties.ofPairs e.props).enumerate) ++ rest, mtype := mt }
      .frame texts (Properties.ofPairs e.props) hsp.wf (deliverable_args hsp ht) rest rfl
    have hrl : (received ms).length = e.objects.length := by rw [← hml]; simp [received]
    rw [waitMotLoop]
    dsimp only
    rw [hread]
    dsimp only
    rw [if_neg (by
      rintro ⟨h1, h2⟩
      rw [hrl] at h2
      exact hi1 h1 (List.length_eq_zero_iff.mp h2))]
    rw [if_neg (by simp), hd]
    simp only [Outcome.bind_ok, Option.map_some, copyAll_create hsp.wf]
    unfold finishMot
    rw [hrl]
    have hret : (if ¬ init = true ∨ objects > 0 then TRAX_FRAME else TRAX_INITIALIZE) = if init = true ∧ objects = 0 then TRAX_INITIALIZE else TRAX_FRAME := by
      by_cases h1 : init = true <;> by_cases h2 : objects = 0
      · rw [if_neg (by rintro (h | h); exact h h1; omega), if_pos ⟨h1, h2⟩]
      · rw [if_pos (.inr (by omega)), if_neg (by rintro ⟨-, h⟩; exact h2 h)]
      · rw [if_pos (.inl h1), if_neg (by rintro ⟨h, -⟩; exact h1 h)]
      · rw [if_pos (.inl h1), if_neg (by rintro ⟨h, -⟩; exact h1 h)]
    by_cases he : e.objects = []
    · simp only [he, List.length_nil, ne_eq, not_true_eq_false, if_false, if_true, Nat.add_zero, hret]
    · have : e.objects.length ≠ 0 := fun h => he (List.length_eq_zero_iff.mp h)
      simp only [this, ne_eq, not_false_eq_true, if_true, if_false, he, buildObjects_received env hm, Outcome.map, Outcome.bind_ok, hret]
  obtain ⟨fuel, rfl⟩ := Nat.exists_eq_add_of_le hf
  unfold serverWaitMot
  rw [if_neg (show ¬ ¬ s.server = true by simp [hs])]
  have hal : s.clearError.alive = true := ha
  have hcount' : ImageList.count s.clearError.metadata.channels = .ok texts.length := hcount
  simp only [hal, not_true_eq_false, if_false, hcount']
  by_cases hclear : e.start = true ∧ 0 < n
  · rw [if_pos hclear] at hin
    have hin' : s.stream.input = bytes (wire .initialize [] Properties.create.enumerate) ++ (bytes (announcement .initialize ms) ++
        (bytes (wire .frame texts (Properties.ofPairs e.props).enumerate) ++ rest)) := by
      rw [hin, show Properties.create.enumerate = [] from rfl]; simp [bytes_append']
    have hread := Stream.read_wire s.stream .initialize [] Properties.create Properties.wf_create SendableProps.create.deliverable _ hin'
    rw [show e.objects.length + 2 + fuel = fuel + 1 + ms.length + 1 by omega, waitMotLoop]
    have : s.clearError.stream = s.stream := rfl
    rw [this, hread]
    dsimp only
    rw [if_pos (by simp)]
    obtain ⟨mt, e2⟩ := waitMotLoop_objects env texts.length (some Properties.create) hm (fuel + 1) true []
      { s.clearError with objects := 0, stream := { s.stream with mtype := some .initialize, input := bytes (announcement .initialize ms) ++
        (bytes (wire .frame texts (Properties.ofPairs e.props).enumerate) ++ rest) } } _ rfl
    have h0 := last fuel true _ mt 0 rfl (fun _ => hst hclear.1) nofun
    rw [Bool.true_or, List.nil_append] at e2
    refine Eq.trans e2 (Eq.trans h0 ?_)
    have hcnt : e.count n = 0 + e.objects.length := by simp [Exchange.count, hclear.1]
    rw [hcnt, if_pos (show true = true ∧ 0 = 0 from ⟨rfl, rfl⟩),
      if_pos (show e.start = true ∨ (n = 0 ∧ e.objects ≠ []) from .inl hclear.1)]
  · rw [if_neg hclear] at hin
    have hin' : s.clearError.stream.input = bytes (announcement .initialize ms) ++
        (bytes (wire .frame texts (Properties.ofPairs e.props).enumerate) ++ rest) := by
      show s.stream.input = _
      rw [hin]; simp [bytes_append']
    rw [show e.objects.length + 2 + fuel = fuel + 1 + 1 + ms.length by omega]
    obtain ⟨mt, e2⟩ := waitMotLoop_objects env texts.length (some Properties.create) hm (fuel + 1 + 1) false [] s.clearError _ hin'
    have hempty : ms.isEmpty = true ↔ e.objects = [] := by
      rw [List.isEmpty_iff, ← List.length_eq_zero_iff, hml, List.length_eq_zero_iff]
    have h0 := last (fuel + 1) (!ms.isEmpty) { s.clearError with stream := { s.clearError.stream with input := bytes (wire .frame texts (Properties.ofPairs e.props).enumerate) ++ rest, mtype := mt } } mt n (by rw [← hn]; rfl) (by
      intro h he; rw [hempty.mpr he] at h; cases h) (by intro h; exact hempty.mp (by simpa using h))
    rw [Bool.false_or, List.nil_append] at e2
    refine Eq.trans e2 (Eq.trans h0 ?_)
    have hcnt : n + e.objects.length = e.count n := by
      unfold Exchange.count
      split
      · next h => have : n = 0 := by by_contra hne; exact hclear ⟨h, by omega⟩
                  omega
      · rfl
    have hret : (if (!ms.isEmpty) = true ∧ n = 0 then TRAX_INITIALIZE else TRAX_FRAME) =
        if e.start = true ∨ (n = 0 ∧ e.objects ≠ []) then TRAX_INITIALIZE else TRAX_FRAME := by
      have h1 : (!ms.isEmpty) = true ↔ e.objects ≠ [] := by rw [Bool.not_eq_true', ne_eq, ← hempty, Bool.not_eq_true]
      by_cases h2 : n = 0 ∧ e.objects ≠ []
      · rw [if_pos ⟨h1.mpr h2.2, h2.1⟩, if_pos (.inr h2)]
      · rw [if_neg (fun h => h2 ⟨h.2, h1.mp h.1⟩), if_neg]
        rintro (h | h)
        · exact h2 ⟨by by_contra hne; exact hclear ⟨h, by omega⟩, hst h⟩
        · exact h2 h
    rw [hcnt, hret]

end Trax
