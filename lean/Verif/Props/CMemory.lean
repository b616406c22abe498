import Verif.Props.Parameters
import Verif.Lemmas.CMemoryCalls
import Verif.Props.Handle

/-!
# Property theorems C146: the memory of C programs that use handles

A block is a number; `Heap.live` are the blocks that are taken. `Prog`s of `Verif/Model/CMemory.lean` take and give back
blocks; giving back a block that is not taken is undefined (`Res.ub`).
-/

namespace Trax
open CMem Handle

namespace CMem

theorem textAndBack_bind {α β : Type} {own : Multiset Nat} {b : Bool} {g : Unit → Prog α} {o : Res β} {Q} (h : Does own (g ()) o Q) :
    Does own (textAndBack b >>= g) o Q := by
  cases b with
  | false => exact h
  | true =>
    have : (textAndBack true >>= g) = (new >>= fun t => CMem.free t >>= fun _ => g ()) := rfl
    rw [this]
    exact Does.new fun t => Does.free rfl h

theorem clientSetup_does (stream : Stream) (s : Ptr) : Does {s} (CMem.clientSetup stream s) (.of (Handle.clientSetup stream))
    fun a b w => a.map Prod.snd = b ∧ w = match a with
      | none => {s}
      | some (p, _) => p.blocks := by
  unfold CMem.clientSetup
  have hb : ∀ o : Outcome (Option Handle), o = o.bind .ok := by intro o; cases o <;> rfl
  rw [hb (Handle.clientSetup stream)]
  refine Does.new fun self => receive_bind fun r _ _ _ => ?_
  rw [← hb]
  refine Does.castRes ?_ (congrArg Res.of (hb _))
  refine Does.outcome fun made _ => ?_
  cases made with
  | none =>
    simp only
    refine destroyTexts_bind (rest := {r.props} + {self} + {s}) (by simp only [Received.blocks]; abel) ?_
    refine Does.free (rest := {self} + {s}) (by abel) ?_
    exact Does.free rfl (Does.pure ⟨rfl, rfl⟩)
  | some h =>
    simp only
    refine textAndBack_bind (textAndBack_bind (textAndBack_bind ?_))
    refine Does.newIf fun a _ => Does.newIf fun b _ => Does.newIf fun c _ => Does.new fun md => ?_
    refine Does.freeIf (rest := {md} + (opt c + (opt b + (r.blocks + ({self} + {s}))))) (by abel) ?_
    refine Does.freeIf (rest := {md} + (opt c + (r.blocks + ({self} + {s})))) (by abel) ?_
    refine Does.freeIf (rest := {md} + (r.blocks + ({self} + {s}))) (by abel) ?_
    refine Does.free (rest := r.args.blocks + ({md} + {self} + {s})) (by simp only [Received.blocks]; abel) ?_
    refine destroyTexts_bind rfl (Does.pure ⟨rfl, ?_⟩)
    simp only [HandleAt.blocks, opt]; abel

theorem serverSetup_does (junk : UInt32) (m : Metadata) (stream : Stream) (version : Int) (s : Ptr) :
    Does {s} (CMem.serverSetup junk m stream version s) (.of (Handle.serverSetup junk m stream version))
      fun a b w => a.2 = b ∧ w = a.1.blocks := by
  unfold CMem.serverSetup
  have hb : ∀ o : Outcome Handle, o = o.bind .ok := by intro o; cases o <;> rfl
  refine Does.castRes ?_ (congrArg Res.of (hb _))
  refine Does.new fun self => Does.new fun props => Does.outcome fun h _ => ?_
  refine Does.new fun md => createTexts_bind fun l => ?_
  refine Does.free (rest := l.blocks + ({md} + ({self} + {s}))) (by abel) ?_
  refine destroyTexts_bind rfl (Does.pure ⟨rfl, ?_⟩)
  simp only [HandleAt.blocks, opt]; abel

theorem calls_does (env : Env) (fuel : Nat) (cs : List Call) : ∀ (p : HandleAt) (h : Handle) (rets : List Int) (h' : Handle),
    h.runCalls env fuel cs = some (rets, h') →
    Does p.blocks (CMem.calls env fuel p h cs) (.ok ()) fun a _ w => a.1 = rets ∧ ∃ lost : Multiset Nat, w = a.2.1.blocks + lost ∧
      lost.card = CMem.Spec.lostAll env fuel h cs := by
  induction cs with
  | nil =>
    intro p h rets h' hr
    simp only [runCalls, Option.some.injEq, Prod.mk.injEq] at hr
    exact Does.pure ⟨hr.1, 0, by abel, rfl⟩
  | cons c cs ih =>
    intro p h rets h' hr
    simp only [runCalls] at hr
    rcases hc : h.call env fuel c with _ | (_ | _ | _)
    · rw [hc] at hr; simp at hr
    · rename_i x
      obtain ⟨ret, h₁⟩ := x
      rw [hc] at hr
      simp only [Option.map_eq_some_iff] at hr
      obtain ⟨⟨rets', h''⟩, hrest, he⟩ := hr
      simp only [Prod.mk.injEq] at he
      have hd := call_does env fuel p h c
      rw [hc] at hd
      refine Does.seq hd ?_
      rintro ⟨r, q, h2⟩ w ⟨hres, lost, rfl, hl⟩
      simp only [Prod.mk.injEq] at hres
      refine Does.seq_frame lost (ih q h2 rets' h'' (by rw [hres.2]; exact hrest)) rfl ?_
      rintro ⟨rs, q', h3⟩ w ⟨h4, lost', rfl, hl'⟩
      refine Does.pure ⟨?_, lost' + lost, by abel, ?_⟩
      · rw [← he.1, ← h4, ← hres.1]
      · simp only [Multiset.card_add, hl, hl', CMem.Spec.lostAll, hc, hres.2]; omega
    · rw [hc] at hr; simp at hr
    · rw [hc] at hr; simp at hr

end CMem

/-- From multisets to lists. -/
theorem perm_of_blocks {a b : List Nat} {lost : Multiset Nat} {n : Nat} (h : (a : Multiset Nat) = lost + (b : Multiset Nat))
    (hn : lost.card = n) : ∃ l : List Nat, a.Perm (b ++ l) ∧ l.length = n := by
  obtain ⟨l, rfl⟩ := Quot.exists_rep lost
  refine ⟨l, ?_, hn⟩
  have : (a : Multiset Nat) = ((b ++ l : List Nat) : Multiset Nat) := by
    rw [h, ← Multiset.coe_add, add_comm]; rfl
  exact Multiset.coe_eq_coe.1 this

/-- **C146** (proved part, clients). A program sets a client up, makes any calls, releases what waiting gives it, and
cleans up. No block is released twice, whatever the tracker sends; at the end the blocks that were taken before are taken,
and as many others as polygons were turned into masks. -/
theorem C146_client_partial (env : Env) (fuel : Nat) (stream : Stream) (cs : List Call) (m : CMem.Heap) (hm : m.OK) {h : Handle}
    (hs : Handle.clientSetup stream = .ok (some h)) {rets : List Int} {h' : Handle}
    (hr : h.runCalls env fuel cs = some (rets, h')) :
    ∃ (m' : CMem.Heap) (lost : List Ptr), CMem.clientProgram env fuel stream cs m = .ok (some rets, m') ∧
      m'.live.Perm (m.live ++ lost) ∧ lost.length = CMem.Spec.lostAll env fuel h cs := by
  have key : Does 0 (CMem.clientProgram env fuel stream cs) (.ok ()) fun a _ w => a = some rets ∧
      w.card = CMem.Spec.lostAll env fuel h cs := by
    refine Does.new fun s => ?_
    have hd := clientSetup_does stream s
    rw [hs] at hd
    refine Does.seq (hd.cast (by abel)) ?_
    rintro a w ⟨ha, rfl⟩
    cases a with
    | none => simp at ha
    | some x =>
      obtain ⟨p, hh⟩ := x
      simp only [Option.map_some, Option.some.injEq] at ha
      subst ha
      refine Does.seq (calls_does env fuel cs p hh rets h' hr) ?_
      rintro ⟨rs, q, h2⟩ w ⟨h4, lost, rfl, hl⟩
      refine Does.seq_frame lost (cleanup_does q h2) rfl ?_
      rintro _ w rfl
      refine Does.pure ⟨by rw [← h4], ?_⟩
      simp [hl]
  obtain ⟨a, m', w, h1, _, ⟨rfl, hw⟩, h4⟩ := key m m.live hm (by abel)
  obtain ⟨l, hl, hn⟩ := perm_of_blocks h4 hw
  exact ⟨m', l, h1, hl, hn⟩

/-- **C146** (proved part, servers). The same for servers: they lose three blocks for every message that takes all objects
away and two for every wait after the end of the session. -/
theorem C146_server_partial (env : Env) (fuel : Nat) (junk : UInt32) (md : Metadata) (stream : Stream) (version : Int)
    (cs : List Call) (m : CMem.Heap) (hm : m.OK) {h : Handle} (hs : Handle.serverSetup junk md stream version = .ok h)
    {rets : List Int} {h' : Handle} (hr : h.runCalls env fuel cs = some (rets, h')) :
    ∃ (m' : CMem.Heap) (lost : List Ptr), CMem.serverProgram env fuel junk md stream version cs m = .ok (rets, m') ∧
      m'.live.Perm (m.live ++ lost) ∧ lost.length = CMem.Spec.lostAll env fuel h cs := by
  have key : Does 0 (CMem.serverProgram env fuel junk md stream version cs) (.ok ()) fun a _ w => a = rets ∧
      w.card = CMem.Spec.lostAll env fuel h cs := by
    refine Does.new fun s => ?_
    have hd := serverSetup_does junk md stream version s
    rw [hs] at hd
    refine Does.seq (hd.cast (by abel)) ?_
    rintro ⟨p, hh⟩ w ⟨ha, rfl⟩
    simp only at ha
    subst ha
    refine Does.seq (calls_does env fuel cs p hh rets h' hr) ?_
    rintro ⟨rs, q, h2⟩ w ⟨h4, lost, rfl, hl⟩
    refine Does.seq_frame lost (cleanup_does q h2) rfl ?_
    rintro _ w rfl
    refine Does.pure ⟨h4, ?_⟩
    simp [hl]
  obtain ⟨a, m', w, h1, _, ⟨rfl, hw⟩, h4⟩ := key m m.live hm (by abel)
  obtain ⟨l, hl, hn⟩ := perm_of_blocks h4 hw
  exact ⟨m', l, h1, hl, hn⟩

/-- **C146** (proved part, one call). A call on a handle in any memory in which the blocks of the handle are taken ends as
the call ends in the model without memory: it is never undefined because of memory. If it returns, the blocks of the handle
are taken, those that are not the handle's are as before, and no others are taken than the lost ones. -/
theorem C146_call_partial (env : Env) (fuel : Nat) (p : HandleAt) (h : Handle) (c : Call) (m : CMem.Heap) (hm : m.OK)
    (others : Multiset Nat) (hl : (m.live : Multiset Nat) = p.blocks + others) :
    match h.call env fuel c with
    | some (.ok (ret, h')) => ∃ (q : HandleAt) (m' : CMem.Heap) (lost : Multiset Nat),
        CMem.call env fuel p h c m = .ok ((ret, q, h'), m') ∧ m'.OK ∧
        (m'.live : Multiset Nat) = q.blocks + lost + others ∧ lost.card = CMem.Spec.lost fuel h c
    | some .abort => CMem.call env fuel p h c m = .abort
    | some .ub => CMem.call env fuel p h c m = .ub
    | none => CMem.call env fuel p h c m = .more := by
  have hd := call_does env fuel p h c m others hm hl
  rcases hc : h.call env fuel c with _ | (_ | _ | _)
  · rw [hc] at hd; exact hd
  · rename_i x
    obtain ⟨ret, h'⟩ := x
    rw [hc] at hd
    obtain ⟨⟨r, q, h2⟩, m', w, h1, h2', ⟨hres, lost, rfl, hn⟩, h4⟩ := hd
    simp only [Prod.mk.injEq] at hres
    exact ⟨q, m', lost, by rw [h1, ← hres.1, ← hres.2], h2', h4, hn⟩
  · rw [hc] at hd; exact hd
  · rw [hc] at hd; exact hd

/-- **C146** (proved part, what waiting gives). A wait of a multi-object server: the blocks in the variables of the caller
are taken, are none of the handle's, the object list has a place for each object and the regions are there; an image list that was in the variable
before is in the variable, or released, or still taken. -/
theorem C146_wait_mot_partial (env : Env) (fuel : Nat) (p : HandleAt) (h : Handle) (images : Option ImagesAt) (props : Option Properties)
    (m : CMem.Heap) (hm : m.OK) (others : Multiset Nat) (hl : (m.live : Multiset Nat) = p.blocks + imagesOpt images + others)
    {b : WaitResult} (hb : h.serverWaitMot env fuel props = some (.ok b)) :
    ∃ (w : Waited) (m' : CMem.Heap) (kept lost : Multiset Nat), CMem.serverWaitMot env fuel p h images props m = .ok (w, m') ∧ m'.OK ∧
      w.res = b ∧ w.objects.map (fun l => l.entries.length) = b.objects.map List.length ∧ (∀ l, w.objects = some l → Full l.entries) ∧
      (m'.live : Multiset Nat) = w.handle.blocks + imagesOpt w.images + objectsOpt w.objects + opt w.region + kept + lost + others ∧
      (kept = 0 ∨ kept = imagesOpt images) ∧ lost.card = if h.terminated then 2 else 3 * CMem.Spec.resets fuel h.stream := by
  have hd := serverWaitMot_does env fuel p h images props m others hm hl
  rw [hb] at hd
  obtain ⟨w, m', own, h1, h2, ⟨h3, h4, h5, kept, keptR, lost, rfl, hk, hr, hn⟩, h7⟩ := hd
  have : keptR = 0 := by simpa [opt] using hr
  subst this
  exact ⟨w, m', kept, lost, h1, h2, h3, h5, h4, by rw [h7]; abel, hk, hn⟩

/-- **C146** (proved part, what waiting gives). A wait of a single-object server. -/
theorem C146_wait_sot_partial (env : Env) (p : HandleAt) (h : Handle) (images : Option ImagesAt) (region : Option Ptr)
    (props : Option Properties) (m : CMem.Heap) (hm : m.OK) (others : Multiset Nat)
    (hl : (m.live : Multiset Nat) = p.blocks + imagesOpt images + opt region + others)
    {b : WaitResult} (hb : h.serverWaitSot env props = .ok b) :
    ∃ (w : Waited) (m' : CMem.Heap) (kept keptRegion : Multiset Nat), CMem.serverWaitSot env p h images region props m = .ok (w, m') ∧
      m'.OK ∧ w.res = b ∧
      (m'.live : Multiset Nat) = w.handle.blocks + imagesOpt w.images + objectsOpt w.objects + opt w.region + kept + keptRegion + others ∧
      (kept = 0 ∨ kept = imagesOpt images) ∧ (keptRegion = 0 ∨ keptRegion = opt region) := by
  have hd := serverWaitSot_does env p h images region props m others hm hl
  rw [hb] at hd
  obtain ⟨w, m', own, h1, h2, ⟨h3, h4, h5, kept, keptR, lost, rfl, hk, hr, hn⟩, h7⟩ := hd
  have : lost = 0 := Multiset.card_eq_zero.1 hn
  subst this
  exact ⟨w, m', kept, keptR, h1, h2, h3, by rw [h7]; abel, hk, hr⟩

/-- **C146** (proved part, what waiting gives). A wait of a client. -/
theorem C146_wait_client_partial (env : Env) (p : HandleAt) (h : Handle) (props : Option Properties) (m : CMem.Heap) (hm : m.OK)
    (others : Multiset Nat) (hl : (m.live : Multiset Nat) = p.blocks + others) {b : WaitResult} (hb : h.clientWait env props = .ok b) :
    ∃ (w : Waited) (m' : CMem.Heap), CMem.clientWait env p h props m = .ok (w, m') ∧ m'.OK ∧
      w.res = b ∧ w.objects.map (fun l => l.entries.length) = b.objects.map List.length ∧ (∀ l, w.objects = some l → Full l.entries) ∧
      (m'.live : Multiset Nat) = w.handle.blocks + imagesOpt w.images + objectsOpt w.objects + opt w.region + others := by
  have hd := clientWait_does env p h props m others hm hl
  rw [hb] at hd
  obtain ⟨w, m', own, h1, h2, ⟨h3, h4, h5, kept, keptR, lost, rfl, hk, hr, hn⟩, h7⟩ := hd
  have e1 : kept = 0 := by simpa [imagesOpt] using hk
  have e2 : keptR = 0 := by simpa [opt] using hr
  have e3 : lost = 0 := Multiset.card_eq_zero.1 hn
  subst e1 e2 e3
  exact ⟨w, m', h1, h2, h3, h5, h4, by rw [h7]; abel⟩

/-! ## When nothing is lost -/

/-- A client whose tracker takes polygons, or no masks, loses nothing in any history. -/
theorem lostAll_client (env : Env) (fuel : Nat) (cs : List Call) : ∀ (h : Handle) (rets : List Int) (h' : Handle),
    h.runCalls env fuel cs = some (rets, h') → h.server = false →
    (h.metadata.regions &&& 8 = 0 ∨ h.metadata.regions &&& 4 ≠ 0) → CMem.Spec.lostAll env fuel h cs = 0 := by
  induction cs with
  | nil => intros; rfl
  | cons c cs ih =>
    intro h rets h' hr hs hm
    have hmask : ∀ l : ObjList, l.countP (fun e => CMem.Spec.masked h.metadata.regions e.1) = 0 := by
      intro l
      rw [List.countP_eq_zero]
      rintro ⟨r, _⟩ _
      rcases r with _ | ⟨_ | _ | _ | _⟩ <;> simp [CMem.Spec.masked] <;> intro h8
      rcases hm with h0 | h4
      · exact absurd h0 h8
      · exact h4
    unfold runCalls at hr
    unfold CMem.Spec.lostAll
    rcases hc : h.call env fuel c with _ | (⟨ret, h2⟩ | _ | _)
    · simp [hc] at hr
    · simp only [hc] at hr ⊢
      obtain ⟨x, hx, _⟩ := Option.map_eq_some_iff.1 hr
      obtain ⟨a1, a2, a3⟩ := call_agreement hc
      rw [ih h2 x.1 x.2 hx (by rw [a1]; exact hs) (by rw [a3]; exact hm)]
      cases c with
      | serverWaitMot p => simp [Handle.call, Handle.serverWaitMot, hs, Outcome.map] at hc
      | clientFrame i o p => cases o with
        | none => rfl
        | some l => simp only [CMem.Spec.lost, hmask]; simp
      | clientInitialize i o p => simp only [CMem.Spec.lost, hmask]; simp
      | _ => rfl
    · simp [hc] at hr
    · simp [hc] at hr

/-- A server that waits with the single-object function only loses nothing in any history. -/
theorem lostAll_server (env : Env) (fuel : Nat) (cs : List Call) : ∀ (h : Handle) (rets : List Int) (h' : Handle),
    h.runCalls env fuel cs = some (rets, h') → h.server = true → (∀ p, Call.serverWaitMot p ∉ cs) →
    CMem.Spec.lostAll env fuel h cs = 0 := by
  induction cs with
  | nil => intros; rfl
  | cons c cs ih =>
    intro h rets h' hr hs hm
    unfold runCalls at hr
    unfold CMem.Spec.lostAll
    rcases hc : h.call env fuel c with _ | (⟨ret, h2⟩ | _ | _)
    · simp [hc] at hr
    · simp only [hc] at hr ⊢
      obtain ⟨x, hx, _⟩ := Option.map_eq_some_iff.1 hr
      obtain ⟨a1, a2, a3⟩ := call_agreement hc
      rw [ih h2 x.1 x.2 hx (by rw [a1]; exact hs) (fun p hp => hm p (List.mem_cons_of_mem _ hp))]
      cases c with
      | serverWaitMot p => exact absurd (List.mem_cons_self ..) (hm p)
      | clientFrame i o p => simp [Handle.call, Handle.clientFrame, hs] at hc
      | clientInitialize i o p => simp [Handle.call, Handle.clientInitialize, hs] at hc
      | _ => rfl
    · simp [hc] at hr
    · simp [hc] at hr

/-- **C146** (proved part). A client of a tracker that takes polygons, or no masks, gives everything back, whatever calls it
makes and whatever it receives. -/
theorem C146_client_clean_partial (env : Env) (fuel : Nat) (stream : Stream) (cs : List Call) (m : CMem.Heap) (hm : m.OK) {h : Handle}
    (hs : Handle.clientSetup stream = .ok (some h)) (hf : h.metadata.regions &&& 8 = 0 ∨ h.metadata.regions &&& 4 ≠ 0)
    {rets : List Int} {h' : Handle} (hr : h.runCalls env fuel cs = some (rets, h')) :
    ∃ m' : CMem.Heap, CMem.clientProgram env fuel stream cs m = .ok (some rets, m') ∧ m'.live.Perm m.live := by
  obtain ⟨m', lost, h1, h2, h3⟩ := C146_client_partial env fuel stream cs m hm hs hr
  have hserver : h.server = false := by
    unfold Handle.clientSetup at hs
    simp only at hs
    split at hs
    · cases hs
    · split at hs
      · cases hs
      · obtain ⟨v, _, hs⟩ := Region.bind_eq_ok hs
        split at hs
        · cases hs
        · split at hs
          · cases hs
          · obtain ⟨_, _, hs⟩ := Region.bind_eq_ok hs
            obtain ⟨_, _, hs⟩ := Region.bind_eq_ok hs
            obtain ⟨_, _, hs⟩ := Region.map_eq_ok hs
            cases hs
            rfl
  rw [lostAll_client env fuel cs h rets h' hr hserver hf] at h3
  rw [List.length_eq_zero_iff.1 h3, List.append_nil] at h2
  exact ⟨m', h1, h2⟩

/-- **C146** (proved part). A server that waits with the function for single objects gives everything back. -/
theorem C146_server_clean_partial (env : Env) (fuel : Nat) (junk : UInt32) (md : Metadata) (stream : Stream) (version : Int)
    (cs : List Call) (m : CMem.Heap) (hm : m.OK) {h : Handle} (hs : Handle.serverSetup junk md stream version = .ok h)
    (hc : ∀ p, Call.serverWaitMot p ∉ cs) {rets : List Int} {h' : Handle} (hr : h.runCalls env fuel cs = some (rets, h')) :
    ∃ m' : CMem.Heap, CMem.serverProgram env fuel junk md stream version cs m = .ok (rets, m') ∧ m'.live.Perm m.live := by
  obtain ⟨m', lost, h1, h2, h3⟩ := C146_server_partial env fuel junk md stream version cs m hm hs hr
  have hserver : h.server = true := by
    unfold Handle.serverSetup at hs
    split at hs
    · obtain ⟨_, _, hs⟩ := Region.map_eq_ok hs
      cases hs
      rfl
    · cases hs
  rw [lostAll_server env fuel cs h rets h' hr hserver hc] at h3
  rw [List.length_eq_zero_iff.1 h3, List.append_nil] at h2
  exact ⟨m', h1, h2⟩

/-! ## Where memory is lost -/

/-- **C146 is false**: a client that is not set up because the tracker did not introduce itself loses the stream. -/
theorem C146_refused_false (env : Env) (fuel : Nat) (stream : Stream) (cs : List Call) (m : CMem.Heap) (hm : m.OK)
    (hs : Handle.clientSetup stream = .ok none) :
    ∃ (m' : CMem.Heap) (lost : Ptr), CMem.clientProgram env fuel stream cs m = .ok (none, m') ∧ m'.live.Perm (m.live ++ [lost]) := by
  have key : Does 0 (CMem.clientProgram env fuel stream cs) (.ok ()) fun a _ w => a = none ∧ w.card = 1 := by
    refine Does.new fun s => ?_
    have hd := clientSetup_does stream s
    rw [hs] at hd
    refine Does.seq (hd.cast (by abel)) ?_
    rintro a w ⟨ha, rfl⟩
    cases a with
    | none => exact Does.pure ⟨rfl, by simp⟩
    | some x => simp at ha
  obtain ⟨a, m', w, h1, _, ⟨rfl, hw⟩, h4⟩ := key m m.live hm (by abel)
  obtain ⟨l, hl, hn⟩ := perm_of_blocks h4 hw
  obtain ⟨q, rfl⟩ := List.length_eq_one_iff.1 hn
  exact ⟨m', q, h1, hl⟩

example : Handle.clientSetup ⟨none, Trax.Spec.bytes b!"@@TRAX:state \"0\" \n", Demo.out⟩ = .ok none := by decide +kernel

/-- What a client sends that starts with a new set of objects `k` times and then ends the session. -/
def restarts : Nat → Str
  | 0 => Trax.Spec.wire .quit [] []
  | k + 1 => Trax.Spec.wire .initialize [] [] ++ restarts k

theorem read_plain (s : Stream) (t : MsgType) (rest : List InEv)
    (hin : s.input = Trax.Spec.bytes (Trax.Spec.wire t [] []) ++ rest) :
    s.read = (⟨some t, [], Properties.create, Trax.Spec.wire t [] [], rest⟩, { s with mtype := some t, input := rest }) := by
  have e : Properties.create.enumerate = [] := rfl
  have := Stream.read_wire s t [] Properties.create Properties.wf_create (by rw [e]; exact ⟨by simp, by simp, by simp, by simp⟩) rest (by rw [e]; exact hin)
  rw [e] at this
  exact this

/-- **C146 is false**: a server loses memory each time the client starts with a new set of objects, so that there is no bound
on what a session loses: here `3 * k` blocks in one wait. -/
theorem C146_restart_false (env : Env) (k : Nat) (m : CMem.Heap) (hm : m.OK) :
    ∃ (m' : CMem.Heap) (lost : List Ptr),
      CMem.serverProgram env (k + 1) 0 Demo.metadata ⟨none, Trax.Spec.bytes (restarts k), Demo.out⟩ 4 [.serverWaitMot none] m =
        .ok ([TRAX_QUIT], m') ∧ m'.live.Perm (m.live ++ lost) ∧ lost.length = 3 * k := by
  have hresets : ∀ (k : Nat) (s : Stream), s.input = Trax.Spec.bytes (restarts k) → CMem.Spec.resets (k + 1) s = k := by
    intro k
    induction k with
    | zero =>
      intro s hs
      have := read_plain s .quit [] (by rw [hs]; simp [restarts])
      simp [CMem.Spec.resets, this]
    | succ k ih =>
      intro s hs
      have := read_plain s .initialize (Trax.Spec.bytes (restarts k)) (by rw [hs]; simp [restarts, Trax.Spec.bytes])
      unfold CMem.Spec.resets
      rw [this]
      simp only
      rw [ih _ rfl]
  have hloop : ∀ (k : Nat) (init : Bool) (h : Handle), h.stream.input = Trax.Spec.bytes (restarts k) →
      ∃ h', Handle.waitMotLoop env 1 none (k + 1) init [] h = some (.ok ⟨TRAX_QUIT, none, none, none, none, h'⟩) := by
    intro k
    induction k with
    | zero =>
      intro init h hs
      have := read_plain h.stream .quit [] (by rw [hs]; simp [restarts])
      exact ⟨{ h with stream := { h.stream with mtype := some .quit, input := [] }, terminated := true }, by
        simp [Handle.waitMotLoop, this, Handle.finishMot]⟩
    | succ k ih =>
      intro init h hs
      have := read_plain h.stream .initialize (Trax.Spec.bytes (restarts k)) (by rw [hs]; simp [restarts, Trax.Spec.bytes])
      obtain ⟨h', hh⟩ := ih true { h with stream := { h.stream with mtype := some .initialize, input := Trax.Spec.bytes (restarts k) }, objects := 0 } rfl
      refine ⟨h', ?_⟩
      unfold Handle.waitMotLoop
      rw [this]
      simp only [List.length_nil, if_true]
      exact hh
  obtain ⟨h, hh, h1, h2, h3, h4⟩ : ∃ h, Handle.serverSetup 0 Demo.metadata ⟨none, Trax.Spec.bytes (restarts k), Demo.out⟩ 4 = .ok h ∧
      h.stream.input = Trax.Spec.bytes (restarts k) ∧ h.server = true ∧ h.terminated = false ∧ h.metadata.channels = 1 :=
    ⟨_, rfl, rfl, rfl, rfl, rfl⟩
  obtain ⟨h', hl⟩ := hloop k false h.clearError h1
  have hc : h.call env (k + 1) (.serverWaitMot none) = some (.ok (TRAX_QUIT, h')) := by
    have ha : h.clearError.alive = true := by simp [alive, Handle.clearError, h3]
    have hcount : ImageList.count h.clearError.metadata.channels = .ok 1 := by
      show ImageList.count h.metadata.channels = _
      rw [h4]; decide +kernel
    simp only [Handle.call, Handle.serverWaitMot, h2, not_true_eq_false, if_false, ha, hcount, hl]
    rfl
  have hr : h.runCalls env (k + 1) [.serverWaitMot none] = some ([TRAX_QUIT], h') := by
    simp [runCalls, hc]
  obtain ⟨m', lost, e1, e2, e3⟩ := C146_server_partial env (k + 1) 0 Demo.metadata _ 4 [.serverWaitMot none] m hm hh hr
  refine ⟨m', lost, e1, e2, ?_⟩
  rw [e3]
  simp only [CMem.Spec.lostAll, CMem.Spec.lost, h3, hc]
  rw [hresets k h.stream h1]
  simp

/-- **C146 is false**: every wait of a multi-object server after the end of the session loses two blocks. -/
theorem C146_ended_false (env : Env) (k : Nat) (m : CMem.Heap) (hm : m.OK) :
    ∃ (m' : CMem.Heap) (lost : List Ptr),
      CMem.serverProgram env 1 0 Demo.metadata ⟨none, [], Demo.out⟩ 4 (.terminate none :: List.replicate k (.serverWaitMot none)) m =
        .ok (TRAX_OK :: List.replicate k TRAX_ERROR, m') ∧ m'.live.Perm (m.live ++ lost) ∧ lost.length = 2 * k := by
  have hrun : ∀ (k : Nat) (h : Handle), h.server = true → h.terminated = true →
      ∃ h', h.runCalls env 1 (List.replicate k (.serverWaitMot none)) = some (List.replicate k TRAX_ERROR, h') ∧
        CMem.Spec.lostAll env 1 h (List.replicate k (.serverWaitMot none)) = 2 * k := by
    intro k
    induction k with
    | zero => exact fun h _ _ => ⟨h, rfl, rfl⟩
    | succ k ih =>
      intro h h1 h2
      have hc : h.call env 1 (.serverWaitMot none) = some (.ok (TRAX_ERROR, h.clearError.setError b!"Server not alive")) := by
        have ha : h.clearError.alive = false := by simp [alive, Handle.clearError, h2]
        simp only [Handle.call, Handle.serverWaitMot, h1, ha]
        rfl
      obtain ⟨h', e1, e2⟩ := ih (h.clearError.setError b!"Server not alive") h1 h2
      refine ⟨h', ?_, ?_⟩
      · simp only [List.replicate_succ, runCalls, hc, e1]; rfl
      · simp only [List.replicate_succ, CMem.Spec.lostAll, hc, e2, CMem.Spec.lost, h2, if_true]; rw [Nat.mul_succ, Nat.add_comm]
  obtain ⟨h, hh, h1, h2⟩ : ∃ h, Handle.serverSetup 0 Demo.metadata ⟨none, [], Demo.out⟩ 4 = .ok h ∧ h.server = true ∧
      h.terminated = false := ⟨_, rfl, rfl, rfl⟩
  have ha : h.clearError.alive = true := by simp [alive, Handle.clearError, h2]
  have ht : (h.terminate none).1 = TRAX_OK ∧ (h.terminate none).2.server = true ∧ (h.terminate none).2.terminated = true := by
    simp only [Handle.terminate, ha]
    exact ⟨rfl, h1, rfl⟩
  obtain ⟨h', e1, e2⟩ := hrun k (h.terminate none).2 ht.2.1 ht.2.2
  have hr : h.runCalls env 1 (.terminate none :: List.replicate k (.serverWaitMot none)) = some (TRAX_OK :: List.replicate k TRAX_ERROR, h') := by
    have hc : h.call env 1 (.terminate none) = some (.ok (TRAX_OK, (h.terminate none).2)) := by
      rw [← ht.1]; rfl
    simp only [runCalls, hc, e1]; rfl
  obtain ⟨m', lost, f1, f2, f3⟩ := C146_server_partial env 1 0 Demo.metadata _ 4 _ m hm hh hr
  refine ⟨m', lost, f1, f2, ?_⟩
  rw [f3]
  have hc : h.call env 1 (.terminate none) = some (.ok (h.terminate none)) := rfl
  simp only [CMem.Spec.lostAll, hc, e2, CMem.Spec.lost]; exact Nat.zero_add _

/-- The triangle of `C43_polygon_mask_false`. -/
def Demo.triangle : Option Region × Properties :=
  (some (.polygon [(.ofInt 0, .ofInt 0), (.ofInt 4, .ofInt 0), (.ofInt 0, .ofInt 3)]), Properties.create)

/-- What a tracker sends that takes masks only. -/
def Demo.maskTracker : Str := b!"@@TRAX:hello \"trax.version=4\" \"trax.image=path;\" \"trax.region=mask;\" \"trax.channels=color;\" \n"

/-- **C146 is false**: a client loses a block for every polygon that it sends to a tracker that takes masks only. -/
theorem C146_polygon_false :
    (match CMem.clientProgram Demo.env 1 ⟨none, Trax.Spec.bytes Demo.maskTracker, Demo.out⟩
        [.clientInitialize Demo.images [Demo.triangle] none, .clientFrame Demo.images (some []) none, .terminate none] ⟨0, []⟩ with
      | .ok (some rets, m') => decide (rets = [TRAX_OK, TRAX_OK, TRAX_OK]) && decide (m'.live.length = 1)
      | _ => false) = true := by
  decide +kernel

/-- **C146 is false**: when a wait fails the caller cannot tell whether the image list that was in the variable is
released: the waits return the same, the variable is empty after both, but one of them released the list and the other did
not. -/
theorem C146_variables_false :
    ((Demo.server 3 b!"@@TRAX:frame \n").any fun h₁ => (Demo.server 3 b!"@@TRAX:frame \"http://a\" \n").any fun h₂ =>
      match CMem.serverWaitSot Demo.env ⟨0, 1, 2, none⟩ h₁ (some ⟨3, []⟩) none none ⟨4, [0, 1, 2, 3]⟩,
        CMem.serverWaitSot Demo.env ⟨0, 1, 2, none⟩ h₂ (some ⟨3, []⟩) none none ⟨4, [0, 1, 2, 3]⟩ with
      | .ok (w₁, m₁), .ok (w₂, m₂) =>
        decide (w₁.res.ret = TRAX_ERROR) && decide (w₂.res.ret = TRAX_ERROR) && w₁.images.isNone && w₂.images.isNone &&
          decide (3 ∉ m₁.live) && decide (3 ∈ m₂.live)
      | _, _ => false) = true := by
  decide +kernel

/-! ## A session in which nothing is lost -/

/-- A server gets two objects and a frame, answers, gets the next frame, and ends; at the end no block is taken. -/
example : (match CMem.serverProgram Demo.env 9 0 Demo.metadata ⟨none, Trax.Spec.bytes
        b!"@@TRAX:initialize \"1,2,3,4\" \n@@TRAX:initialize \"0,0,4,0,0,3\" \n@@TRAX:frame \"file:///a.jpg\" \n@@TRAX:frame \"file:///b.jpg\" \n",
        Demo.out⟩ 4
        [.serverWaitMot none, .serverReplyMot [Demo.object, Demo.target], .serverWaitMot (some Properties.create), .terminate none] ⟨0, []⟩ with
      | .ok (rets, m') => decide (rets = [TRAX_INITIALIZE, TRAX_OK, TRAX_FRAME, TRAX_OK]) && decide (m'.live = []) &&
          decide (m'.next > 50)
      | _ => false) = true := by
  decide +kernel

/-- A client starts the tracker of `Demo.clientStart`, gets its state, and ends. -/
example : ((Demo.serverStart 4).any fun s =>
      match CMem.clientProgram Demo.env 9 ⟨none, Trax.Spec.bytes (s.stream.out.sent ++ b!"@@TRAX:state \"1,2,3,4\" \n"), Demo.out⟩
        [.clientInitialize Demo.images [Demo.target] none, .clientFrame Demo.images none none, .clientWait none, .terminate none] ⟨0, []⟩ with
      | .ok (some rets, m') => decide (rets = [TRAX_OK, TRAX_OK, TRAX_STATE, TRAX_OK]) && decide (m'.live = [])
      | _ => false) = true := by
  decide +kernel

/-- The memory that a call may find: the blocks 0 to 2 are the handle's, 7 is something else. -/
example : (⟨8, [0, 1, 7, 2]⟩ : CMem.Heap).OK ∧
    (([0, 1, 7, 2] : List Nat) : Multiset Nat) = (⟨0, 1, 2, none⟩ : HandleAt).blocks + {7} := by
  refine ⟨⟨by decide, by decide⟩, ?_⟩
  decide +kernel

end Trax
