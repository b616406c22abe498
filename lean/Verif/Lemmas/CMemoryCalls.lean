import Verif.Lemmas.CMemory
import Verif.Lemmas.RegionApi

/-!
# The blocks of each call

Each function of `Verif/Model/CMemory.lean` ends as the function of the same name in `Verif/Model/Handle.lean`, with the
blocks that its comment says.
-/

namespace Trax
namespace CMem

open Handle

variable {α β : Type} {own rest : Multiset Nat}

/-- What a waiting call leaves: the blocks of the handle, those in the variables of the caller, those that were in the
variables before and have been overwritten, and `n` lost ones. -/
structure GoodWait (images : Option ImagesAt) (region : Option Ptr) (n : Nat) (w : Waited) (b : WaitResult) (own : Multiset Nat) : Prop where
  res : w.res = b
  full : ∀ l, w.objects = some l → Full l.entries
  objects : w.objects.map (fun l => l.entries.length) = b.objects.map List.length
  blocks : ∃ kept keptRegion lost : Multiset Nat,
    own = w.handle.blocks + imagesOpt w.images + objectsOpt w.objects + opt w.region + kept + keptRegion + lost ∧
    (kept = 0 ∨ kept = imagesOpt images) ∧ (keptRegion = 0 ∨ keptRegion = opt region) ∧ lost.card = n

theorem GoodWait.simple {images region} {w : Waited} {b : WaitResult} (h1 : w.res = b) (h2 : ∀ l, w.objects = some l → Full l.entries)
    (h3 : w.objects.map (fun l => l.entries.length) = b.objects.map List.length)
    (h : own = w.handle.blocks + imagesOpt w.images + objectsOpt w.objects + opt w.region) : GoodWait images region 0 w b own :=
  ⟨h1, h2, h3, 0, 0, 0, by rw [h]; abel, Or.inl rfl, Or.inl rfl, rfl⟩

theorem objList_set_length {legacy : Bool} {fresh : Nat → List UInt8} {l l' : ObjList} {i : Int} {r : Option Region} (h : ObjList.set legacy fresh l i r = .ok l') :
    l'.length = l.length := by
  unfold ObjList.set at h
  split at h
  · cases h; rfl
  · split at h
    · obtain ⟨c, -, rfl⟩ := Region.map_eq_ok h
      exact List.length_set ..
    · cases h

theorem objList_setProperties_length (l : ObjList) (i : Nat) (p : Properties) : (l.setProperties i p).length = l.length := List.length_modify ..

theorem clientWaitLoop_does (env : Env) (p : HandleAt) (props : Option Properties) (k : Nat) :
    ∀ (i : Nat) (l : ObjectsAt) (acc : ObjList) (ret : Int) (h : Handle), Full l.entries → l.entries.length = acc.length →
    Does (p.blocks + l.blocks) (clientWaitLoop env p i l acc ret props h k) (.of (Handle.clientWaitLoop env i acc ret props h k))
      (GoodWait none none 0) := by
  induction k with
  | zero =>
    intro i l acc ret h hf hlen
    refine Does.pure (GoodWait.simple rfl (fun l' e => ?_) (by simp [hlen]) ?_)
    · simp only [Option.some.injEq] at e; rw [← e]; exact hf
    · simp only [imagesOpt, objectsOpt, opt]; abel
  | succ k ih =>
    intro i l acc ret h hf hlen
    have hfail : ∀ (r : Received) (x : WaitResult), x.objects = none →
        Does (r.blocks + (p.blocks + l.blocks)) (r.release >>= fun _ => releaseObjects l >>= fun _ =>
          (Pure.pure ⟨x, p, none, none, none⟩ : Prog Waited)) (.ok x) (GoodWait none none 0) := by
      intro r x hx
      refine release_bind rfl (releaseObjects_bind hf (rest := p.blocks) (by abel) (Does.pure (GoodWait.simple rfl ?_ ?_ ?_)))
      · intro l' e; simp at e
      · simp [hx]
      · simp only [imagesOpt, objectsOpt, opt]; abel
    refine receive_bind fun r hm hs _ => ?_
    have hrd : h.stream.read = (r.msg, r.stream) := by rw [hm, hs]
    simp only [Handle.clientWaitLoop, hrd]
    rcases hmt : r.msg.mtype with _ | t
    · exact hfail r _ rfl
    · cases t with
      | hello => exact release_bind rfl (ih (i + 1) l acc _ _ hf hlen)
      | «initialize» => exact release_bind rfl (ih (i + 1) l acc _ _ hf hlen)
      | frame => exact release_bind rfl (ih (i + 1) l acc _ _ hf hlen)
      | quit =>
        simp only
        by_cases ha : r.msg.args.length ≠ 0
        · simp only [if_pos ha]; exact hfail r _ rfl
        · simp only [if_neg ha]; exact hfail r _ rfl
      | state =>
        simp only
        rcases hargs : r.msg.args with _ | ⟨text, _ | ⟨b, rest⟩⟩
        · exact hfail r _ rfl
        · simp only
          refine Does.outcome fun parsed hp => ?_
          by_cases hz : parsed.ret = 0
          · simp only [if_pos hz]; exact hfail r _ rfl
          · simp only [if_neg hz]
            refine Does.outcome fun acc' ha => ?_
            cases hr : parsed.region with
            | none => exact Does.ub
            | some _ =>
              simp only
              refine Does.new fun q => ?_
              refine setObject_bind hf (rest := {q} + r.blocks + p.blocks) (by abel) fun l' hf' hlen' => ?_
              refine Does.free (rest := l'.blocks + r.blocks + p.blocks) (by abel) ?_
              refine release_bind (rest := p.blocks + l'.blocks) (by abel) ?_
              exact ih (i + 1) l' _ _ _ hf' (by rw [hlen', objList_setProperties_length, objList_set_length ha, hlen])
        · exact hfail r _ rfl

/-- `trax_client_wait` loses nothing. -/
theorem clientWait_does (env : Env) (p : HandleAt) (h : Handle) (props : Option Properties) :
    Does p.blocks (clientWait env p h props) (.of (h.clientWait env props)) (GoodWait none none 0) := by
  unfold clientWait Handle.clientWait
  by_cases hs : h.server = true
  · simp only [if_pos hs]; exact Does.abort
  · simp only [if_neg hs]
    by_cases ha : ¬ h.alive = true
    · simp only [if_pos ha]
      refine setError_bind (rest := 0) (by abel) fun q => Does.pure (GoodWait.simple rfl (fun l' e => by simp at e) rfl ?_)
      simp only [imagesOpt, objectsOpt, opt]; abel
    · simp only [if_neg ha]
      refine createObjects_bind fun l hf hlen => ?_
      exact (clientWaitLoop_does env p props _ 0 l _ _ h hf (by rw [hlen]; simp [ObjList.create])).cast (by abel)

theorem decodeImages_does (env : Env) (m : Metadata) (is : List Nat) : ∀ args : List Str,
    Does 0 (decodeImages env m is args) (.of (Handle.decodeImages env m is args))
      fun a b w => a.1 = b ∧ w = imagesBlocks a.2 := by
  induction is with
  | nil => exact fun _ => Does.pure ⟨rfl, rfl⟩
  | cons i is ih =>
    intro args
    unfold decodeImages Handle.decodeImages
    by_cases hc : supports m.channels (ImageList.channelId i) = true
    · simp only [if_pos hc]
      cases args with
      | nil => exact Does.ub
      | cons text args =>
        simp only
        refine Does.outcome fun d hd => ?_
        cases hi : d.image with
        | none => exact Does.pure ⟨rfl, by simp [imagesBlocks, opt]⟩
        | some img =>
          simp only
          refine Does.new fun p => ?_
          by_cases hf : supports m.images (UInt32.ofNat img.type) = true
          · simp only [if_pos hf]
            refine Does.bind_frame {p} (ih args) (by abel) ?_
            rintro a b w _ ⟨rfl, rfl⟩
            refine Does.pure ⟨rfl, ?_⟩
            simp only [imagesBlocks, List.map_cons, List.sum_cons, opt]; abel
          · simp only [if_neg hf]
            exact Does.pure ⟨rfl, by simp [imagesBlocks, opt]⟩
    · simp only [if_neg hc]
      refine Does.bind_frame 0 (ih args) (by abel) ?_
      rintro a b w _ ⟨rfl, rfl⟩
      refine Does.pure ⟨rfl, ?_⟩
      simp only [imagesBlocks, List.map_cons, List.sum_cons, opt]; abel

theorem failSot_own {r : Received} {p : HandleAt} {images : Option ImagesAt} {region : Option Ptr} {props : Option Properties}
    {h : Handle} {kept keptRegion : Multiset Nat} {images0 : Option ImagesAt} {region0 : Option Ptr}
    (hk : kept = 0 ∨ kept = imagesOpt images0) (hr : keptRegion = 0 ∨ keptRegion = opt region0)
    (he : own = r.blocks + p.blocks + imagesOpt images + opt region + kept + keptRegion) :
    Does own (failSot r p images region props h) (.ok ⟨TRAX_ERROR, none, none, none, props, h⟩) (GoodWait images0 region0 0) := by
  refine releaseImagesIf_bind (rest := r.blocks + p.blocks + opt region + kept + keptRegion) (by rw [he]; abel) ?_
  refine Does.freeIf (rest := r.blocks + p.blocks + kept + keptRegion) (by abel) ?_
  refine release_bind (rest := p.blocks + kept + keptRegion) (by abel) (Does.pure ⟨rfl, fun l e => by simp at e, rfl, ?_⟩)
  refine ⟨kept, keptRegion, 0, ?_, hk, hr, rfl⟩
  simp only [imagesOpt, objectsOpt, opt]; abel

/-- `trax_server_wait_sot` loses nothing but what it overwrites in the variables of the caller. -/
theorem serverWaitSot_does (env : Env) (p : HandleAt) (h : Handle) (images : Option ImagesAt) (region : Option Ptr)
    (props : Option Properties) :
    Does (p.blocks + imagesOpt images + opt region) (serverWaitSot env p h images region props) (.of (h.serverWaitSot env props))
      (GoodWait images region 0) := by
  unfold serverWaitSot Handle.serverWaitSot
  by_cases hs : ¬ h.server = true
  · simp only [if_pos hs]; exact Does.abort
  simp only [if_neg hs]
  refine clearError_bind (rest := imagesOpt images + opt region) (by abel) fun p _ => ?_
  generalize h.clearError = h
  by_cases ha : ¬ h.alive = true
  · simp only [if_pos ha]
    refine setError_bind rfl fun q => Does.pure (GoodWait.simple rfl (fun l e => by simp at e) rfl ?_)
    simp only [objectsOpt]; abel
  simp only [if_neg ha]
  by_cases hv : h.isV4 = true
  · simp only [if_pos hv]
    refine setError_bind rfl fun q => Does.pure (GoodWait.simple rfl (fun l e => by simp at e) rfl ?_)
    simp only [objectsOpt]; abel
  simp only [if_neg hv]
  refine Does.outcome fun count hcount => ?_
  refine receive_bind fun r hm hst htexts => ?_
  have hrd : h.stream.read = (r.msg, r.stream) := by rw [hm, hst]
  simp only [hrd]
  rcases hmt : r.msg.mtype with _ | t
  · exact failSot_own (Or.inl rfl) (Or.inl rfl) (by abel)
  cases t with
  | hello => exact failSot_own (Or.inl rfl) (Or.inl rfl) (by abel)
  | state => exact failSot_own (Or.inl rfl) (Or.inl rfl) (by abel)
  | quit =>
    simp only
    by_cases hl : r.msg.args.length ≠ 0
    · simp only [if_pos hl]
      exact setError_bind (rest := r.blocks + imagesOpt images + opt region) (by abel) fun q =>
        failSot_own (Or.inl rfl) (Or.inl rfl) (by abel)
    · simp only [if_neg hl]
      refine release_bind rfl (Does.pure (GoodWait.simple rfl (fun l e => by simp at e) rfl ?_))
      simp only [objectsOpt]; abel
  | frame =>
    simp only
    by_cases hl : r.msg.args.length ≠ count
    · simp only [if_pos hl]
      exact setError_bind (rest := r.blocks + imagesOpt images + opt region) (by abel) fun q =>
        failSot_own (Or.inl rfl) (Or.inl rfl) (by abel)
    · simp only [if_neg hl]
      refine Does.new fun l => ?_
      refine Does.bind_frame ({l} + r.blocks + p.blocks + imagesOpt images + opt region) (decodeImages_does env _ _ _) (by abel) ?_
      rintro ⟨d, ds⟩ b w _ ⟨rfl, rfl⟩
      cases d with
      | none =>
        simp only
        refine failSot_own (kept := imagesOpt images) (keptRegion := 0) (Or.inr rfl) (Or.inl rfl) ?_
        simp only [imagesOpt, ImagesAt.blocks]; abel
      | some imgs =>
        simp only
        refine release_bind (rest := imagesBlocks ds + ({l} + p.blocks + imagesOpt images + opt region)) (by abel)
          (Does.pure ⟨rfl, fun l e => by simp at e, rfl, imagesOpt images, 0, 0, ?_, Or.inr rfl, Or.inl rfl, rfl⟩)
        simp only [imagesOpt, ImagesAt.blocks, objectsOpt]; abel
  | «initialize» =>
    simp only
    by_cases hl : r.msg.args.length ≠ count + 1
    · simp only [if_pos hl]
      exact setError_bind (rest := r.blocks + imagesOpt images + opt region) (by abel) fun q =>
        failSot_own (Or.inl rfl) (Or.inl rfl) (by abel)
    · simp only [if_neg hl]
      refine Does.new fun l => ?_
      refine Does.bind_frame ({l} + r.blocks + p.blocks + imagesOpt images + opt region) (decodeImages_does env _ _ _) (by abel) ?_
      rintro ⟨d, ds⟩ b w _ ⟨rfl, rfl⟩
      cases d with
      | none =>
        simp only
        refine failSot_own (kept := imagesOpt images) (keptRegion := 0) (Or.inr rfl) (Or.inl rfl) ?_
        simp only [imagesOpt, ImagesAt.blocks]; abel
      | some imgs =>
        simp only
        cases r.msg.args[(channelIndexes.filter fun i => supports h.metadata.channels (ImageList.channelId i)).length]? with
        | none => exact Does.ub
        | some text =>
          simp only
          refine Does.outcome fun parsed hp => ?_
          by_cases hz : parsed.ret = 0
          · simp only [if_pos hz]
            refine failSot_own (kept := imagesOpt images) (keptRegion := opt region) (Or.inr rfl) (Or.inr rfl) ?_
            simp only [imagesOpt, ImagesAt.blocks, opt]; abel
          · simp only [if_neg hz]
            refine Does.newIf fun q hq => ?_
            refine release_bind (rest := opt q + (imagesBlocks ds + ({l} + p.blocks + imagesOpt images + opt region))) (by abel)
              (Does.pure ⟨rfl, fun l e => by simp at e, rfl, imagesOpt images, opt region, 0, ?_, Or.inr rfl, Or.inr rfl, rfl⟩)
            simp only [imagesOpt, ImagesAt.blocks, objectsOpt]; abel

/-! ## `trax_server_wait_mot` -/

/-- The blocks of the objects received so far. -/
def itemsBlocks (os : List Item) : Multiset Nat := (os.map fun o => opt o.regionAt + {o.propsAt}).sum

/-- The blocks fit the regions. -/
def Fits (os : List Item) : Prop := ∀ o ∈ os, o.regionAt.isSome = o.region.isSome

theorem releaseItems_does (os : List Item) (hf : Fits os) : Does (itemsBlocks os) (releaseItems os)
    (.of (if (os.map Item.value).all (fun e => e.1.isSome) then .ok () else .ub)) fun _ _ w => w = 0 := by
  induction os with
  | nil => exact Does.pure rfl
  | cons o os ih =>
    have h1 := hf o (List.mem_cons_self ..)
    unfold releaseItems
    cases hr : o.regionAt with
    | none =>
      have : o.region.isSome = false := by rw [← h1, hr]; rfl
      simp only [List.map_cons, List.all_cons, Item.value, this, Bool.false_and]
      exact fun _ _ _ _ => rfl
    | some q =>
      have : o.region.isSome = true := by rw [← h1, hr]; rfl
      simp only [List.map_cons, List.all_cons, Item.value, this, Bool.true_and]
      refine Does.free (rest := {o.propsAt} + itemsBlocks os) ?_ ?_
      · simp only [itemsBlocks, List.map_cons, List.sum_cons, hr, opt]; abel
      · exact Does.free rfl (ih fun o ho => hf o (List.mem_cons_of_mem _ ho))

theorem failMot_does {a : Arrays} {r : Received} {p : HandleAt} {images : Option ImagesAt} {objs : List Item}
    {props : Option Properties} {h : Handle} {kept lost : Multiset Nat} {n : Nat} {images0 : Option ImagesAt} (hf : Fits objs)
    (hk : kept = 0 ∨ kept = imagesOpt images0) (hn : lost.card = n)
    (he : own = {a.regions} + {a.properties} + r.blocks + p.blocks + imagesOpt images + itemsBlocks objs + kept + lost) :
    Does own (failMot a r p images objs props h) (.of (Handle.failMot (objs.map Item.value) props h)) (GoodWait images0 none n) := by
  have hfm : Handle.failMot (objs.map Item.value) props h =
      (if (objs.map Item.value).all (fun e => e.1.isSome) then (.ok () : Outcome Unit) else .ub).bind
        fun _ => .ok ⟨TRAX_ERROR, none, none, none, props, h⟩ := by
    unfold Handle.failMot
    split_ifs <;> rfl
  rw [hfm]
  unfold failMot
  refine releaseImagesIf_bind
    (rest := itemsBlocks objs + ({a.regions} + {a.properties} + r.blocks + p.blocks + kept + lost)) (by rw [he]; abel) ?_
  refine Does.bind_frame ({a.regions} + {a.properties} + r.blocks + p.blocks + kept + lost) (releaseItems_does objs hf) (by rfl) ?_
  rintro _ b w _ rfl
  refine release_bind (rest := {a.regions} + {a.properties} + p.blocks + kept + lost) (by abel) ?_
  refine Does.free (rest := {a.properties} + p.blocks + kept + lost) (by abel) ?_
  refine Does.free (rest := p.blocks + kept + lost) (by abel)
    (Does.pure ⟨rfl, fun l e => by simp at e, rfl, kept, 0, lost, ?_, hk, Or.inl rfl, hn⟩)
  simp only [imagesOpt, objectsOpt, opt]; abel

/-- Storing NULL and releasing it. -/
theorem setObject_none {l : ObjectsAt} {i : Nat} {g : Unit → ObjectsAt → Prog α} {Q : α → β → Multiset Nat → Prop} (hf : Full l.entries)
    (he : own = l.blocks + rest) :
    Does own (setObject l i (Option.isSome (none : Option Ptr)) >>= fun l' => releaseRegion none >>= fun u => g u l') (.ub : Res β) Q := by
  unfold setObject
  cases hi : l.entries[i]? with
  | none => exact fun _ _ _ _ => rfl
  | some e =>
    obtain ⟨r, p⟩ := e
    cases r with
    | none => exact fun _ _ _ _ => rfl
    | some r =>
      intro m fr hm hl
      have hmem : r ∈ m.live := by
        have h1 : r ∈ entriesBlocks l.entries := mem_entries (List.mem_of_getElem? hi) (by simp [entryBlocks, opt])
        have : r ∈ (m.live : Multiset Nat) := by
          rw [hl, he]
          simp only [ObjectsAt.blocks, Multiset.mem_add]
          exact Or.inl (Or.inl (Or.inr h1))
        exact this
      have hfr : CMem.free r m = .ok ((), ⟨m.next, m.live.erase r⟩) := by simp [CMem.free, hmem]
      simp only [releaseRegion, bind_apply, hfr]
      rfl

theorem buildObjects_does (env : Env) (os : List Item) : ∀ (i : Nat) (l : ObjectsAt), Fits os → Full l.entries →
    Does (l.blocks + itemsBlocks os) (buildObjects env i l os) (.of (Handle.buildObjects env (os.map Item.value)))
      fun a b w => a.1 = b ∧ Full a.2.entries ∧ w = a.2.blocks ∧ a.2.entries.length = l.entries.length ∧ b.length = os.length := by
  induction os with
  | nil => exact fun i l _ hf => Does.pure ⟨rfl, hf, by simp [itemsBlocks], rfl, rfl⟩
  | cons o os ih =>
    intro i l hfit hf
    have h1 := hfit o (List.mem_cons_self ..)
    unfold buildObjects
    simp only [List.map_cons, Item.value, Handle.buildObjects]
    refine Does.outcome fun c hc => ?_
    cases hr : o.regionAt with
    | none =>
      have : o.region = none := by cases hreg : o.region with
        | none => rfl
        | some x => rw [hr, hreg] at h1; simp at h1
      simp only [this]
      exact setObject_none hf (by rw [add_comm])
    | some q =>
      obtain ⟨x, hx⟩ : ∃ x, o.region = some x := by
        cases hreg : o.region with
        | none => rw [hr, hreg] at h1; simp at h1
        | some x => exact ⟨x, rfl⟩
      simp only [hx, Option.isSome_some]
      refine setObject_bind hf (rest := {q} + ({o.propsAt} + itemsBlocks os)) ?_ fun l' hf' hlen => ?_
      · simp only [itemsBlocks, List.map_cons, List.sum_cons, hr, opt]; abel
      refine Does.free (rest := l'.blocks + ({o.propsAt} + itemsBlocks os)) (by abel) ?_
      refine Does.free (rest := l'.blocks + itemsBlocks os) (by abel) ?_
      refine Does.bind_frame 0 (ih (i + 1) l' (fun o ho => hfit o (List.mem_cons_of_mem _ ho)) hf') (by abel) ?_
      rintro a b w _ ⟨rfl, h2, rfl, h3, h4⟩
      exact Does.pure ⟨rfl, h2, by abel, h3.trans hlen, by simp [h4]⟩

/-- The length of the objects without their blocks. -/
theorem value_length (os : List Item) : (os.map Item.value).length = os.length := List.length_map ..

theorem finishMot_does {env : Env} {a : Arrays} {r : Received} {p : HandleAt} {images : Option ImagesAt} {ret : Int}
    {list : Option ImageList} {objs : List Item} {props : Option Properties} {h : Handle} {kept lost : Multiset Nat} {n : Nat}
    {images0 : Option ImagesAt} (hf : Fits objs) (hk : kept = 0 ∨ kept = imagesOpt images0) (hn : lost.card = n)
    (he : own = {a.regions} + {a.properties} + r.blocks + p.blocks + imagesOpt images + itemsBlocks objs + kept + lost) :
    Does own (finishMot env a r p images ret list objs props h)
      (.of (Handle.finishMot env ret list (objs.map Item.value) props h)) (GoodWait images0 none n) := by
  unfold finishMot Handle.finishMot
  rw [value_length]
  by_cases hl : objs.length ≠ 0
  · simp only [if_pos hl]
    refine createObjects_bind fun l hfull hlen => ?_
    refine Does.bind_frame ({a.regions} + {a.properties} + r.blocks + p.blocks + imagesOpt images + kept + lost)
      (buildObjects_does env objs 0 l hf hfull) (by rw [he]; abel) ?_
    rintro ⟨b1, l'⟩ b w _ ⟨rfl, hfull', rfl, hl1, hl2⟩
    refine release_bind (rest := l'.blocks + ({a.regions} + {a.properties} + p.blocks + imagesOpt images + kept + lost)) (by abel) ?_
    refine Does.free (rest := l'.blocks + ({a.properties} + p.blocks + imagesOpt images + kept + lost)) (by abel) ?_
    refine Does.free (rest := l'.blocks + (p.blocks + imagesOpt images + kept + lost)) (by abel)
      (Does.pure ⟨rfl, fun l e => ?_, by simpa using hl1.trans (hlen.trans hl2.symm), kept, 0, lost, ?_, hk, Or.inl rfl, hn⟩)
    · simp only [Option.some.injEq] at e; rw [← e]; exact hfull'
    · simp only [objectsOpt, opt]; abel
  · simp only [if_neg hl]
    have h0 : itemsBlocks objs = 0 := by
      have : objs = [] := List.length_eq_zero_iff.1 (not_not.1 hl)
      rw [this]; rfl
    refine release_bind (rest := {a.regions} + {a.properties} + p.blocks + imagesOpt images + kept + lost) (by rw [he, h0]; abel) ?_
    refine Does.free (rest := {a.properties} + p.blocks + imagesOpt images + kept + lost) (by abel) ?_
    refine Does.free (rest := p.blocks + imagesOpt images + kept + lost) (by abel)
      (Does.pure ⟨rfl, fun l e => by simp at e, rfl, kept, 0, lost, ?_, hk, Or.inl rfl, hn⟩)
    simp only [objectsOpt, opt]; abel

theorem waitMotLoop_does (env : Env) (a : Arrays) (images : Option ImagesAt) (count : Nat) (props : Option Properties) (fuel : Nat) :
    ∀ (p : HandleAt) (init : Bool) (objs : List Item) (h : Handle) (lost : Multiset Nat), Fits objs →
    Does ({a.regions} + {a.properties} + p.blocks + imagesOpt images + itemsBlocks objs + lost)
      (waitMotLoop env a p images count props fuel init objs h)
      (.ofOption (Handle.waitMotLoop env count props fuel init (objs.map Item.value) h))
      (GoodWait images none (lost.card + 3 * Spec.resets fuel h.stream)) := by
  induction fuel with
  | zero => exact fun _ _ _ _ _ _ => Does.more
  | succ fuel ih =>
    intro p init objs h lost hf
    unfold waitMotLoop
    refine receive_bind fun r hm hst htexts => ?_
    have hrd : h.stream.read = (r.msg, r.stream) := by rw [hm, hst]
    have hfail : ∀ (p : HandleAt) (h' : Handle), Does (r.blocks + ({a.regions} + {a.properties} + p.blocks + imagesOpt images + itemsBlocks objs + lost))
        (failMot a r p images objs props h') (.of (Handle.failMot (objs.map Item.value) props h')) (GoodWait images none lost.card) :=
      fun p h' => failMot_does hf (Or.inl rfl) rfl (by abel)
    have herr : ∀ (h' : Handle), Does (r.blocks + ({a.regions} + {a.properties} + p.blocks + imagesOpt images + itemsBlocks objs + lost))
        (setError p >>= fun p => failMot a r p images objs props h') (.of (Handle.failMot (objs.map Item.value) props h'))
        (GoodWait images none lost.card) := fun h' =>
      setError_bind (rest := r.blocks + ({a.regions} + {a.properties} + imagesOpt images + itemsBlocks objs + lost)) (by abel)
        fun q => (hfail q h').cast (by abel)
    simp only [Handle.waitMotLoop, Spec.resets, hrd, value_length]
    rcases hmt : r.msg.mtype with _ | t
    · exact hfail p _
    cases t with
    | hello => exact release_bind rfl (ih p init objs _ lost hf)
    | state => exact release_bind rfl (ih p init objs _ lost hf)
    | quit =>
      simp only
      by_cases hl : r.msg.args.length ≠ 0
      · simp only [if_pos hl]; exact herr _
      · simp only [if_neg hl]; exact finishMot_does hf (Or.inl rfl) rfl (by abel)
    | frame =>
      simp only
      by_cases hi : init = true ∧ objs.length = 0
      · simp only [if_pos hi]; exact herr _
      · simp only [if_neg hi]
        by_cases hl : r.msg.args.length ≠ count
        · simp only [if_pos hl]; exact herr _
        · simp only [if_neg hl]
          refine Does.new fun l => ?_
          show Does _ _ (.of (Outcome.bind _ _)) _
          refine Does.bind_frame ({l} + r.blocks + ({a.regions} + {a.properties} + p.blocks + imagesOpt images + itemsBlocks objs + lost))
            (decodeImages_does env _ _ _) (by abel) ?_
          rintro ⟨d, ds⟩ b w _ ⟨rfl, rfl⟩
          cases d with
          | none =>
            refine failMot_does (kept := imagesOpt images) (lost := lost) hf (Or.inr rfl) rfl ?_
            simp only [imagesOpt, ImagesAt.blocks]; abel
          | some imgs =>
            refine finishMot_does (kept := imagesOpt images) (lost := lost) hf (Or.inr rfl) rfl ?_
            simp only [imagesOpt, ImagesAt.blocks]; abel
    | «initialize» =>
      simp only
      rcases hargs : r.msg.args with _ | ⟨text, _ | ⟨b, rest⟩⟩
      · simp only [List.length_nil, if_true]
        have := ih p true objs { h with stream := r.stream, objects := 0 } (lost + r.blocks) hf
        have hc : r.blocks.card = 3 := by
          have : r.args.texts = [] := List.length_eq_zero_iff.1 (by rw [htexts, hargs]; rfl)
          simp [Received.blocks, TextsAt.blocks, this]
        refine (this.cast (by abel)).mono fun w b own hw => ?_
        have e : (lost + r.blocks).card + 3 * Spec.resets fuel r.stream = lost.card + 3 * (Spec.resets fuel r.stream + 1) := by
          rw [Multiset.card_add, hc]; omega
        rw [← e]
        exact hw
      · simp only [List.length_cons, List.length_nil]
        rw [if_neg (by simp), if_neg (by simp)]
        cases hp : Region.parse text with
        | abort => exact fun _ _ _ _ => rfl
        | ub => exact fun _ _ _ _ => rfl
        | ok parsed =>
          simp only
          show Does _ (if parsed.ret = 0 then _ else _) _ _
          by_cases hz : parsed.ret = 0
          · simp only [if_pos hz]; exact hfail p _
          · simp only [if_neg hz]
            refine Does.newIf fun q hq => Does.new fun pr => ?_
            refine release_bind (rest := {pr} + (opt q + ({a.regions} + {a.properties} + p.blocks + imagesOpt images + itemsBlocks objs + lost)))
              (by abel) ?_
            have := ih p true (objs ++ [⟨parsed.region, copyAll r.msg.props Properties.create, q, pr⟩]) { h with stream := r.stream } lost
              (by
                intro o ho
                rcases List.mem_append.1 ho with ho | ho
                · exact hf o ho
                · rw [List.mem_singleton.1 ho]; exact hq)
            simp only [List.map_append, List.map_cons, List.map_nil, Item.value] at this
            refine this.cast ?_
            simp only [itemsBlocks, List.map_append, List.map_cons, List.map_nil, List.sum_append, List.sum_cons, List.sum_nil]
            abel
      · simp only [List.length_cons]
        rw [if_neg (by simp), if_neg (by simp)]
        exact herr _

/-- `trax_server_wait_mot` loses its two arrays if the session is over and otherwise the list and the properties of every
message that takes all objects away. -/
theorem serverWaitMot_does (env : Env) (fuel : Nat) (p : HandleAt) (h : Handle) (images : Option ImagesAt) (props : Option Properties) :
    Does (p.blocks + imagesOpt images) (serverWaitMot env fuel p h images props) (.ofOption (h.serverWaitMot env fuel props))
      (GoodWait images none (if h.terminated then 2 else 3 * Spec.resets fuel h.stream)) := by
  unfold serverWaitMot Handle.serverWaitMot
  refine Does.new fun a1 => Does.new fun a2 => ?_
  by_cases hs : ¬ h.server = true
  · simp only [if_pos hs]; exact Does.abort
  simp only [if_neg hs]
  refine clearError_bind (rest := {a1} + {a2} + imagesOpt images) (by abel) fun p _ => ?_
  have ht : h.clearError.terminated = h.terminated := rfl
  have hst : h.clearError.stream = h.stream := rfl
  rw [← ht, ← hst]
  generalize h.clearError = h
  by_cases ha : ¬ h.alive = true
  · simp only [if_pos ha]
    refine setError_bind rfl fun q => Does.pure ⟨rfl, fun l e => by simp at e, rfl, 0, 0, {a1} + {a2}, ?_, Or.inl rfl, Or.inl rfl, ?_⟩
    · simp only [objectsOpt, opt]; abel
    · have : h.terminated = true := by simpa [alive] using ha
      simp [this]
  · simp only [if_neg ha]
    have hal : h.terminated = false := by simpa [alive] using ha
    cases hc : ImageList.count h.metadata.channels with
    | abort => exact fun _ _ _ _ => rfl
    | ub => exact fun _ _ _ _ => rfl
    | ok count =>
      have := waitMotLoop_does env ⟨a1, a2⟩ images count props fuel p false [] h 0 (by simp [Fits])
      simp only [hal, Bool.false_eq_true, if_false]
      refine (this.cast ?_).mono fun w b own hw => ?_
      · simp only [itemsBlocks, List.map_nil, List.sum_nil]; abel
      · simpa using hw

/-! ## Sending -/

theorem encodeImages_does (channels : UInt32) (images : ImageList) (is : List Nat) : ∀ l : TextsAt,
    Does l.blocks (encodeImages channels images l is) (.of (Handle.encodeImages channels images is))
      fun a b w => a.1 = b ∧ w = a.2.blocks := by
  induction is with
  | nil => exact fun l => Does.pure ⟨rfl, rfl⟩
  | cons i is ih =>
    intro l
    unfold encodeImages Handle.encodeImages
    by_cases hc : supports channels (ImageList.channelId i) = true
    · simp only [if_pos hc]
      cases images[i]? with
      | none => exact Does.ub
      | some img =>
        cases img with
        | none => exact Does.pure ⟨rfl, rfl⟩
        | some img =>
          simp only
          refine Does.outcome fun text _ => Does.new fun b => ?_
          refine Does.bind_frame 0 (ih (appendDirect l b)) (by rw [appendDirect_blocks]; abel) ?_
          rintro a b w _ ⟨rfl, rfl⟩
          exact Does.pure ⟨rfl, by abel⟩
    · simp only [if_neg hc]
      exact ih l

theorem supports_iff (f m : UInt32) : supports f m = true ↔ f &&& m ≠ 0 := by
  unfold supports
  by_cases h : f &&& m = 0 <;> simp [h]

/-- The converted region, and a lost container if a polygon becomes a mask. -/
theorem sentText_does (formats : UInt32) (r : Region) (given : Bool) :
    Does 0 (sentText formats r given) (.ok ()) fun q _ w => q.isSome = given ∧ ∃ lost : Multiset Nat, w = opt q + lost ∧
      lost.card = if Spec.masked formats (some r) then 1 else 0 := by
  unfold sentText
  by_cases hs : supports formats r.apiType = true
  · simp only [if_pos hs]
    rw [← bind_pure' (newIf given)]
    refine Does.newIf fun q hq => Does.pure ⟨hq, 0, rfl, ?_⟩
    have : Spec.masked formats (some r) = false := by
      rw [supports_iff] at hs
      cases r with
      | polygon ps =>
        have : formats &&& 4 ≠ 0 := hs
        simp [Spec.masked, this]
      | _ => rfl
    simp [this]
  · simp only [if_neg hs]
    have hm : (supports formats 8 = true ∧ r.type = .polygon) ↔ Spec.masked formats (some r) = true := by
      rw [supports_iff] at hs ⊢
      cases r with
      | polygon ps =>
        have : formats &&& 4 = 0 := not_not.1 hs
        simp [Spec.masked, this, Region.type]
      | _ => simp [Spec.masked, Region.type]
    by_cases hp : supports formats 8 = true ∧ r.type = .polygon
    · rw [if_pos (hm.1 hp)]
      have : (convertRegion r formats) = (new >>= fun _ => new) := by unfold convertRegion; rw [if_pos hp]
      rw [this]
      show Does 0 (new >>= fun a => new >>= fun c => newIf given >>= fun data => free c >>= fun _ => (Pure.pure data : Prog (Option Ptr))) _ _
      refine Does.new fun a => Does.new fun c => Does.newIf fun q hq => ?_
      refine Does.free (rest := opt q + {a}) (by abel) (Does.pure ⟨hq, {a}, rfl, by simp⟩)
    · rw [if_neg (fun h => hp (hm.2 h))]
      have : (convertRegion r formats) = new := by unfold convertRegion; rw [if_neg hp]
      rw [this]
      refine Does.new fun c => Does.newIf fun q hq => ?_
      refine Does.free (rest := opt q) (by abel) (Does.pure ⟨hq, 0, by abel, rfl⟩)

theorem regionArgument_does (env : Env) (formats : UInt32) (r : Option Region) (l : TextsAt) :
    Does l.blocks (regionArgument env formats r l) (.of (Handle.regionArgument env formats r))
      fun a b w => a.1 = b ∧ ∃ lost : Multiset Nat, w = a.2.blocks + lost ∧ lost.card = if Spec.masked formats r then 1 else 0 := by
  cases r with
  | none => exact Does.ub
  | some r =>
    unfold regionArgument Handle.regionArgument
    refine Does.outcome fun r' _ => ?_
    show Does _ _ (.of (r'.string.bind _)) _
    refine Does.outcome fun text _ => ?_
    refine Does.seq_frame l.blocks (sentText_does formats r text.isSome) (by abel) ?_
    rintro q w ⟨hq, lost, rfl, hc⟩
    cases q with
    | none => exact Does.pure ⟨rfl, lost, by simp only [opt]; abel, hc⟩
    | some q =>
      simp only
      refine appendText_bind (rest := {q} + lost) (by simp only [opt]; abel) fun l' => ?_
      refine Does.free (rest := l'.blocks + lost) (by abel) (Does.pure ⟨rfl, lost, rfl, hc⟩)

theorem sendObjects_does (env : Env) (formats : UInt32) (objects : ObjList) : ∀ s : Stream,
    Does 0 (sendObjects env formats s objects) (.of (Handle.sendObjects env formats s objects))
      fun a b w => a = b ∧ w.card = objects.countP fun e => Spec.masked formats e.1 := by
  induction objects with
  | nil => exact fun s => Does.pure ⟨rfl, rfl⟩
  | cons e rest ih =>
    intro s
    obtain ⟨r, p⟩ := e
    unfold sendObjects Handle.sendObjects
    refine createTexts_bind fun l => ?_
    refine Does.bind_frame 0 (regionArgument_does env formats r l) (by abel) ?_
    rintro ⟨args, l'⟩ b w _ ⟨rfl, lost, rfl, hc⟩
    refine destroyTexts_bind (rest := lost) (by abel) ?_
    rw [← bind_pure' (sendObjects _ _ _ _)]
    have hb : ∀ o : Outcome Stream, o = o.bind .ok := by intro o; cases o <;> rfl
    rw [hb (Handle.sendObjects _ _ _ _)]
    refine Does.bind_frame lost (ih _) (by abel) ?_
    rintro a b w _ ⟨rfl, hw⟩
    refine Does.pure ⟨rfl, ?_⟩
    rw [Multiset.card_add, hw, hc, List.countP_cons]

/-- The end of a call that is not a waiting one: the blocks of the handle and `n` lost ones. -/
def GoodCall (n : Nat) (a : Int × HandleAt × Handle) (b : Int × Handle) (own : Multiset Nat) : Prop :=
  (a.1, a.2.2) = b ∧ ∃ lost : Multiset Nat, own = a.2.1.blocks + lost ∧ lost.card = n

theorem refuse_does {p : HandleAt} {h : Handle} {s : Str} (he : own = p.blocks) :
    Does own (refuse p h s) (.ok (TRAX_ERROR, h.setError s)) (GoodCall 0) :=
  setError_bind (rest := 0) (by rw [he]; abel) fun _ => Does.pure ⟨rfl, 0, by abel, rfl⟩

theorem sendFrame_does (p : HandleAt) (h : Handle) (images : ImageList) (props : Option Properties) {lost : Multiset Nat} {n : Nat}
    (hn : lost.card = n) (he : own = p.blocks + lost) :
    Does own (sendFrame p h images props)
      (.of ((Handle.encodeImages h.metadata.channels images channelIndexes).map fun args =>
          match args with
          | none => (TRAX_ERROR, h.setErrorGarbled)
          | some args => (TRAX_OK, { h with stream := h.stream.write .frame args (props.getD Properties.create) })))
      (GoodCall n) := by
  unfold sendFrame
  refine createTexts_bind fun l => ?_
  refine Does.bind_frame (p.blocks + lost) (encodeImages_does _ _ _ l) (by rw [he]) ?_
  rintro ⟨a, l'⟩ b w _ ⟨rfl, rfl⟩
  cases a with
  | none =>
    simp only
    refine setError_bind (rest := l'.blocks + lost) (by abel) fun q => ?_
    exact destroyTexts_bind (rest := q.blocks + lost) (by abel) (Does.pure ⟨rfl, lost, rfl, hn⟩)
  | some texts =>
    simp only
    exact destroyTexts_bind rfl (Does.pure ⟨rfl, lost, rfl, hn⟩)

theorem clientFrame_does (env : Env) (p : HandleAt) (h : Handle) (images : ImageList) (objects : Option ObjList) (props : Option Properties) :
    Does p.blocks (clientFrame env p h images objects props) (.of (h.clientFrame env images objects props))
      (GoodCall (Spec.lost 0 h (.clientFrame images objects props))) := by
  unfold clientFrame Handle.clientFrame
  by_cases hs : h.server = true
  · simp only [if_pos hs]; exact Does.abort
  simp only [if_neg hs]
  refine clearError_bind (rest := 0) (by abel) fun p _ => ?_
  have e : Spec.lost 0 h (.clientFrame images objects props) = Spec.lost 0 h.clearError (.clientFrame images objects props) := rfl
  rw [e]
  generalize h.clearError = h
  have h0 : (h.terminated = true ∨ h.version < 4 ∨ (h.objects + (objects.getD []).length > 1 ∧ h.metadata.flags &&& 1 = 0)) →
      Spec.lost 0 h (.clientFrame images objects props) = 0 := by
    intro hc
    cases objects with
    | none => rfl
    | some objects => exact if_pos hc
  by_cases ha : ¬ h.alive = true
  · simp only [if_pos ha]
    rw [h0 (Or.inl (by simpa [alive] using ha))]
    exact refuse_does (by abel)
  simp only [if_neg ha]
  have hal : h.terminated = false := by simpa [alive] using ha
  by_cases hv : h.isV4 = true
  · simp only [if_pos hv]
    have hv' : ¬ h.version < 4 := by simpa [isV4] using hv
    by_cases hm : h.objects + (objects.getD []).length > 1 ∧ ¬ h.isMulti = true
    · simp only [if_pos hm]
      rw [h0 (Or.inr (Or.inr ⟨hm.1, not_not.1 fun hn => hm.2 ((supports_iff _ _).2 hn)⟩))]
      exact refuse_does (by abel)
    · simp only [if_neg hm]
      refine Does.bind_frame p.blocks (sendObjects_does env _ _ _) (by abel) ?_
      rintro s b w _ ⟨rfl, hw⟩
      refine sendFrame_does p _ images props ?_ (add_comm _ _)
      rw [hw]
      cases objects with
      | none => rfl
      | some objects =>
        refine (if_neg ?_).symm
        rintro (hc | hc | hc)
        · rw [hal] at hc; exact absurd hc (by simp)
        · exact hv' hc
        · exact hm ⟨hc.1, fun hn => (supports_iff _ _).1 hn hc.2⟩
  · simp only [if_neg hv]
    have hv' : h.version < 4 := by simpa [isV4] using hv
    rw [h0 (Or.inr (Or.inl hv'))]
    by_cases hn : (objects.getD []).length > 0
    · simp only [if_pos hn]; exact refuse_does (by abel)
    · simp only [if_neg hn]
      exact sendFrame_does p h images props (lost := 0) rfl (by abel)

theorem encodeImages_complete (channels : UInt32) (images : ImageList) (r : Option (List Str))
    (h : Handle.encodeImages channels images channelIndexes = .ok r) : r.isSome = Spec.complete channels images := by
  have step : ∀ (i : Nat) (is : List Nat) (r : Option (List Str)), Handle.encodeImages channels images (i :: is) = .ok r →
      (channels &&& ImageList.channelId i = 0 ∧ Handle.encodeImages channels images is = .ok r) ∨
      (channels &&& ImageList.channelId i ≠ 0 ∧ images[i]? = some none ∧ r = none) ∨
      (channels &&& ImageList.channelId i ≠ 0 ∧ (images[i]?.join).isSome = true ∧
        ∃ r', Handle.encodeImages channels images is = .ok r' ∧ r.isSome = r'.isSome) := by
    intro i is r hr
    unfold Handle.encodeImages at hr
    by_cases hc : supports channels (ImageList.channelId i) = true
    · rw [if_pos hc] at hr
      have hc' := (supports_iff _ _).1 hc
      rcases hi : images[i]? with _ | _ | img
      · rw [hi] at hr; simp at hr
      · rw [hi] at hr
        simp only [Outcome.ok.injEq] at hr
        exact Or.inr (Or.inl ⟨hc', rfl, hr.symm⟩)
      · rw [hi] at hr
        simp only at hr
        obtain ⟨text, -, hr⟩ := Region.bind_eq_ok hr
        obtain ⟨r', hr', rfl⟩ := Region.map_eq_ok hr
        refine Or.inr (Or.inr ⟨hc', by simp, r', hr', by simp⟩)
    · rw [if_neg hc] at hr
      exact Or.inl ⟨not_not.1 fun hn => hc ((supports_iff _ _).2 hn), hr⟩
  unfold channelIndexes at h
  have h0 : ImageList.channelId 0 = 1 := rfl
  have h1 : ImageList.channelId 1 = 2 := rfl
  have h2 : ImageList.channelId 2 = 4 := rfl
  have hnil : ∀ r, Handle.encodeImages channels images [] = .ok r → r.isSome = true := by
    intro r hr; simp only [Handle.encodeImages, Outcome.ok.injEq] at hr; rw [← hr]; rfl
  have two : ∀ r, Handle.encodeImages channels images [2] = .ok r →
      r.isSome = (decide (channels &&& 4 = 0) || (images[2]?.join).isSome) := by
    intro r hr
    rcases step 2 [] r hr with ⟨hc, hr'⟩ | ⟨hc, hi, rfl⟩ | ⟨hc, hi, r', hr', e⟩
    · rw [h2] at hc; simp [hc, hnil r hr']
    · rw [h2] at hc; simp [hc, hi]
    · rw [h2] at hc; rw [e, hnil r' hr', hi]; simp
  have one : ∀ r, Handle.encodeImages channels images [1, 2] = .ok r →
      r.isSome = ((decide (channels &&& 2 = 0) || (images[1]?.join).isSome) && (decide (channels &&& 4 = 0) || (images[2]?.join).isSome)) := by
    intro r hr
    rcases step 1 [2] r hr with ⟨hc, hr'⟩ | ⟨hc, hi, rfl⟩ | ⟨hc, hi, r', hr', e⟩
    · rw [h1] at hc; rw [two r hr']; simp [hc]
    · rw [h1] at hc; simp [hc, hi]
    · rw [e, two r' hr', hi]; simp
  rcases step 0 [1, 2] r h with ⟨hc, hr'⟩ | ⟨hc, hi, rfl⟩ | ⟨hc, hi, r', hr', e⟩
  · rw [h0] at hc; rw [one r hr']; simp [Spec.complete, hc]
  · rw [h0] at hc; simp [Spec.complete, hc, hi]
  · rw [e, one r' hr']; simp [Spec.complete, hi]

theorem clientInitialize_does (env : Env) (p : HandleAt) (h : Handle) (images : ImageList) (objects : ObjList) (props : Option Properties) :
    Does p.blocks (clientInitialize env p h images objects props) (.of (h.clientInitialize env images objects props))
      (GoodCall (Spec.lost 0 h (.clientInitialize images objects props))) := by
  unfold clientInitialize Handle.clientInitialize
  by_cases hs : h.server = true
  · simp only [if_pos hs]; exact Does.abort
  simp only [if_neg hs]
  refine clearError_bind (rest := 0) (by abel) fun p _ => ?_
  have e : Spec.lost 0 h (.clientInitialize images objects props) = Spec.lost 0 h.clearError (.clientInitialize images objects props) := rfl
  rw [e]
  generalize h.clearError = h
  by_cases ha : ¬ h.alive = true
  · simp only [if_pos ha]
    have : h.terminated = true := by simpa [alive] using ha
    rw [show Spec.lost 0 h (.clientInitialize images objects props) = 0 from if_pos (Or.inl this)]
    exact refuse_does (by abel)
  simp only [if_neg ha]
  have hal : h.terminated = false := by simpa [alive] using ha
  by_cases hn : objects.length < 1
  · simp only [if_pos hn]
    have : objects = [] := List.length_eq_zero_iff.1 (by omega)
    rw [show Spec.lost 0 h (.clientInitialize images objects props) = 0 by simp [Spec.lost, this]]
    exact refuse_does (by abel)
  simp only [if_neg hn]
  by_cases hm : ¬ h.isMulti = true ∧ objects.length > 1
  · simp only [if_pos hm]
    rw [show Spec.lost 0 h (.clientInitialize images objects props) = 0 from
      if_pos (Or.inr ⟨hm.2, not_not.1 fun hx => hm.1 ((supports_iff _ _).2 hx)⟩)]
    exact refuse_does (by abel)
  simp only [if_neg hm]
  have hcond : ¬ (h.terminated = true ∨ (objects.length > 1 ∧ h.metadata.flags &&& 1 = 0)) := by
    rintro (hc | hc)
    · rw [hal] at hc; exact absurd hc (by simp)
    · exact hm ⟨fun hx => (supports_iff _ _).1 hx hc.2, hc.1⟩
  by_cases hv : h.isV4 = true
  · simp only [if_pos hv]
    have hv' : ¬ h.version < 4 := by simpa [isV4] using hv
    have hx : ∀ h' : Handle, h'.terminated = h.terminated → h'.version = h.version → h'.metadata = h.metadata → h'.objects = 0 →
        Spec.lost 0 h' (.clientFrame images (some objects) props) = Spec.lost 0 h (.clientInitialize images objects props) := by
      intro h' e1 e2 e3 e4
      simp only [Spec.lost, e1, e2, e3, e4]
      have hfr : ¬ (h.terminated = true ∨ h.version < 4 ∨ 0 + objects.length > 1 ∧ h.metadata.flags &&& 1 = 0) := by
        rintro (hc | hc | hc)
        · exact hcond (Or.inl hc)
        · exact hv' hc
        · exact hcond (Or.inr ⟨by omega, hc.2⟩)
      rw [if_neg hfr, if_neg hcond, if_neg (fun hc => hv' hc.1), if_neg hv']
    by_cases ho : h.objects > 0
    · simp only [if_pos ho]
      rw [← hx { h with stream := h.stream.write .initialize [] Properties.create, objects := 0 } rfl rfl rfl rfl]
      exact (clientFrame_does env p _ images (some objects) props).cast (by abel)
    · simp only [if_neg ho]
      rw [← hx h rfl rfl rfl (by omega)]
      exact (clientFrame_does env p _ images (some objects) props).cast (by abel)
  · simp only [if_neg hv]
    have hv' : h.version < 4 := by simpa [isV4] using hv
    cases hr : ObjList.get objects 0 with
    | none => exact Does.ub
    | some r =>
      simp only
      by_cases hsp : r.apiType = 1
      · simp only [if_pos hsp]; exact Does.abort
      · simp only [if_neg hsp]
        refine createTexts_bind fun l => ?_
        refine Does.bind_frame p.blocks (encodeImages_does _ _ _ l) (by abel) ?_
        rintro ⟨a, l'⟩ b w hok ⟨rfl, rfl⟩
        have hcomp := encodeImages_complete _ _ _ hok
        cases a with
        | none =>
          simp only
          have : Spec.lost 0 h (.clientInitialize images objects props) = 0 := by
            simp only [Spec.lost]
            rw [if_neg hcond, if_pos ⟨hv', by rw [← hcomp]; simp⟩]
          rw [this]
          refine setError_bind (rest := l'.blocks) (by abel) fun q => ?_
          exact destroyTexts_bind (rest := q.blocks) (by abel) (Does.pure ⟨rfl, 0, by abel, rfl⟩)
        | some texts =>
          simp only
          have hlost : Spec.lost 0 h (.clientInitialize images objects props) = if Spec.masked h.metadata.regions (some r) then 1 else 0 := by
            simp only [Spec.lost]
            rw [if_neg hcond, if_neg (fun hc => hc.2 (by rw [← hcomp]; rfl)), if_pos hv']
            obtain ⟨x, xs, rfl⟩ : ∃ x xs, objects = x :: xs := by
              cases objects with
              | nil => simp at hn
              | cons x xs => exact ⟨x, xs, rfl⟩
            have : x.1 = some r := by
              simpa [ObjList.get] using hr
            simp [this]
          rw [hlost]
          refine Does.bind_frame p.blocks (regionArgument_does env _ (some r) l') (by abel) ?_
          rintro ⟨data, l2⟩ b w _ ⟨rfl, lost, rfl, hc⟩
          exact destroyTexts_bind (rest := p.blocks + lost) (by abel) (Does.pure ⟨rfl, lost, rfl, hc⟩)

theorem sendState_does (s : Stream) (region : Option Region) (props : Properties) :
    Does 0 (sendState s region props) (.of ((regionText region).map fun t => t.map fun text => s.write .state [text] props))
      fun a b w => a = b ∧ w = 0 := by
  unfold sendState
  refine Does.outcome fun text _ => ?_
  cases text with
  | none => exact Does.pure ⟨rfl, rfl⟩
  | some text =>
    simp only
    refine Does.new fun d => createTexts_bind fun l => ?_
    exact destroyTexts_bind (rest := 0) (by rw [appendDirect_blocks]; abel) (Does.pure ⟨rfl, rfl⟩)

theorem serverReplySot_does (p : HandleAt) (h : Handle) (region : Option Region) (props : Option Properties) :
    Does p.blocks (serverReplySot p h region props) (.of (h.serverReplySot region props)) (GoodCall 0) := by
  unfold serverReplySot Handle.serverReplySot
  by_cases hs : ¬ h.server = true
  · simp only [if_pos hs]; exact Does.abort
  simp only [if_neg hs]
  refine clearError_bind (rest := 0) (by abel) fun p _ => ?_
  generalize h.clearError = h
  by_cases ha : ¬ h.alive = true
  · simp only [if_pos ha]; exact refuse_does (by abel)
  simp only [if_neg ha]
  by_cases hv : h.isV4 = true
  · simp only [if_pos hv]; exact refuse_does (by abel)
  simp only [if_neg hv]
  have e : ((regionText region).map fun data => match data with
        | none => (TRAX_ERROR, h)
        | some text => (TRAX_OK, { h with stream := h.stream.write .state [text] (props.getD Properties.create) })) =
      ((regionText region).map fun t => t.map fun text => h.stream.write .state [text] (props.getD Properties.create)).bind
        fun s => .ok (match s with
          | none => (TRAX_ERROR, h)
          | some stream => (TRAX_OK, { h with stream })) := by
    cases regionText region with
    | ok t => cases t <;> rfl
    | abort => rfl
    | ub => rfl
  refine Does.castRes ?_ (congrArg Res.of e)
  refine Does.bind_frame p.blocks (sendState_does _ _ _) (by abel) ?_
  rintro a b w _ ⟨rfl, rfl⟩
  cases a with
  | none => exact Does.pure ⟨rfl, 0, by abel, rfl⟩
  | some s => exact Does.pure ⟨rfl, 0, by abel, rfl⟩

theorem replyLoop_does (p : HandleAt) (objects : ObjList) : ∀ h : Handle,
    Does p.blocks (replyLoop p h objects) (.of (Handle.replyLoop h objects)) (GoodCall 0) := by
  induction objects with
  | nil => exact fun h => Does.pure ⟨rfl, 0, by abel, rfl⟩
  | cons e rest ih =>
    intro h
    obtain ⟨r, props⟩ := e
    unfold replyLoop Handle.replyLoop
    have e : ((regionText r).bind fun data => match data with
          | none => .ok (TRAX_ERROR, h)
          | some text => Handle.replyLoop { h with stream := h.stream.write .state [text] props } rest) =
        ((regionText r).map fun t => t.map fun text => h.stream.write .state [text] props).bind
          fun s => match s with
            | none => .ok (TRAX_ERROR, h)
            | some stream => Handle.replyLoop { h with stream } rest := by
      cases regionText r with
      | ok t => cases t <;> rfl
      | abort => rfl
      | ub => rfl
    refine Does.castRes ?_ (congrArg Res.of e)
    refine Does.bind_frame p.blocks (sendState_does _ _ _) (by abel) ?_
    rintro a b w _ ⟨rfl, rfl⟩
    cases a with
    | none => exact Does.pure ⟨rfl, 0, by abel, rfl⟩
    | some s => exact (ih _).cast (by abel)

theorem serverReplyMot_does (p : HandleAt) (h : Handle) (objects : ObjList) :
    Does p.blocks (serverReplyMot p h objects) (.of (h.serverReplyMot objects)) (GoodCall 0) := by
  unfold serverReplyMot Handle.serverReplyMot
  by_cases hs : ¬ h.server = true
  · simp only [if_pos hs]; exact Does.abort
  simp only [if_neg hs]
  refine clearError_bind (rest := 0) (by abel) fun p _ => ?_
  generalize h.clearError = h
  by_cases ha : ¬ h.alive = true
  · simp only [if_pos ha]; exact refuse_does (by abel)
  simp only [if_neg ha]
  by_cases hm : ¬ h.isMulti = true ∧ objects.length ≠ 1
  · simp only [if_pos hm]; exact refuse_does (by abel)
  simp only [if_neg hm]
  by_cases hn : objects.length ≠ h.objects
  · simp only [if_pos hn]; exact refuse_does (by abel)
  simp only [if_neg hn]
  exact (replyLoop_does p objects h).cast (by abel)

theorem terminate_does (p : HandleAt) (h : Handle) (reason : Option Str) :
    Does p.blocks (terminate p h reason) (.ok (h.terminate reason)) (GoodCall 0) := by
  unfold terminate
  refine clearError_bind (rest := 0) (by abel) fun p _ => ?_
  by_cases ha : ¬ h.alive = true
  · simp only [if_pos ha]
    refine Does.pure ⟨?_, 0, by abel, rfl⟩
    have : ¬ h.clearError.alive = true := ha
    simp only [Handle.terminate, if_pos this]
  · simp only [if_neg ha]
    refine createTexts_bind fun l => Does.new fun q => ?_
    refine destroyTexts_bind (rest := {q} + p.blocks) (by abel) ?_
    refine Does.free rfl (Does.pure ⟨?_, 0, by abel, rfl⟩)
    have : ¬ ¬ h.clearError.alive = true := ha
    simp only [Handle.terminate, if_neg this]

theorem cleanup_does (p : HandleAt) (h : Handle) : Does p.blocks (cleanup p h) (.ok ()) fun _ _ w => w = 0 := by
  unfold cleanup
  refine Does.seq (terminate_does p h none) ?_
  rintro ⟨r, q, h'⟩ w ⟨-, lost, rfl, hc⟩
  have : lost = 0 := Multiset.card_eq_zero.1 hc
  subst this
  refine Does.free (rest := {q.self} + {q.stream} + opt q.error) (by simp only [HandleAt.blocks]; abel) ?_
  refine Does.free (rest := {q.self} + opt q.error) (by abel) ?_
  have : (clearError q >>= fun x => free x.self) = (freeIf q.error >>= fun _ => free q.self) := by
    funext m
    simp only [clearError, bind_apply]
    cases freeIf q.error m <;> rfl
  show Does _ (clearError q >>= fun x => free x.self) _ _
  rw [this]
  refine Does.freeIf (rest := {q.self}) (by abel) ?_
  exact Does.free_last (rest := 0) (by abel) rfl

/-! ## Programs -/

theorem releaseGiven_bind {w : Waited} {g : Unit → Prog α} {o : Res β} {Q} (hf : ∀ l, w.objects = some l → Full l.entries)
    (he : own = imagesOpt w.images + objectsOpt w.objects + opt w.region + rest) (h : Does rest (g ()) o Q) :
    Does own (releaseGiven w >>= g) o Q := by
  have : Does (imagesOpt w.images + objectsOpt w.objects + opt w.region) (releaseGiven w) (.ok ()) fun _ _ x => x = 0 := by
    unfold releaseGiven
    refine releaseImagesIf_bind (rest := objectsOpt w.objects + opt w.region) (by abel) ?_
    have last : Does (opt w.region) (freeIf w.region) (.ok ()) fun (_ _ : Unit) x => x = 0 := by
      rw [← bind_pure' (freeIf w.region)]
      exact Does.freeIf (rest := 0) (by abel) (Does.pure rfl)
    cases hw : w.objects with
    | none => exact last.cast (by simp [objectsOpt])
    | some l => exact releaseObjects_bind (hf l hw) rfl last
  refine Does.seq_frame rest this he ?_
  rintro _ x rfl
  exact h.cast (by abel)

/-- A call keeps the blocks of the handle and loses what the specification says. -/
theorem call_does (env : Env) (fuel : Nat) (p : HandleAt) (h : Handle) (c : Call) :
    Does p.blocks (call env fuel p h c) (.ofOption (h.call env fuel c)) (GoodCall (Spec.lost fuel h c)) := by
  cases c with
  | clientWait props =>
    refine Does.bind_frame 0 (clientWait_does env p h props) (by abel) ?_
    rintro w b own _ ⟨rfl, hf, -, kept, keptR, lost, rfl, hk, hr, hl⟩
    have hk : kept = 0 := by simpa [imagesOpt] using hk
    have hr : keptR = 0 := by simpa [opt] using hr
    have hl : lost = 0 := Multiset.card_eq_zero.1 hl
    subst hk hr hl
    exact releaseGiven_bind (rest := w.handle.blocks) hf (by abel) (Does.pure ⟨rfl, 0, by abel, rfl⟩)
  | clientInitialize images objects props => exact clientInitialize_does env p h images objects props
  | clientFrame images objects props =>
    have e : Spec.lost fuel h (.clientFrame images objects props) = Spec.lost 0 h (.clientFrame images objects props) := by
      cases objects <;> rfl
    rw [e]
    exact clientFrame_does env p h images objects props
  | serverWaitSot props =>
    refine Does.bind_frame 0 ((serverWaitSot_does env p h none none props).cast (by simp [imagesOpt, opt])) (own' := p.blocks) (by abel) ?_
    rintro w b own _ ⟨rfl, hf, -, kept, keptR, lost, rfl, hk, hr, hl⟩
    have hk : kept = 0 := by simpa [imagesOpt] using hk
    have hr : keptR = 0 := by simpa [opt] using hr
    have hl : lost = 0 := Multiset.card_eq_zero.1 hl
    subst hk hr hl
    exact releaseGiven_bind (rest := w.handle.blocks) hf (by abel) (Does.pure ⟨rfl, 0, by abel, rfl⟩)
  | serverWaitMot props =>
    have hd : Does p.blocks (serverWaitMot env fuel p h none props) (.ofOption (h.serverWaitMot env fuel props))
      (GoodWait none none (if h.terminated then 2 else 3 * Spec.resets fuel h.stream)) :=
      (serverWaitMot_does env fuel p h none props).cast (by simp [imagesOpt])
    cases ho : h.serverWaitMot env fuel props with
    | none =>
      rw [ho] at hd
      intro m fr hm he
      have := hd m fr hm he
      simp only [Handle.call, ho, Option.map_none, Res.ofOption, call, bind_apply] at this ⊢
      rw [this]
    | some o =>
      rw [ho] at hd
      have : h.call env fuel (.serverWaitMot props) = some (o.bind fun w => .ok (w.ret, w.handle)) := by
        simp [Handle.call, ho, Outcome.map]
      rw [this]
      refine Does.bind_frame 0 hd (by abel) ?_
      rintro w b own _ ⟨rfl, hf, -, kept, keptR, lost, rfl, hk, hr, hl⟩
      have hk : kept = 0 := by simpa [imagesOpt] using hk
      have hr : keptR = 0 := by simpa [opt] using hr
      subst hk hr
      exact releaseGiven_bind (rest := w.handle.blocks + lost) hf (by abel) (Does.pure ⟨rfl, lost, by abel, hl⟩)
  | serverReplySot region props => exact serverReplySot_does p h region props
  | serverReplyMot objects => exact serverReplyMot_does p h objects
  | terminate reason => exact terminate_does p h reason
  | setParameter id value => exact Does.pure ⟨rfl, 0, by abel, rfl⟩
  | getParameter socket id => exact Does.pure ⟨rfl, 0, by abel, rfl⟩
  | getError => exact Does.pure ⟨rfl, 0, by abel, rfl⟩
  | isAlive => exact Does.pure ⟨rfl, 0, by abel, rfl⟩

end CMem
end Trax
