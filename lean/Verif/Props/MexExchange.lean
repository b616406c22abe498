import Verif.Props.MexServer

/-!
# C129: an exchange through the MATLAB function `traxserver`
-/

namespace Trax
open Mex Spec Region

/-! ## Results as arrays -/

theorem image_shown {img img' : Image} (hs : SendableImage img) (ha : ImageArrives img img') :
    ∃ arr, imageToArray img' = .ok (some arr) ∧ ShowsImage img' arr := by
  cases img with
  | path p => cases ha; exact ⟨_, rfl, .path p⟩
  | url u => exact hs.elim
  | memory w h f data =>
    cases ha
    have hs' : PixelData w h f data := hs
    obtain ⟨hf, hw, hh, hl, hb⟩ := hs'
    obtain ⟨w, rfl⟩ := Int.eq_ofNat_of_zero_le (show 0 ≤ w by omega)
    obtain ⟨h, rfl⟩ := Int.eq_ofNat_of_zero_le (show 0 ≤ h by omega)
    obtain ⟨arr, h1, h2⟩ := imageToArray_ok (w := w) (h := h) ⟨hf, hw, hh, hl, hb⟩
    exact ⟨arr, h1, .memory w h f data arr h2⟩
  | buffer f data =>
    cases ha
    obtain ⟨_, ⟨rfl, _⟩ | ⟨rfl, _⟩⟩ := (show FileData f data from hs)
    · exact ⟨_, rfl, .jpeg _⟩
    · exact ⟨_, rfl, .png _⟩

theorem images_shown {channels formats : UInt32} {images l : ImageList} (hs : SendableImages channels formats images)
    (ha : ImagesArrive channels images l) : ∃ cells, imagesToArray l = .ok (some (.many 1 cells.length cells)) ∧ ShowsImages channels images cells := by
  unfold ImagesArrive channelFlags at ha
  cases ha with
  | @cons _ x _ l hx ha =>
  cases ha with
  | @cons _ y _ l hy ha =>
  cases ha with
  | @cons _ z _ l hz ha =>
  cases ha
  have key : ∀ c ∈ channelFlags, ∀ x : Option Image, (if channels &&& c.2 ≠ 0 then ∃ img img', images[c.1]? = some (some img) ∧ x = some img' ∧ ImageArrives img img'
      else x = none) → (channels &&& c.2 ≠ 0 ∧ ∃ img' arr, x = some img' ∧ imageToArray img' = .ok (some arr) ∧
        ∃ img img', images[c.1]? = some (some img) ∧ ImageArrives img img' ∧ ShowsImage img' arr) ∨ (¬ channels &&& c.2 ≠ 0 ∧ x = none) := by
    intro c hc x hx
    by_cases h : channels &&& c.2 ≠ 0
    · rw [if_pos h] at hx
      obtain ⟨img, img', h1, h2, h3⟩ := hx
      obtain ⟨img2, k1, k2, _⟩ := hs c hc h
      cases h1.symm.trans k1
      obtain ⟨arr, a1, a2⟩ := image_shown k2 h3
      exact .inl ⟨h, img', arr, h2, a1, img, img', h1, h3, a2⟩
    · rw [if_neg h] at hx
      exact .inr ⟨h, hx⟩
  unfold ShowsImages channelFlags
  rcases key (0, 1) (by decide) x hx with ⟨h0, a, a', rfl, a1, a2⟩ | ⟨h0, rfl⟩ <;>
    rcases key (1, 2) (by decide) y hy with ⟨h1, b, b', rfl, b1, b2⟩ | ⟨h1, rfl⟩ <;>
    rcases key (2, 4) (by decide) z hz with ⟨h2, c, c', rfl, c1, c2⟩ | ⟨h2, rfl⟩ <;>
    dsimp only at h0 h1 h2 <;> simp only [ne_eq, not_not] at h0 h1 h2 <;>
    simp only [List.filter_cons, List.filter_nil, ne_eq, h0, h1, h2, not_true, not_false_iff, decide_true, decide_false, if_true, Bool.false_eq_true, if_false]
  · exact ⟨[a', b', c'], by simp [imagesToArray, imagesLoop, imageOf, ImageList.channelId, ImageList.channelIndex, Outcome.map, Outcome.bind, a1, b1, c1] <;> rfl, .cons a2 (.cons b2 (.cons c2 .nil))⟩
  · exact ⟨[a', b'], by simp [imagesToArray, imagesLoop, imageOf, ImageList.channelId, ImageList.channelIndex, Outcome.map, Outcome.bind, a1, b1] <;> rfl, .cons a2 (.cons b2 .nil)⟩
  · exact ⟨[a', c'], by simp [imagesToArray, imagesLoop, imageOf, ImageList.channelId, ImageList.channelIndex, Outcome.map, Outcome.bind, a1, c1] <;> rfl, .cons a2 (.cons c2 .nil)⟩
  · exact ⟨[a'], by simp [imagesToArray, imagesLoop, imageOf, ImageList.channelId, ImageList.channelIndex, Outcome.map, Outcome.bind, a1] <;> rfl, .cons a2 .nil⟩
  · exact ⟨[b', c'], by simp [imagesToArray, imagesLoop, imageOf, ImageList.channelId, ImageList.channelIndex, Outcome.map, Outcome.bind, b1, c1] <;> rfl, .cons b2 (.cons c2 .nil)⟩
  · exact ⟨[b'], by simp [imagesToArray, imagesLoop, imageOf, ImageList.channelId, ImageList.channelIndex, Outcome.map, Outcome.bind, b1] <;> rfl, .cons b2 .nil⟩
  · exact ⟨[c'], by simp [imagesToArray, imagesLoop, imageOf, ImageList.channelId, ImageList.channelIndex, Outcome.map, Outcome.bind, c1] <;> rfl, .cons c2 .nil⟩
  · exact ⟨[], rfl, .nil⟩

theorem region_shown {r r' : Region} (hs : Sendable r) (hw : Showable r) (ha : Arrives r r') :
    ∃ arr, regionToArray (some r') = .ok (some arr) ∧ ShowsRegion r' arr := by
  cases r with
  | special code => exact hw.elim
  | rectangle x y w h =>
    obtain ⟨x', y', w', h', rfl, -⟩ := ha
    exact ⟨_, rfl, .rectangle _ _ _ _ _ _ _ _ (sameNumber_widen _) (sameNumber_widen _) (sameNumber_widen _) (sameNumber_widen _)⟩
  | polygon ps =>
    obtain ⟨ps', rfl, -⟩ := ha
    have hget := flat_get (fun p : Flt × Flt => p.1.widen) (fun p : Flt × Flt => p.2.widen) ps'
    refine ⟨_, by rw [regionToArray, Nat.mul_comm], .polygon ps' _ (hget 0).2.2 ?_⟩
    intro k p hk
    exact ⟨_, _, by rw [(hget k).1, hk]; rfl, by rw [(hget k).2.1, hk]; rfl, sameNumber_widen _, sameNumber_widen _⟩
  | mask x y w h data =>
    obtain ⟨data', rfl, hl, -⟩ := ha
    obtain ⟨h1, h2, h3⟩ := (show 0 ≤ x ∧ 0 ≤ y ∧ (h + y) * (w + x) < 2147483648 from hw)
    obtain ⟨-, -, hw0, hh0, hlen, -, -⟩ := hs
    obtain ⟨x, rfl⟩ := Int.eq_ofNat_of_zero_le h1
    obtain ⟨y, rfl⟩ := Int.eq_ofNat_of_zero_le h2
    obtain ⟨w, rfl⟩ := Int.eq_ofNat_of_zero_le (show 0 ≤ w by omega)
    obtain ⟨h, rfl⟩ := Int.eq_ofNat_of_zero_le (show 0 ≤ h by omega)
    have hl' : data'.length = w * h := by rw [hl]; exact_mod_cast hlen
    have hf : (h + y) * (w + x) < 2 ^ 31 := by
      have : (2 : Nat) ^ 31 = 2147483648 := by norm_num
      rw [this]
      exact_mod_cast h3
    obtain ⟨out, _, k1, k2, k3, -⟩ := C119_masks_partial (fun n => List.replicate n 0) (fun _ => []) (by simp) (x := x) (y := y) (w := w) (h := h) (data := data')
      (by omega) (by omega) hl' hf
    exact ⟨_, k1, .mask x y w h data' out k2 k3⟩

theorem region_meant {fresh : Nat → List UInt8} {freshPoints : Nat → List (Flt × Flt)} (hf1 : ∀ n, (freshPoints n).length = n)
    (hf2 : ∀ n, (fresh n).length = n) {arr : Mx} (h : RegionArray arr) : ∃ r, arrayToRegion fresh freshPoints arr = .ok (some r) ∧ MeansRegion arr r := by
  obtain ⟨g1, g2, -⟩ := C119_arrays_partial fresh freshPoints hf1
  cases h with
  | rectangle a b c d =>
    obtain ⟨x, y, w, h, e, h1, h2, h3, h4⟩ := g1 a b c d
    exact ⟨_, e, .rectangle _ _ _ _ _ _ _ _ h1 h2 h3 h4⟩
  | polygon n r hn hl =>
    obtain ⟨ps, e, h1, h2⟩ := g2 n r hn hl
    exact ⟨_, e, .polygon n r ps h1 h2⟩
  | mask w h r hw hh hl hf =>
    obtain ⟨data, h5, h6, h7⟩ := arrayToMask_ok (w := w) (h := h) (r := r) (buf := fresh (h * w)) hl (hf2 _) (by norm_num; omega)
    refine ⟨.mask 0 0 w h data, ?_, .mask w h r data (by rw [h6, Nat.mul_comm]) fun i j hi hj => ?_⟩
    · have hw2 : w ≤ h * w := Nat.le_mul_of_pos_left _ (by omega)
      have hh2 : h ≤ h * w := Nat.le_mul_of_pos_right _ (by omega)
      unfold arrayToRegion Region.apiCreateMask Region.createMask
      simp only [List.getElem?_cons_zero, Option.getD_some, List.drop_succ_cons, List.drop_zero, List.foldl_cons, List.foldl_nil, Nat.one_mul]
      rw [if_pos (by omega), Outcome.bind_ok]
      dsimp only
      rw [show ((w : Int) * (h : Int)).toNat = h * w by
        rw [show (w : Int) * (h : Int) = ((h * w : Nat) : Int) by push_cast; ring, Int.toNat_natCast], h5]
      rfl
    · rw [h7 i j hi hj]
      unfold arrayByte
      simp

theorem props_shown {props : List (Str × Str)} (h : SendablePairs props) {b : Bool} (hb : b = true → ∀ kv ∈ props, FieldName kv.1) :
    ∃ o, propsOut b (Properties.ofPairs props) = some o ∧
      ShowsProperties (props.foldl (fun (b : AMap) kv => AMap.set b kv.1 kv.2) AMap.empty) b o := by
  have hnn : ∀ kv ∈ props, NoNul kv.1 ∧ NoNul kv.2 := fun kv hkv => ⟨(h kv hkv).1.noNul, plain_noNul (h kv hkv).2⟩
  have hrep : ∀ (l : List (Str × Str)) (p : Properties) (b : AMap), PropRep p b → (∀ kv ∈ l, NoNul kv.1 ∧ NoNul kv.2) →
      PropRep (l.foldl (fun p kv => p.set kv.1 kv.2) p) (l.foldl (fun (b : AMap) kv => AMap.set b kv.1 kv.2) b) := by
    intro l
    induction l with
    | nil => exact fun _ _ hp _ => hp
    | cons kv l ih =>
      intro p b hp hl
      have := hl kv List.mem_cons_self
      exact ih _ _ (Cpp.propRep_set hp this.1 this.2) fun kv' h' => hl kv' (List.mem_cons_of_mem _ h')
  have hp : PropRep (Properties.ofPairs props) (props.foldl (fun (b : AMap) kv => AMap.set b kv.1 kv.2) AMap.empty) :=
    hrep props _ _ PropRep.create hnn
  have hmem : ∀ k v, (k, v) ∈ (Properties.ofPairs props).enumerate ↔
      (props.foldl (fun (b : AMap) kv => AMap.set b kv.1 kv.2) AMap.empty) k = some v := by
    intro k v
    rw [Properties.mem_enumerate hp.1]
    constructor
    · rintro ⟨h1, h2⟩; rw [← hp.2 k h1]; exact h2
    · intro h1
      have hk : NoNul k := by
        rcases (fold_set_iff props AMap.empty k v).mp h1 with hl | ⟨_, hl⟩
        · exact (hnn _ (Environ.LastGiven.mem hl)).1
        · cases hl
      exact ⟨hk, by rw [hp.2 k hk]; exact h1⟩
  have hnd : ((Properties.ofPairs props).enumerate.map Prod.fst).Nodup := StrMap.enum_keys_nodup hp.1
  cases b with
  | false => exact ⟨_, rfl, .cell _ hnd hmem⟩
  | true =>
    have hsame : ∀ kv ∈ (Properties.ofPairs props).enumerate, fieldName kv.1 = kv.1 := fun kv hkv => (hb rfl kv (mem_ofPairs_enumerate hnn hkv)).same
    have hm1 : ((Properties.ofPairs props).enumerate.map fun kv => fieldName kv.1) = (Properties.ofPairs props).enumerate.map Prod.fst :=
      List.map_congr_left hsame
    have hm2 : ((Properties.ofPairs props).enumerate.map fun kv => (fieldName kv.1, Value.text kv.2)) =
        (Properties.ofPairs props).enumerate.map fun kv => (kv.1, Value.text kv.2) := List.map_congr_left fun kv h => by rw [hsame kv h]
    refine ⟨_, ?_, .struct _ hnd hmem⟩
    unfold propsOut parametersToStruct
    rw [if_pos rfl, hm1, hm2, if_pos hnd]
    rfl

/-! ## The exchange -/

theorem single_inv {clientEnv serverEnv : Env} {fuel : Nat} {c s : Handle} {e : Cpp.Spec.SingleExchange} {o c' s'}
    (h : Cpp.Spec.singleExchange clientEnv serverEnv fuel c s e = some (.ok (o, some c', some s'))) :
    ∃ c₁ s₁ p, Cpp.Spec.singleCall clientEnv c e = .ok (o.call, some c₁) ∧
      Cpp.serverWaitRegion serverEnv fuel (some (deliver c c₁ s)) none Properties.create = some (.ok o.request) ∧ o.request.handle = some s₁ ∧
      Cpp.serverReplyRegion serverEnv (some s₁) (some e.reply) (some (Properties.ofPairs e.replyProps)) = .ok (o.replied, some s', p) ∧
      Cpp.clientWaitRegion clientEnv (some (deliver s₁ s' c₁)) none Properties.create = .ok o.answer ∧ o.answer.handle = some c' := by
  unfold Cpp.Spec.singleExchange at h
  split at h
  · next call c₁ h1 =>
    cases h2 : Cpp.serverWaitRegion serverEnv fuel (some (deliver c c₁ s)) none Properties.create with
    | none => rw [h2] at h; cases h
    | some w =>
      rw [h2, Option.map_some, Option.some.injEq] at h
      cases w with
      | abort => cases h
      | ub => cases h
      | ok request =>
      rw [Outcome.bind_ok] at h
      obtain ⟨⟨replied, s₁', p⟩, h3, h⟩ := bind_eq_ok h
      dsimp only at h
      split at h
      · next s₀ s₁ e1 =>
        obtain ⟨answer, h4, h⟩ := map_eq_ok h
        simp only [Prod.mk.injEq, Option.some.injEq] at h
        obtain ⟨rfl, h5, rfl⟩ := h
        rw [e1] at h3
        exact ⟨c₁, s₀, p, h1, h2, e1, h3, h4, h5⟩
      · cases h
  · cases h
  · cases h
  · cases h

theorem waitArgs_ok {args : List Arg} {b : Bool} (h : WaitArgs args b) :
    (if args.length > 1 then waitLoop args args.length 1 false else .ok (some false)) = .ok (some b) ∧
      ∃ op rest, args = .mx (.text op) :: rest ∧ AnyCase op b!"wait" := by
  have h3 : ∀ a b c : Arg, ¬ 3 < pairsEnd [a, b, c].length := fun _ _ _ => (show ¬ 3 < pairsEnd 3 by decide)
  have code : ∀ key, AnyCase key b!"propstruct" → argumentCode key = some 0 := by
    intro key hk
    unfold argumentCode
    rw [(anyCase_lower (by decide)).mpr hk]
    rfl
  cases h with
  | plain op hop => exact ⟨rfl, op, [], rfl, hop⟩
  | logical op key hop hk =>
    refine ⟨?_, op, _, rfl, hop⟩
    rw [if_pos (by simp)]
    show (if 1 < pairsEnd 3 then _ else _) = _
    rw [if_pos (by decide), withText_text (s := key) rfl (anyCase_noNul (by decide) hk), code key hk]
    show (waitLoop _ 2 3 (Flt.zero.lt (if b = true then doubleOfInt 1 else doubleOfInt 0))) = _
    unfold waitLoop
    rw [if_neg (h3 _ _ _)]
    cases b <;> decide +kernel
  | number op key hop hk neg m _ hb =>
    refine ⟨?_, op, _, rfl, hop⟩
    rw [if_pos (by simp)]
    show (if 1 < pairsEnd 3 then _ else _) = _
    rw [if_pos (by decide), withText_text (s := key) rfl (anyCase_noNul (by decide) hk), code key hk]
    show (waitLoop _ 2 3 (Flt.zero.lt (.fin neg m))) = _
    unfold waitLoop
    rw [if_neg (h3 _ _ _)]
    congr 2
    rw [Bool.eq_iff_iff, hb]
    have hpos : (0 : ℚ) < 2 ^ 1074 := by positivity
    show _ ↔ 0 < (if neg = true then -(m : ℚ) else m) / 2 ^ 1074
    rw [lt_div_iff₀ hpos, zero_mul]
    cases neg
    · simp [Flt.lt, Flt.zero, Flt.signed]
    · simp only [Flt.lt, Flt.zero, Flt.signed, if_true, decide_eq_true_eq]
      constructor
      · intro h; simp at h; omega
      · intro h
        have : (0 : ℚ) ≤ m := Nat.cast_nonneg m
        linarith

/-- **C129, what holds.** A client that is in a session with a MATLAB tracker makes a proper request. Then `[images, region, properties] =
traxserver('wait')` gives the images of the channels of the tracker in cells, the region (or nothing for a frame) and the
properties, or the first of these if fewer results are wanted. After it `traxserver('status', array)` sends the region that the array means: the
client's wait gives this region, and the two are in a session with one object. -/
theorem C129_exchange_partial (sr : Surroundings) (hf1 : ∀ n, (sr.freshPoints n).length = n) (hf2 : ∀ n, (sr.env.fresh n).length = n) (clientEnv : Env)
    (c s : Handle) (n : Nat) (closed : List Writer) (hc : Connected c s n) (q : Request) (sent : Option Region) (hq : q.Proper clientEnv c s n sent) :
    ∃ c₁ s₁ cells region, q.send clientEnv c = .ok (TRAX_OK, some c₁) ∧ ShowsImages s.metadata.channels q.images cells ∧
      (∀ r, q.start = some r → ∃ r₁ r₂ a, sent = some r₁ ∧ Arrives r₁ r₂ ∧ region = .region a ∧ ShowsRegion r₂ a) ∧ (q.start = none → region = .empty) ∧
      (∀ fuel nlhs args b, 3 ≤ fuel → nlhs ≤ 3 → WaitArgs args b → (b = true → ∀ kv ∈ q.props, FieldName kv.1) →
        ∃ p, ShowsProperties (q.props.foldl (fun (b : AMap) kv => AMap.set b kv.1 kv.2) AMap.empty) b p ∧
          traxserver sr fuel nlhs args ⟨some (deliver c c₁ s), closed⟩ =
            some (.ok (.values ([.images (.many 1 cells.length cells), region, p].take nlhs), ⟨some s₁, closed⟩))) ∧
      ∀ op arr, AnyCase op b!"status" → RegionArray arr → ∃ r, MeansRegion arr r ∧ (Sendable r →
        ∃ s₂ c₂ answer, (∀ fuel nlhs, nlhs ≤ 1 → traxserver sr fuel nlhs [.mx (.text op), .mx arr] ⟨some s₁, closed⟩ =
            some (.ok (.values (if nlhs = 1 then [.logical true] else []), ⟨some s₂, closed⟩))) ∧
          Cpp.clientWaitRegion clientEnv (some (deliver s₁ s₂ c₁)) none Properties.create = .ok answer ∧ answer.ret = TRAX_STATE ∧
          (∃ r', answer.region = some r' ∧ Arrives r r') ∧ answer.handle = some c₂ ∧ Connected c₂ s₂ 1 ∧
          c₂.metadata = c.metadata ∧ s₂.metadata = s.metadata) := by
  have hproper : ∀ r, Sendable r → Cpp.Spec.SingleExchange.Proper clientEnv c s n ⟨q.start, q.images, q.props, r, []⟩ sent := by
    intro r hr
    refine ⟨hq.started, hq.images, fun r h => ?_, hq.props, hr⟩
    obtain ⟨h1, r', h2, h3, h4, -⟩ := hq.region r h
    exact ⟨h1, r', h2, h3, h4⟩
  have run := fun r hr => single_exchange clientEnv sr.env c s n _ sent hc (hproper r hr)
  obtain ⟨o, c', s', hex, hseen, -, -, -, hprops⟩ := run _ rectangle_sendable
  obtain ⟨⟨hs1, -⟩, hs3, ⟨il, hs4, hs5⟩, hs6, -, -, -, -⟩ := hseen
  dsimp only at hs3 hs5 hs6 hprops
  obtain ⟨c₁, s₁, p, i1, i2, i3, i4, i5, i6⟩ := single_inv (hex 3 (Nat.le_refl _))
  obtain ⟨cells, hcells, hshow⟩ := images_shown hq.images hs5
  have hwait : ∀ fuel, 3 ≤ fuel → Cpp.serverWaitRegion sr.env fuel (some (deliver c c₁ s)) none Properties.create = some (.ok o.request) := by
    intro fuel hf
    obtain ⟨c₂, _, _, j1, j2, -⟩ := single_inv (hex fuel hf)
    have : c₂ = c₁ := by have := j1.symm.trans i1; simpa using this
    rw [← this]; exact j2
  have hreg : ∃ region : Out, (∀ r, q.start = some r → ∃ r₁ r₂ a, sent = some r₁ ∧ Arrives r₁ r₂ ∧ region = .region a ∧ ShowsRegion r₂ a) ∧
      (q.start = none → region = .empty) ∧
      ∀ nlhs b (p : Out), nlhs ≤ 3 → propsOut b (Properties.ofPairs q.props) = some p →
        Mex.received nlhs b o.request ⟨some (deliver c c₁ s), closed⟩ =
          .ok (.values ([.images (.many 1 cells.length cells), region, p].take nlhs), ⟨some s₁, closed⟩) := by
    cases hst : q.start with
    | none =>
      rw [hst] at hs3
      refine ⟨.empty, fun r h => (by cases h), fun _ => rfl, fun nlhs b p hn hp => ?_⟩
      unfold Mex.received
      rw [if_neg (show ¬ o.request.ret = TRAX_INITIALIZE by rw [hs3]; exact (show ¬ TRAX_FRAME = TRAX_INITIALIZE by decide)), if_pos (by rw [hs3]; rfl), hs4, Option.getD_some, hcells, hprops, hp, i3]
      match nlhs, hn with
      | 0, _ => rfl
      | 1, _ => rfl
      | 2, _ => rfl
      | 3, _ => rfl
    | some r =>
      rw [hst] at hs3
      obtain ⟨r', r'', k1, k2, k3⟩ := hs6 r hst
      obtain ⟨-, r₁, m1, -, m2, m3⟩ := hq.region r hst
      cases k1.symm.trans m1
      obtain ⟨a, a1, a2⟩ := region_shown m2 m3 k3
      refine ⟨.region a, fun _ _ => ⟨r', r'', a, k1, k3, rfl, a2⟩, fun h => (by cases h), fun nlhs b p hn hp => ?_⟩
      unfold Mex.received
      rw [if_pos (by rw [hs3]; rfl), hs4, Option.getD_some, hcells, hprops, hp, i3, k2, a1]
      match nlhs, hn with
      | 0, _ => rfl
      | 1, _ => rfl
      | 2, _ => rfl
      | 3, _ => rfl
  obtain ⟨region, hr1, hr2, hr3⟩ := hreg
  refine ⟨c₁, s₁, cells, region, ?_, hshow, hr1, hr2, fun fuel nlhs args b hfuel hn hargs hb => ?_, fun op arr hop harr => ?_⟩
  · rw [hs1] at i1; exact i1
  · obtain ⟨p, hp1, hp2⟩ := props_shown hq.props hb
    refine ⟨p, hp2, ?_⟩
    obtain ⟨w1, op, rest, rfl, hop⟩ := waitArgs_ok hargs
    have hop' : lower (cstr op) = b!"wait" := by
      rw [cstr_of_noNul (anyCase_noNul (by decide) hop)]; exact (anyCase_lower (by decide)).mpr hop
    unfold traxserver
    dsimp only [List.head?_cons]
    rw [hop', if_neg (by decide), if_pos rfl]
    unfold wait
    dsimp only
    rw [w1]
    dsimp only
    rw [if_neg (by omega), hwait fuel hfuel, Option.map_some, Outcome.bind_ok, hr3 nlhs b p hn hp1]
  · obtain ⟨r, e1, e2⟩ := region_meant (fresh := sr.env.fresh) hf1 hf2 harr
    refine ⟨r, e2, fun hsend => ?_⟩
    obtain ⟨o₂, c₂, s₂, hex₂, hseen₂, hconn, hm1, hm2, -⟩ := run r hsend
    obtain ⟨⟨-, t1⟩, -, -, -, -, t2, t3, -⟩ := hseen₂
    obtain ⟨c₃, s₃, p₃, j1, j2, j3, j4, j5, j6⟩ := single_inv (hex₂ 3 (Nat.le_refl _))
    have hc3 : c₃ = c₁ := by have := j1.symm.trans i1; simp at this; exact this.2
    subst hc3
    have hreq : o₂.request = o.request := by have := j2.symm.trans i2; simpa using this
    rw [hreq, i3] at j3
    cases j3
    refine ⟨s₂, c₂, o₂.answer, fun fuel nlhs hn => ?_, j5, t2, t3, j6, hconn, hm1, hm2⟩
    have hop' : lower (cstr op) = b!"status" := by
      rw [cstr_of_noNul (anyCase_noNul (by decide) hop)]; exact (anyCase_lower (by decide)).mpr hop
    unfold traxserver
    dsimp only [List.head?_cons]
    rw [hop', if_neg (by decide), if_neg (by decide), if_pos rfl]
    congr 1
    unfold status
    dsimp only
    rw [if_neg (by simp), if_neg (by simp), if_neg (by omega)]
    show (arrayToRegion sr.env.fresh sr.freshPoints arr).bind _ = _
    rw [e1, Outcome.bind_ok]
    dsimp only
    rw [if_neg (by simp), Outcome.bind_ok]
    dsimp only
    have j4' : Cpp.serverReplyRegion sr.env (some s₁) (some r) (some Properties.create) = .ok (o₂.replied, some s₂, p₃) := j4
    rw [j4', t1]
    rfl

namespace Demo

/-- A MATLAB tracker gets a request and replies with parameters; what the client hears. -/
def matlabReply (op : Str) (args : List Arg) : Option (Mex.Result × Option Cpp.Waited) :=
  pair.bind fun (c, s) => match (⟨some rectangle, images, []⟩ : Request).send env c with
    | .ok (_, some c₁) => match traxserver matlab 9 3 [.mx (.text b!"wait")] ⟨some (deliver c c₁ s), []⟩ with
      | some (.ok (.values _, ⟨some s₁, _⟩)) => match traxserver matlab 9 0 (.mx (.text op) :: args) ⟨some s₁, []⟩ with
        | some (.ok (r, ⟨some s₂, _⟩)) => match Cpp.clientWaitRegion env (some (deliver s₁ s₂ c₁)) none Properties.create with
          | .ok a => some (r, some a)
          | _ => some (r, none)
        | _ => none
      | _ => none
    | _ => none

end Demo

/-- **C129 fails.** The client hears nothing of the parameters that come with a reply, and `state`, the name of the operation in the
documentation, is not known. -/
theorem C129_exchange_false :
    (∃ a, Demo.matlabReply b!"status" [.mx (.double 1 4 [doubleOfInt 1, doubleOfInt 2, doubleOfInt 3, doubleOfInt 4]), .struct [(b!"score", .text b!"0.5")]] =
        some (.values [], some a) ∧ a.ret = TRAX_STATE ∧ a.props.get b!"score" = none) ∧
    ∃ a, Demo.matlabReply b!"state" [.mx (.double 1 4 [doubleOfInt 1, doubleOfInt 2, doubleOfInt 3, doubleOfInt 4])] = some (.error, a) := by
  have : (match Demo.matlabReply b!"status" [.mx (.double 1 4 [doubleOfInt 1, doubleOfInt 2, doubleOfInt 3, doubleOfInt 4]), .struct [(b!"score", .text b!"0.5")]],
        Demo.matlabReply b!"state" [.mx (.double 1 4 [doubleOfInt 1, doubleOfInt 2, doubleOfInt 3, doubleOfInt 4])] with
      | some (.values [], some a), some (.error, _) => decide (a.ret = TRAX_STATE) && decide (a.props.get b!"score" = none)
      | _, _ => false) = true := by decide +kernel
  split at this
  · next a b e1 e2 =>
    rw [Bool.and_eq_true, decide_eq_true_eq, decide_eq_true_eq] at this
    exact ⟨⟨a, e1, this.1, this.2⟩, b, e2⟩
  · cases this

/-- A session and a request that meets the hypotheses. -/
example : ∃ c s, Connected c s 0 ∧ Request.Proper Demo.env c s 0 ⟨some Demo.rectangle, Demo.images, [(b!"time", b!"0")]⟩ (some Demo.rectangle) := by
  have : (Demo.pair.any fun (c, s) => decide (Connected c s 0) && decide (c.metadata.regions = Demo.metadata.regions ∧
      s.metadata.images = Demo.metadata.images ∧ s.metadata.channels = Demo.metadata.channels)) = true := by decide +kernel
  obtain ⟨⟨c, s⟩, hp, hc⟩ := any_some this
  rw [Bool.and_eq_true] at hc
  obtain ⟨h1, h2, h3⟩ := of_decide_eq_true hc.2
  refine ⟨c, s, of_decide_eq_true hc.1, by simp, ?_, ?_, by decide⟩
  · intro i hi hch
    rw [h3] at hch
    refine ⟨Demo.image, ?_, (by decide : Plain b!"/a.jpg"), by rw [h2]; decide⟩
    simp only [channelFlags, List.mem_cons, List.not_mem_nil, or_false] at hi
    rcases hi with rfl | rfl | rfl
    · rfl
    · exact absurd (by decide) hch
    · exact absurd (by decide) hch
  · intro r hr
    cases hr
    refine ⟨trivial, _, rfl, ?_, rectangle_sendable, trivial⟩
    rw [h1]
    unfold Region.toSend
    rw [if_pos (by decide)]

end Trax
