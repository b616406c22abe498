import Verif.Spec.MexClient
import Verif.Props.MexExchange

/-!
# C131, C132: the MATLAB function `traxclient`
-/

namespace Trax.Mex.Client
open Trax.Spec (ShowsRegion RegionArray MeansRegion FieldName mexRegions mexImages mexChannels AnyCase doubleValue AMap LastGiven NotGiven)
open Client.Spec

/-! ## What the callback sees -/

theorem drawable_shown {r : Region} (h : Drawable r) : ∃ arr, regionToArray (some r) = .ok (some arr) ∧ ShowsRegion r arr := by
  cases h with
  | rectangle x y w h =>
    exact ⟨_, rfl, .rectangle _ _ _ _ _ _ _ _ (sameNumber_widen _) (sameNumber_widen _) (sameNumber_widen _) (sameNumber_widen _)⟩
  | polygon ps =>
    have hget := flat_get (fun p : Flt × Flt => p.1.widen) (fun p : Flt × Flt => p.2.widen) ps
    refine ⟨_, by rw [regionToArray, Nat.mul_comm], .polygon ps _ (hget 0).2.2 ?_⟩
    intro k p hk
    exact ⟨_, _, by rw [(hget k).1, hk]; rfl, by rw [(hget k).2.1, hk]; rfl, sameNumber_widen _, sameNumber_widen _⟩
  | mask x y w h data hw hh hl hf =>
    obtain ⟨out, _, k1, k2, k3, -⟩ := C119_masks_partial (fun n => List.replicate n 0) (fun _ => []) (by simp) (x := x) (y := y) (w := w) (h := h) (data := data)
      (by omega) (by omega) hl (by norm_num; exact hf)
    exact ⟨_, k1, .mask x y w h data out k2 k3⟩

/-- The properties of the answers together. -/
def merged (answers : List Answer) : AMap := fun k => answers.foldl (fun o a => (a.properties.get k).or o) none

theorem merged_snoc (answers : List Answer) (a : Answer) (k : Str) : merged (answers ++ [a]) k = (a.properties.get k).or (merged answers k) := by
  unfold merged; rw [List.foldl_append]; rfl

theorem merged_iff (answers : List Answer) (k v : Str) : merged answers k = some v ↔ LastValue answers k v := by
  induction answers using List.reverseRecOn with
  | nil => simp [merged, LastValue]
  | append_singleton l a ih =>
    rw [merged_snoc]
    cases e : a.properties.get k with
    | some w =>
      simp only [Option.some_or, Option.some.injEq]
      constructor
      · rintro rfl; exact ⟨l, a, [], rfl, e, by simp⟩
      · rintro ⟨x, b, y, h1, h2, h3⟩
        rcases List.eq_nil_or_concat y with rfl | ⟨y, c, rfl⟩
        · obtain ⟨_, h⟩ := List.append_inj' h1 rfl
          cases h
          rw [e] at h2; exact Option.some.inj h2
        · have h1' : l ++ [a] = (x ++ b :: y) ++ [c] := by rw [h1]; simp
          obtain ⟨_, h⟩ := List.append_inj' h1' rfl
          cases h
          rw [h3 a (by simp)] at e; cases e
    | none =>
      simp only [Option.none_or]
      rw [ih]
      constructor
      · rintro ⟨x, b, y, rfl, h2, h3⟩
        refine ⟨x, b, y ++ [a], by simp, h2, ?_⟩
        intro c hc
        rcases List.mem_append.mp hc with hc | hc
        · exact h3 c hc
        · rw [List.mem_singleton] at hc; rw [hc]; exact e
      · rintro ⟨x, b, y, h1, h2, h3⟩
        rcases List.eq_nil_or_concat y with rfl | ⟨y, c, rfl⟩
        · obtain ⟨_, h⟩ := List.append_inj' h1 rfl
          cases h
          rw [e] at h2; cases h2
        · have h1' : l ++ [a] = (x ++ b :: y) ++ [c] := by rw [h1]; simp
          obtain ⟨h, _⟩ := List.append_inj' h1' rfl
          exact ⟨x, b, y, h, h2, fun d hd => h3 d (by simp [hd])⟩

/-- The status after these answers. -/
structure After (answers : List Answer) (st : Status) : Prop where
  region : st.region = answers.getLast?.map (·.region)
  time : st.time = (answers.getLast?.map (·.time)).getD Flt.zero
  empty : answers = [] → st.properties = Properties.create
  properties : (∀ a ∈ answers, a.properties.WF) → PropRep st.properties (merged answers)

theorem After.initial : After [] ⟨none, Flt.zero, Properties.create⟩ := ⟨rfl, rfl, fun _ => rfl, fun _ => PropRep.create⟩

theorem After.snoc {answers : List Answer} {st : Status} (h : After answers st) (a : Answer) :
    After (answers ++ [a]) ⟨some a.region, a.time, Properties.append a.properties st.properties false⟩ := by
  refine ⟨by simp, by simp, by simp, fun hw => ?_⟩
  have h1 : PropRep a.properties a.properties.get := ⟨hw a (by simp), fun _ _ => rfl⟩
  have h2 := h1.append (h.properties fun b hb => hw b (by simp [hb])) false
  have : AMap.override a.properties.get (merged answers) = merged (answers ++ [a]) := by
    funext k
    rw [merged_snoc]
    unfold AMap.override
    cases a.properties.get k <;> rfl
  rw [this] at h2
  exact h2

theorem shown_shows {d : Declaration} {answers : List Answer} {st : Status} (h : After answers st) {sh : Shown} (hs : shown d st = .ok (some sh)) :
    Shows d answers sh := by
  unfold shown at hs
  obtain ⟨region, hr, hs⟩ := Region.map_eq_ok hs
  split at hs
  · cases hs
  rename_i hne
  obtain ⟨p, hp, rfl⟩ := Option.map_eq_some_iff.mp hs
  refine ⟨?_, ?_, ?_, ?_⟩
  · rintro rfl
    have e1 := h.region
    have e2 := h.time
    rw [h.empty rfl] at hp
    rw [e1] at hr
    cases hr
    cases hp
    exact ⟨rfl, e2, rfl⟩
  · intro a ha
    have e1 := h.region
    have e2 := h.time
    rw [ha] at e1 e2
    simp only [Option.map_some, Option.getD_some] at e1 e2
    rw [e1] at hr hne
    refine ⟨e2, ?_⟩
    cases region with
    | none => exact absurd ⟨rfl, rfl⟩ hne
    | some arr =>
      refine ⟨arr, rfl, fun hd => ?_⟩
      obtain ⟨arr', k1, k2⟩ := drawable_shown hd
      rw [k1] at hr
      cases hr
      exact k2
  · intro hn
    have hrep := h.properties fun a ha => (hn a ha).1
    have hmem : ∀ k v, (k, v) ∈ st.properties.enumerate ↔ NoNul k ∧ LastValue answers k v := by
      intro k v
      rw [Properties.mem_enumerate hrep.1, ← merged_iff]
      constructor
      · rintro ⟨h1, h2⟩; exact ⟨h1, by rw [← hrep.2 k h1]; exact h2⟩
      · rintro ⟨h1, h2⟩; exact ⟨h1, by rw [hrep.2 k h1]; exact h2⟩
    have hname : ∀ kv ∈ st.properties.enumerate, fieldName kv.1 = kv.1 := by
      rintro ⟨k, v⟩ hkv
      obtain ⟨hk, x, a, y, rfl, hv, _⟩ := (hmem k v).mp hkv
      have ha := hn a (by simp)
      exact (ha.2 (k, v) ((Properties.mem_enumerate ha.1 k v).mpr ⟨hk, hv⟩)).same
    have hm1 : (st.properties.enumerate.map fun kv => fieldName kv.1) = st.properties.enumerate.map Prod.fst := List.map_congr_left hname
    have hm2 : (st.properties.enumerate.map fun kv => (fieldName kv.1, Value.text kv.2)) = st.properties.enumerate.map fun kv => (kv.1, Value.text kv.2) :=
      List.map_congr_left fun kv h => by rw [hname kv h]
    have hnd : (st.properties.enumerate.map Prod.fst).Nodup := StrMap.enum_keys_nodup hrep.1
    unfold parametersToStruct at hp
    rw [hm1, hm2, if_pos hnd] at hp
    exact ⟨_, (Option.some.inj hp).symm, hnd, hmem⟩
  · refine ⟨rfl, rfl, rfl, ?_, ?_, ?_⟩
    · obtain ⟨l, h1, h2, h3, _⟩ := C121_names_partial d.regions _ _ _ (.inl ⟨rfl, rfl, rfl⟩)
      exact ⟨l, h1, h2, h3⟩
    · obtain ⟨l, h1, h2, h3, _⟩ := C121_names_partial d.images _ _ _ (.inr (.inl ⟨rfl, rfl, rfl⟩))
      exact ⟨l, h1, h2, h3⟩
    · obtain ⟨l, h1, h2, h3, _⟩ := C121_names_partial d.channels _ _ _ (.inr (.inr ⟨rfl, rfl, rfl⟩))
      exact ⟨l, h1, h2, h3⟩

/-! ## What the callback asks for -/

variable {σ γ δ : Type}

/-- New memory has the size that is asked for. -/
def Sized (S : Setting σ γ δ) : Prop := (∀ n, (S.freshPoints n).length = n) ∧ ∀ n, (S.freshMask n).length = n

theorem command_inv {S : Setting σ γ δ} (hS : Sized S) {r : Reply δ} {images : ImageList} {region : Option Region} {p : Properties}
    (h : command S.fresh S.freshMask S.freshPoints S.declared.channels r = .ok (some (images, region, p))) :
    ((r.images = none ∧ images = ImageList.create) ∨
      ∃ cells, r.images = some cells ∧ arrayToImages S.fresh S.declared.channels cells = .ok (some images)) ∧
    (region = none ↔ r.region = none) ∧ ((∃ image, some image ∈ images) → Asks S r images region p) := by
  unfold command at h
  obtain ⟨i, hi, h⟩ := Region.bind_eq_ok h
  cases i with
  | none => cases h
  | some images' =>
  dsimp only at h
  obtain ⟨g, hg, h⟩ := Region.bind_eq_ok h
  cases g with
  | none => cases h
  | some region' =>
  dsimp only at h
  obtain ⟨q, hq, h⟩ := Region.map_eq_ok h
  cases q with
  | none => cases h
  | some q =>
  simp only [Option.map_some, Option.some.injEq, Prod.mk.injEq] at h
  obtain ⟨e1, e2, e3⟩ := h
  subst e1 e2 e3
  have hi' : (r.images = none ∧ images' = ImageList.create) ∨
      ∃ cells, r.images = some cells ∧ arrayToImages S.fresh S.declared.channels cells = .ok (some images') := by
    unfold replyImages at hi
    cases e : r.images with
    | none => rw [e] at hi; cases hi; exact .inl ⟨rfl, rfl⟩
    | some cells => rw [e] at hi; exact .inr ⟨cells, rfl, hi⟩
  have hg' : r.region = none ∧ region' = none ∨ ∃ arr x, r.region = some arr ∧ region' = some x ∧ (RegionArray arr → MeansRegion arr x) := by
    unfold replyRegion at hg
    cases e : r.region with
    | none => rw [e] at hg; cases hg; exact .inl ⟨rfl, rfl⟩
    | some arr =>
      rw [e] at hg
      obtain ⟨y, hy, hg⟩ := Region.map_eq_ok hg
      cases y with
      | none => cases hg
      | some y =>
        cases hg
        refine .inr ⟨arr, y, rfl, rfl, fun ha => ?_⟩
        obtain ⟨y', k1, k2⟩ := region_meant hS.1 hS.2 ha
        rw [k1] at hy
        cases hy
        exact k2
  refine ⟨hi', ?_, ?_⟩
  · rcases hg' with ⟨h1, h2⟩ | ⟨arr, x, h1, h2, _⟩
    · simp [h1, h2]
    · simp [h1, h2]
  · rintro ⟨image, him⟩
    refine ⟨?_, hg', ?_⟩
    · rcases hi' with ⟨_, rfl⟩ | ⟨cells, h1, h2⟩
      · exfalso; revert him; simp [ImageList.create]
      · exact ⟨cells, h1, h2, image, him⟩
    · unfold replyParameters at hq
      split at hq
      · rename_i fields e; cases hq; exact .inl ⟨fields, e, rfl⟩
      · rename_i m n l e; exact .inr (.inl ⟨m, n, l, e, hq⟩)
      · rename_i h1 h2
        cases hq
        refine .inr (.inr ⟨?_, rfl⟩)
        cases e : r.parameters with
        | none => rfl
        | some a =>
          cases a with
          | mx _ => rfl
          | logical _ => rfl
          | struct f => exact absurd e (h1 f)
          | cell m n l => exact absurd e (h2 m n l)

/-- C131 for any state. -/
theorem loop_conversation (S : Setting σ γ δ) (hS : Sized S) (n : Nat) : ∀ (b : Bool) (answers : List Answer) (st : Status) (d : δ) (t : σ) (k : γ) (e : End δ)
    (es : List (Event δ)), After answers st → loop S n b st d t k = some (.ok (e, es)) →
    ∃ (b' : Bool) (as' : List Answer) (d' : δ) (rounds tail : List (Event δ)), es = rounds ++ tail ∧ Rounds S b answers d rounds b' as' d' ∧ Conclusion S b' as' d' tail e := by
  induction n with
  | zero => intro b answers st d t k e es _ h; cases h
  | succ n ih =>
    intro b answers st d t k e es ha h
    unfold loop at h
    split at h
    · cases h
      exact ⟨b, answers, d, [], [], rfl, .nil _ _ _, .nothing⟩
    split at h
    · cases h
    · cases h
    · cases h
      exact ⟨b, answers, d, [], [], rfl, .nil _ _ _, .nothing⟩
    rename_i sh hsh
    have hshow := shown_shows ha hsh
    split at h
    · cases h
      exact ⟨b, answers, d, [], [], rfl, .nil _ _ _, .nothing⟩
    rename_i r k' _
    split at h
    · cases h
    · cases h
    · cases h
      exact ⟨b, answers, d, [], _, rfl, .nil _ _ _, .reply sh r hshow⟩
    rename_i images region p hc
    obtain ⟨hi, hreg, hask⟩ := command_inv hS hc
    split at h
    · rename_i h0
      cases h
      have hno : ∀ image, some image ∉ images := by
        intro image him
        have := List.countP_eq_zero.mp h0 _ him
        simp at this
      refine ⟨b, answers, d, [], _, rfl, .nil _ _ _, .data sh r hshow ?_⟩
      rcases hi with ⟨hi, _⟩ | ⟨cells, h1, h2⟩
      · exact .inl hi
      · exact .inr (.inl ⟨cells, images, h1, h2, hno⟩)
    rename_i h0
    have hsome : ∃ image, some image ∈ images := by
      by_contra hno
      apply h0
      rw [List.countP_eq_zero]
      intro o ho
      cases o with
      | none => simp
      | some image => exact absurd ⟨image, ho⟩ hno
    have hasks := hask hsome
    split at h
    · rename_i e1
      cases h
      refine ⟨b, answers, d, [], _, rfl, .nil _ _ _, .data sh r hshow (.inr (.inr ?_))⟩
      unfold request at e1
      split at e1
      · split at e1
        · split at e1 <;> cases e1
        · cases e1
      · split at e1
        · rename_i hb
          exact ⟨by simpa using hb, hreg.mp rfl⟩
        · cases e1
    · rename_i evs t' e1
      cases h
      refine ⟨b, answers, d, [], _, rfl, .nil _ _ _, ?_⟩
      unfold request at e1
      split at e1
      · rename_i x
        split at e1
        · rename_i hb
          split at e1
          · simp only [Prod.mk.injEq] at e1; rw [← e1.2.1]; exact .reply sh r hshow
          · simp only [Prod.mk.injEq] at e1
            rw [← e1.2.1, hb]; exact .start sh r hshow images x p hasks
        · rename_i hb
          simp only [Prod.mk.injEq] at e1
          have := Conclusion.start (S := S) (started := b) (d := d) sh r hshow images x p hasks
          rw [if_neg hb] at this
          rw [← e1.2.1]; exact this
      · split at e1
        · cases e1
        · rename_i hb
          simp only [Prod.mk.injEq] at e1
          rw [← e1.2.1]; exact .frame sh r hshow images p hasks (by simpa using hb)
    · rename_i evs t' e1
      have hevs : (∃ x, region = some x ∧ evs = (if b then [.reset] else []) ++ [.init images x p]) ∨ region = none ∧ b = true ∧ evs = [.frame images p] := by
        unfold request at e1
        split at e1
        · rename_i x
          split at e1
          · rename_i hb
            split at e1
            · cases e1
            · simp only [Prod.mk.injEq] at e1
              exact .inl ⟨x, rfl, by rw [hb, ← e1.2.1]; rfl⟩
          · rename_i hb
            simp only [Prod.mk.injEq] at e1
            exact .inl ⟨x, rfl, by rw [if_neg hb, ← e1.2.1]; rfl⟩
        · split at e1
          · cases e1
          · rename_i hb
            simp only [Prod.mk.injEq] at e1
            exact .inr ⟨rfl, by simpa using hb, e1.2.1.symm⟩
      split at h
      · cases h
        refine ⟨b, answers, d, [], _, rfl, .nil _ _ _, ?_⟩
        rcases hevs with ⟨x, rfl, rfl⟩ | ⟨rfl, hb, rfl⟩
        · have := Conclusion.start (S := S) (started := b) (d := d) sh r hshow images x p hasks
          simpa using this
        · exact .frame sh r hshow images p hasks hb
      · rename_i a t'' _
        cases hl : loop S n true ⟨some a.region, a.time, Properties.append a.properties st.properties false⟩ r.data t'' k' with
        | none => rw [hl] at h; cases h
        | some o =>
          rw [hl] at h
          cases o with
          | abort => cases h
          | ub => cases h
          | ok x =>
            obtain ⟨e', es'⟩ := x
            cases h
            obtain ⟨b', as', d', rounds, tail, rfl, hr, ht⟩ := ih _ _ _ _ _ _ _ _ (ha.snoc a) hl
            refine ⟨b', as', d', .call sh d r :: evs ++ .answer a :: rounds, tail, ?_, ?_, ht⟩
            · simp
            · rcases hevs with ⟨x, rfl, rfl⟩ | ⟨rfl, rfl, rfl⟩
              · have := Rounds.start (S := S) b answers d sh r images x p a rounds b' as' d' hshow hasks hr
                simpa using this
              · have := Rounds.frame (S := S) answers d sh r images p a rounds b' as' d' hshow hasks hr
                simpa using this

/-- C131: a run consists of rounds. In each the callback gets the region and the time of the last answer of the tracker, the properties of all
answers, what the tracker declared, and the data that it gave before. If its reply has a region, the tracker is started with it, after
a reset if it was started before; otherwise it gets the images as next frame. The run ends with the data of the
last reply, if this reply has no images or if it has no region at first. Otherwise it ends with an error. -/
theorem C131_conversation_partial (S : Setting σ γ δ) (hS : Sized S) (n : Nat) (data : δ) (t : σ) (k : γ) (e : End δ) (es : List (Event δ))
    (h : run S n data t k = some (.ok (e, es))) :
    ∃ (started : Bool) (answers : List Answer) (d : δ) (rounds tail : List (Event δ)), es = rounds ++ tail ∧ Rounds S false [] data rounds started answers d ∧
      Conclusion S started answers d tail e :=
  loop_conversation S hS n _ _ _ _ _ _ _ _ .initial h

/-! ## Runs without an error -/

theorem shown_ok (d : Declaration) {answers : List Answer} {st : Status} (h : After answers st) (hd : ∀ a ∈ answers, Drawable a.region) (hn : Nameable answers) :
    ∃ sh, shown d st = .ok (some sh) := by
  have hr : ∃ region, regionToArray st.region = .ok region ∧ ¬ (st.region.isSome = true ∧ region.isNone = true) := by
    have e := h.region
    cases el : answers.getLast? with
    | none => rw [el] at e; rw [e]; exact ⟨none, rfl, by simp⟩
    | some a =>
      rw [el] at e
      obtain ⟨arr, k, -⟩ := drawable_shown (hd a (List.mem_of_getLast? el))
      rw [e]
      exact ⟨some arr, k, by simp⟩
  obtain ⟨region, hr, hne⟩ := hr
  have hrep := h.properties fun a ha => (hn a ha).1
  have hname : ∀ kv ∈ st.properties.enumerate, fieldName kv.1 = kv.1 := by
    rintro ⟨k, v⟩ hkv
    obtain ⟨hk, hv⟩ := (Properties.mem_enumerate hrep.1 k v).mp hkv
    rw [hrep.2 k hk, merged_iff] at hv
    obtain ⟨x, a, y, rfl, hv, _⟩ := hv
    have ha := hn a (by simp)
    exact (ha.2 (k, v) ((Properties.mem_enumerate ha.1 k v).mpr ⟨hk, hv⟩)).same
  have hm1 : (st.properties.enumerate.map fun kv => fieldName kv.1) = st.properties.enumerate.map Prod.fst := List.map_congr_left hname
  have hnd : (st.properties.enumerate.map Prod.fst).Nodup := StrMap.enum_keys_nodup hrep.1
  unfold shown
  rw [hr]
  unfold parametersToStruct
  rw [hm1, if_pos hnd]
  show ∃ sh, Outcome.ok _ = _
  dsimp only
  rw [if_neg hne]
  exact ⟨_, rfl⟩

/-- A tracker that does what it is asked for, and answers with regions and properties that can be shown. -/
structure Willing (T : Tracker σ) : Prop where
  ready : ∀ t, (T.ready t).1 = true
  reset : ∀ t, (T.reset t).1 = true
  init : ∀ images r p t, (T.init images r p t).1 = true
  frame : ∀ images p t, (T.frame images p t).1 = true
  wait : ∀ t, ∃ a, (T.wait t).1 = some a ∧ Drawable a.region ∧ a.properties.WF ∧ ∀ kv ∈ a.properties.enumerate, FieldName kv.1

/-- A reply that can be understood. -/
structure Clear (S : Setting σ γ δ) (r : Reply δ) : Prop where
  images : ∀ cells, r.images = some cells → ∃ l, arrayToImages S.fresh S.declared.channels cells = .ok (some l)
  region : ∀ arr, r.region = some arr → RegionArray arr
  parameters : ∀ m n l, r.parameters ≠ some (.cell m n l)

theorem command_clear {S : Setting σ γ δ} (hS : Sized S) {r : Reply δ} (h : Clear S r) :
    ∃ x, command S.fresh S.freshMask S.freshPoints S.declared.channels r = .ok (some x) := by
  have h1 : ∃ l, replyImages S.fresh S.declared.channels r.images = .ok (some l) := by
    cases e : r.images with
    | none => exact ⟨_, rfl⟩
    | some cells => exact h.images cells e
  have h2 : ∃ l, replyRegion S.freshMask S.freshPoints r.region = .ok (some l) := by
    cases e : r.region with
    | none => exact ⟨_, rfl⟩
    | some arr =>
      obtain ⟨x, hx, -⟩ := region_meant hS.1 hS.2 (h.region arr e)
      exact ⟨some x, by unfold replyRegion; dsimp only; rw [hx]; rfl⟩
  have h3 : ∃ l, replyParameters r.parameters = .ok (some l) := by
    unfold replyParameters
    split
    · exact ⟨_, rfl⟩
    · rename_i m n l e; exact absurd e (h.parameters m n l)
    · exact ⟨_, rfl⟩
  obtain ⟨l1, h1⟩ := h1
  obtain ⟨l2, h2⟩ := h2
  obtain ⟨l3, h3⟩ := h3
  unfold command
  rw [h1, Outcome.bind_ok]
  dsimp only
  rw [h2, Outcome.bind_ok]
  dsimp only
  rw [h3]
  exact ⟨_, rfl⟩

theorem loop_completes (S : Setting σ γ δ) (hS : Sized S) (hT : Willing S.tracker) (hc : ∀ sh d k, ∃ r, (S.callback sh d k).1 = some r ∧ Clear S r) (n : Nat) :
    ∀ (b : Bool) (answers : List Answer) (st : Status) (d : δ) (t : σ) (k : γ), After answers st → (∀ a ∈ answers, Drawable a.region) → Nameable answers →
    loop S n b st d t k = none ∨ ∃ x es, loop S n b st d t k = some (.ok (.data x, es)) := by
  induction n with
  | zero => intros; exact .inl rfl
  | succ n ih =>
    intro b answers st d t k ha hd hn
    unfold loop
    have hready := hT.ready t
    generalize S.tracker.ready t = x at hready
    obtain ⟨x1, t1⟩ := x
    subst hready
    dsimp only
    obtain ⟨sh, hsh⟩ := shown_ok S.declared ha hd hn
    rw [hsh]
    dsimp only
    obtain ⟨r, hr, hclear⟩ := hc sh d k
    generalize S.callback sh d k = y at hr
    obtain ⟨y1, k1⟩ := y
    subst hr
    dsimp only
    obtain ⟨⟨images, region, p⟩, hcmd⟩ := command_clear hS hclear
    rw [hcmd]
    dsimp only
    by_cases h0 : images.countP (·.isSome) = 0
    · rw [if_pos h0]; exact .inr ⟨_, _, rfl⟩
    rw [if_neg h0]
    have hreq : ∀ ok evs t', request (δ := δ) S.tracker b images region p t1 = (ok, evs, t') → ok ≠ some false := by
      intro ok evs t' e
      unfold request at e
      split at e
      · rename_i x
        split at e
        · have hreset := hT.reset t1
          split at e
          · rename_i e2; rw [e2] at hreset; cases hreset
          · simp only [Prod.mk.injEq, hT.init] at e; rw [← e.1]; decide
        · simp only [Prod.mk.injEq, hT.init] at e; rw [← e.1]; decide
      · split at e
        · cases e; decide
        · simp only [Prod.mk.injEq, hT.frame] at e; rw [← e.1]; decide
    cases e : request (δ := δ) S.tracker b images region p t1 with
    | mk ok rest =>
    obtain ⟨evs, t2⟩ := rest
    have hok := hreq _ _ _ e
    cases ok with
    | none => exact .inr ⟨_, _, rfl⟩
    | some ok =>
    cases ok with
    | false => exact absurd rfl hok
    | true =>
    dsimp only
    obtain ⟨a, hw, h1, h2, h3⟩ := hT.wait t2
    generalize S.tracker.wait t2 = z at hw
    obtain ⟨z1, t3⟩ := z
    subst hw
    dsimp only
    have hmem : ∀ b ∈ answers ++ [a], b ∈ answers ∨ b = a := by intro b hb; simpa using hb
    rcases ih true (answers ++ [a]) ⟨some a.region, a.time, Properties.append a.properties st.properties false⟩ r.data t3 k1 (ha.snoc a)
      (fun b hb => by rcases hmem b hb with hb | rfl; exacts [hd b hb, h1])
      (fun b hb => by rcases hmem b hb with hb | rfl; exacts [hn b hb, ⟨h2, h3⟩]) with hl | ⟨x, es, hl⟩
    · rw [hl]; exact .inl rfl
    · rw [hl]; exact .inr ⟨_, _, rfl⟩

/-- C131, no error without a reason: if the tracker does what it is asked for and the callback replies with what it should, then a run
ends only with data. -/
theorem C131_completes_partial (S : Setting σ γ δ) (hS : Sized S) (hT : Willing S.tracker)
    (hc : ∀ sh d k, ∃ r, (S.callback sh d k).1 = some r ∧ Clear S r) (n : Nat) (data : δ) (t : σ) (k : γ) :
    run S n data t k = none ∨ ∃ x es, run S n data t k = some (.ok (.data x, es)) :=
  loop_completes S hS hT hc n _ _ _ _ _ _ .initial (by simp) (by intro a ha; cases ha)

end Trax.Mex.Client

namespace Trax.Mex.Client.Demo
open Trax.Spec (FieldName RegionArray)
open Client.Spec

/-- A tracker that gives a property with its first answer only. -/
def tracker : Tracker Nat where
  ready := fun t => (true, t)
  reset := fun t => (true, t)
  init := fun _ _ _ t => (true, t)
  frame := fun _ _ t => (true, t)
  wait := fun t => (some ⟨.polygon [], if t = 0 then Properties.create.set b!"lost" b!"1" else Properties.create, Flt.zero⟩, t + 1)

/-- A callback that starts the tracker, gives it another image and ends; its data are the number of calls. -/
def callback (_ : Shown) (d : Nat) (k : Nat) : Option (Reply Nat) × Nat :=
  (some (if k = 0 then ⟨some (.one (.text b!"1.jpg")), some (.double 1 4 [Flt.zero, Flt.zero, Flt.zero, Flt.zero]), none, d + 1⟩
    else if k = 1 then ⟨some (.one (.text b!"2.jpg")), none, none, d + 1⟩ else ⟨none, none, none, d + 1⟩), k + 1)

def setting : Setting Nat Nat Nat :=
  ⟨tracker, ⟨4, 1, 1, b!"t", [], []⟩, callback, fun _ => 0, fun n => List.replicate n 0, fun n => List.replicate n (Flt.zero, Flt.zero)⟩

end Trax.Mex.Client.Demo

namespace Trax.Mex.Client
open Trax.Spec (ShowsRegion RegionArray MeansRegion FieldName mexRegions mexImages mexChannels AnyCase doubleValue AMap LastGiven NotGiven)
open Client.Spec

example : Sized Demo.setting := ⟨by simp [Demo.setting], by simp [Demo.setting]⟩

example : Willing Demo.tracker :=
  ⟨fun _ => rfl, fun _ => rfl, fun _ _ _ _ => rfl, fun _ _ _ => rfl, fun t => ⟨_, rfl, .polygon _, by
    dsimp only
    split
    · exact Properties.wf_set Properties.wf_create _ _
    · exact Properties.wf_create, by
    dsimp only
    split
    · intro kv hkv
      have : kv = (b!"lost", b!"1") := by
        have e : (Properties.create.set b!"lost" b!"1").enumerate = [(b!"lost", b!"1")] := by decide +kernel
        rw [e] at hkv
        exact List.mem_singleton.mp hkv
      rw [this]
      exact ⟨ch%'l', b!"ost", rfl, by decide, by decide⟩
    · intro kv hkv
      have e : Properties.create.enumerate = [] := by decide +kernel
      rw [e] at hkv
      cases hkv⟩⟩

example : ∀ sh d k, ∃ r, (Demo.setting.callback sh d k).1 = some r ∧ Clear Demo.setting r := by
  intro sh d k
  refine ⟨_, rfl, ?_⟩
  split
  · exact ⟨fun cells h => by cases h; exact ⟨_, rfl⟩, fun arr h => by cases h; exact .rectangle _ _ _ _, fun m n l h => by cases h⟩
  · split
    · exact ⟨fun cells h => by cases h; exact ⟨_, rfl⟩, fun arr h => (by cases h), fun m n l h => by cases h⟩
    · exact ⟨fun cells h => (by cases h), fun arr h => (by cases h), fun m n l h => by cases h⟩

example : (match run Demo.setting 3 0 0 0 with
    | some (.ok (.data x, es)) => decide (x = 3 ∧ es.length = 7)
    | _ => false) = true := by decide +kernel

/-- The full C131 is false: the callback is shown a property that is not in the last answer of the tracker, but in an answer before it. -/
theorem C131_properties_false : ∃ sh e d r, run Demo.setting 3 0 0 0 = some (.ok e) ∧ e.2.getLast? = some (.call sh d r) ∧
    (b!"lost", Value.text b!"1") ∈ sh.properties ∧ ∃ a, e.2[5]? = some (.answer a) ∧ a.properties.get b!"lost" = none := by
  have h : (match run Demo.setting 3 0 0 0 with
    | some (.ok e) => (match e.2.getLast? with
      | some (.call sh _ _) => decide ((b!"lost", Value.text b!"1") ∈ sh.properties) && (match (e.2[5]? : Option (Event Nat)) with
        | some (Event.answer a) => decide (a.properties.get b!"lost" = none)
        | _ => false)
      | _ => false)
    | _ => false) = true := by decide +kernel
  split at h
  · rename_i e he
    split at h
    · rename_i sh d r hl
      rw [Bool.and_eq_true] at h
      obtain ⟨h1, h2⟩ := h
      split at h2
      · rename_i a ha
        exact ⟨sh, e, d, r, he, hl, of_decide_eq_true h1, a, ha, of_decide_eq_true h2⟩
      · cases h2
    · cases h
  · cases h

/-! ## The arguments -/

/-- The settings after a named argument. -/
def Settings.after (d : Settings) : Named → Settings
  | .debug b => { d with verbosity := if b then 2 else 1 }
  | .timeout n => { d with timeout := n }
  | .connection m => { d with connection := m }
  | .environment l => { d with environment := Environ.assign d.environment l }
  | .data a => { d with data := some a }
  | .directory s => { d with directory := s }
  | .log s => { d with log := s }

theorem envLoop_assign (l : List (Str × Str)) (hl : ∀ kv ∈ l, NoNul kv.2) (m : Environ.EnvMap) :
    envLoop (l.map fun kv => (kv.1, Value.text kv.2)) m = some (Environ.assign m l) := by
  induction l generalizing m with
  | nil => rfl
  | cons kv l ih =>
    show envLoop _ (m.set kv.1 (cstr kv.2)) = _
    rw [cstr_of_noNul (hl kv List.mem_cons_self), ih fun kv h => hl kv (List.mem_cons_of_mem _ h)]
    rfl

theorem intOfDouble_trunc {neg : Bool} {m : Nat} {n : Int} (h1 : -2147483648 ≤ n) (h2 : n ≤ 2147483647)
    (h3 : |(n : ℚ)| ≤ |doubleValue (.fin neg m)| ∧ |doubleValue (.fin neg m)| < |(n : ℚ)| + 1) (h4 : n < 0 → doubleValue (.fin neg m) < 0)
    (h5 : 0 < n → 0 < doubleValue (.fin neg m)) : intOfDouble (.fin neg m) = .ok n := by
  have hU : (0 : ℚ) < 2 ^ 1074 := by positivity
  have habs : |doubleValue (.fin neg m)| = (m : ℚ) / 2 ^ 1074 := by
    unfold doubleValue
    rw [abs_div, abs_of_pos hU]
    cases neg <;> simp
  rw [habs, ← Int.cast_abs] at h3
  obtain ⟨h3, h3'⟩ := h3
  rw [le_div_iff₀ hU] at h3
  rw [div_lt_iff₀ hU] at h3'
  have hq : m / 2 ^ 1074 = n.natAbs := by
    rw [Int.abs_eq_natAbs] at h3 h3'
    generalize n.natAbs = a at h3 h3'
    have e1 : a * 2 ^ 1074 ≤ m := by
      have : ((a * 2 ^ 1074 : Nat) : ℚ) ≤ (m : ℚ) := by rw [Nat.cast_mul, Nat.cast_pow]; exact h3
      exact Nat.cast_le.mp this
    have e2 : m < (a + 1) * 2 ^ 1074 := by
      have : (m : ℚ) < (((a + 1) * 2 ^ 1074 : Nat) : ℚ) := by rw [Nat.cast_mul, Nat.cast_pow, Nat.cast_add]; exact h3'
      exact Nat.cast_lt.mp this
    exact Nat.div_eq_of_lt_le e1 e2
  have hneg : n ≠ 0 → (neg = true ↔ n < 0) := by
    intro hn
    have hv : doubleValue (.fin neg m) = (if neg then -(m : ℚ) else m) / 2 ^ 1074 := rfl
    have hm : (0 : ℚ) ≤ m := Nat.cast_nonneg m
    constructor
    · rintro rfl
      by_contra hc
      have := h5 (by omega)
      rw [hv, if_pos rfl] at this
      have h6 : -(m : ℚ) / 2 ^ 1074 ≤ 0 := div_nonpos_of_nonpos_of_nonneg (by linarith) hU.le
      linarith
    · intro hc
      have := h4 hc
      cases neg with
      | true => rfl
      | false =>
        rw [hv] at this
        have h6 : (0 : ℚ) ≤ (m : ℚ) / 2 ^ 1074 := div_nonneg hm hU.le
        exact absurd this (not_lt.mpr h6)
  unfold intOfDouble
  dsimp only
  rw [hq]
  have : (if neg = true then -((n.natAbs : Nat) : Int) else ((n.natAbs : Nat) : Int)) = n := by
    by_cases hn : n = 0
    · subst hn; cases neg <;> rfl
    · cases neg with
      | true => rw [if_pos rfl]; have := (hneg hn).mp rfl; omega
      | false =>
        have : ¬ n < 0 := fun hc => by have := (hneg hn).mpr hc; cases this
        rw [if_neg (by decide)]; omega
  rw [this]
  unfold chk32
  rw [if_pos ⟨h1, h2⟩]

theorem settingsPair_written {n : Named} {k v : Arg} (h : n.Written k v) {args : List Arg} {i : Nat} (hk : args[i]? = some k) (hv : args[i + 1]? = some v)
    (d : Settings) : settingsPair args i d = .ok (some (d.after n)) := by
  have hkey : ∀ {key name : Str}, AnyCase key name → (∀ c ∈ name, 97 ≤ c.toNat ∧ c.toNat ≤ 122) → args[i]? = some (.mx (.text key)) →
      ∀ f : Str → Outcome (Option Settings), withText args i f = f key ∧ lower key = name := by
    intro key name hc hl ha f
    exact ⟨withText_text ha (anyCase_noNul hl hc), (anyCase_lower hl).mpr hc⟩
  have hat : argAt args (i + 1) = .ok v := by unfold argAt; rw [hv]
  unfold settingsPair
  cases h with
  | debugFlag key hc b =>
    obtain ⟨h1, h2⟩ := hkey hc (by decide) hk _
    rw [h1]
    have : argumentCode key = some 4 := by unfold argumentCode; rw [h2]; rfl
    rw [this]
    show (argAt args (i + 1)).bind _ = _
    rw [hat]
    have z0 : ∀ m : Nat, (Flt.fin (decide ((0 : Int) < 0)) (Int.natAbs 0 * m)).feq Flt.zero = true := by
      intro m; rw [show Int.natAbs 0 * m = 0 from Nat.zero_mul m]; rfl
    have z1 : ∀ m : Nat, m ≠ 0 → (Flt.fin (decide ((1 : Int) < 0)) (Int.natAbs 1 * m)).feq Flt.zero = false := by
      intro m hm; rw [show Int.natAbs 1 * m = m from Nat.one_mul m]
      obtain ⟨m, rfl⟩ := Nat.exists_eq_succ_of_ne_zero hm
      rfl
    cases b with
    | false =>
      show Outcome.ok (some { d with verbosity := if (doubleOfInt 0).feq Flt.zero then 1 else 2 }) = _
      unfold doubleOfInt
      rw [z0]
      rfl
    | true =>
      show Outcome.ok (some { d with verbosity := if (doubleOfInt 1).feq Flt.zero then 1 else 2 }) = _
      unfold doubleOfInt
      rw [z1 _ (pow_ne_zero _ two_ne_zero)]
      rfl
  | debugNumber key hc neg m b hb =>
    obtain ⟨h1, h2⟩ := hkey hc (by decide) hk _
    rw [h1]
    have : argumentCode key = some 4 := by unfold argumentCode; rw [h2]; rfl
    rw [this]
    show (argAt args (i + 1)).bind _ = _
    rw [hat]
    have hz : (Flt.fin neg m).feq Flt.zero = !b := by
      have hm : doubleValue (.fin neg m) ≠ 0 ↔ m ≠ 0 := by
        have hU : (2 : ℚ) ^ 1074 ≠ 0 := pow_ne_zero _ two_ne_zero
        have hv : doubleValue (.fin neg m) = (if neg then -(m : ℚ) else m) / 2 ^ 1074 := rfl
        rw [hv]
        generalize (2 : ℚ) ^ 1074 = u at hU
        rw [div_ne_zero_iff]
        cases neg
        · exact ⟨fun h => by simpa using h.1, fun h => ⟨by simpa using h, hU⟩⟩
        · exact ⟨fun h => by simpa using h.1, fun h => ⟨by simpa using h, hU⟩⟩
      rw [hm] at hb
      by_cases h0 : m = 0
      · subst h0
        cases b with
        | true => exact absurd rfl (hb.mp rfl)
        | false => cases neg <;> rfl
      · rw [hb.mpr h0]
        obtain ⟨m, rfl⟩ := Nat.exists_eq_succ_of_ne_zero h0
        cases neg <;> rfl
    show Outcome.ok (some { d with verbosity := if (Flt.fin neg m).feq Flt.zero then 1 else 2 }) = _
    rw [hz]
    cases b <;> rfl
  | timeout key hc neg m n g1 g2 g3 g4 g5 =>
    obtain ⟨h1, h2⟩ := hkey hc (by decide) hk _
    rw [h1]
    have : argumentCode key = some 5 := by unfold argumentCode; rw [h2]; rfl
    rw [this]
    show (argAt args (i + 1)).bind _ = _
    rw [hat]
    show (intOfDouble (.fin neg m)).map _ = _
    rw [intOfDouble_trunc g1 g2 g3 g4 g5]
    rfl
  | standard key s hc hs =>
    obtain ⟨h1, h2⟩ := hkey hc (by decide) hk _
    rw [h1]
    have : argumentCode key = some 8 := by unfold argumentCode; rw [h2]; rfl
    rw [this]
    show withText args (i + 1) _ = _
    rw [withText_text hv (anyCase_noNul (by decide) hs)]
    have : connectionMode s = some .standard := by unfold connectionMode; rw [(anyCase_lower (by decide)).mpr hs]; rfl
    rw [this]
    rfl
  | explicit key s hc hs =>
    obtain ⟨h1, h2⟩ := hkey hc (by decide) hk _
    rw [h1]
    have : argumentCode key = some 8 := by unfold argumentCode; rw [h2]; rfl
    rw [this]
    show withText args (i + 1) _ = _
    rw [withText_text hv (anyCase_noNul (by decide) hs)]
    have : connectionMode s = some .explicit := by unfold connectionMode; rw [(anyCase_lower (by decide)).mpr hs]; rfl
    rw [this]
    rfl
  | sockets key s hc hs =>
    obtain ⟨h1, h2⟩ := hkey hc (by decide) hk _
    rw [h1]
    have : argumentCode key = some 8 := by unfold argumentCode; rw [h2]; rfl
    rw [this]
    show withText args (i + 1) _ = _
    rw [withText_text hv (anyCase_noNul (by decide) hs)]
    have : connectionMode s = some .sockets := by unfold connectionMode; rw [(anyCase_lower (by decide)).mpr hs]; rfl
    rw [this]
    rfl
  | environment key hc l hl =>
    obtain ⟨h1, h2⟩ := hkey hc (by decide) hk _
    rw [h1]
    have : argumentCode key = some 6 := by unfold argumentCode; rw [h2]; rfl
    rw [this]
    show (argAt args (i + 1)).map _ = _
    rw [hat]
    show Outcome.ok ((envLoop _ d.environment).map _) = _
    rw [envLoop_assign l hl]
    rfl
  | data key hc a =>
    obtain ⟨h1, h2⟩ := hkey hc (by decide) hk _
    rw [h1]
    have : argumentCode key = some 7 := by unfold argumentCode; rw [h2]; rfl
    rw [this]
    show (argAt args (i + 1)).map _ = _
    rw [hat]
    rfl
  | directory key s hc hs =>
    obtain ⟨h1, h2⟩ := hkey hc (by decide) hk _
    rw [h1]
    have : argumentCode key = some 9 := by unfold argumentCode; rw [h2]; rfl
    rw [this]
    show withText args (i + 1) _ = _
    rw [withText_text hv hs]
    rfl
  | log key s hc hs =>
    obtain ⟨h1, h2⟩ := hkey hc (by decide) hk _
    rw [h1]
    have : argumentCode key = some 10 := by unfold argumentCode; rw [h2]; rfl
    rw [this]
    show withText args (i + 1) _ = _
    rw [withText_text hv hs]
    rfl

theorem settingsLoop_written {ns : List Named} {as : List Arg} (h : WrittenAll ns as) (pre : List Arg) (rest : List Arg) (hr : rest.length ≤ 1) (m : Nat)
    (hm : ns.length ≤ m) (hp : pre.length % 2 = 0) (d : Settings) :
    settingsLoop (pre ++ as ++ rest) m pre.length d = .ok (some (ns.foldl Settings.after d)) := by
  induction h generalizing pre m d with
  | nil =>
    cases m with
    | zero => rfl
    | succ m =>
      unfold settingsLoop pairsEnd
      rw [if_neg (by simp only [List.length_append, List.length_nil]; omega)]
      rfl
  | cons n k v ns as hw hs ih =>
    obtain ⟨m, rfl⟩ : ∃ m', m = m' + 1 := ⟨m - 1, by simp at hm; omega⟩
    unfold settingsLoop pairsEnd
    rw [if_pos (by simp only [List.length_append, List.length_cons]; omega), settingsPair_written hw (by simp) (by simp)]
    rw [Outcome.bind_ok]
    dsimp only
    have := ih (pre ++ [k, v]) m (by simp at hm; omega) (by simp; omega) (d.after n)
    rw [List.append_assoc pre, List.length_append] at this
    exact this

theorem foldl_settings (ns : List Named) (d : Settings) :
    ns.foldl Settings.after d = ⟨(ns.filterMap Named.debug?).getLast?.elim d.verbosity fun b => if b then 2 else 1, lastOf Named.timeout? d.timeout ns,
      lastOf Named.connection? d.connection ns, Environ.assign d.environment (allVariables ns), (ns.filterMap Named.data?).getLast?.or d.data,
      lastOf Named.directory? d.directory ns, lastOf Named.log? d.log ns⟩ := by
  have hlast : ∀ {α : Type} (x e : α) (l : List α), (x :: l).getLast?.getD e = l.getLast?.getD x := by
    intro α x e l
    cases l with
    | nil => rfl
    | cons y l => rw [List.getLast?_cons_cons, List.getLast?_eq_some_getLast (by simp)]; rfl
  have hlast2 : ∀ {α β : Type} (x : α) (e : β) (f : α → β) (l : List α), (x :: l).getLast?.elim e f = l.getLast?.elim (f x) f := by
    intro α β x e f l
    cases l with
    | nil => rfl
    | cons y l => rw [List.getLast?_cons_cons, List.getLast?_eq_some_getLast (by simp)]; rfl
  have hlast3 : ∀ {α : Type} (x : α) (e : Option α) (l : List α), (x :: l).getLast?.or e = l.getLast?.or (some x) := by
    intro α x e l
    cases l with
    | nil => rfl
    | cons y l => rw [List.getLast?_cons_cons, List.getLast?_eq_some_getLast (by simp)]; rfl
  induction ns generalizing d with
  | nil => rfl
  | cons n ns ih =>
    rw [List.foldl_cons, ih]
    unfold lastOf
    cases n <;> simp [Settings.after, List.filterMap_cons, Named.debug?, Named.timeout?, Named.connection?, Named.data?, Named.directory?, Named.log?, hlast, hlast2, hlast3,
      Environ.assign, allVariables]

theorem written_length {ns : List Named} {as : List Arg} (h : WrittenAll ns as) : as.length = 2 * ns.length := by
  induction h with
  | nil => rfl
  | cons n k v ns as h hs ih => simp only [List.length_cons, ih]; omega

/-- C132: the named arguments of `traxclient` may come in any order. The last value of a name counts; without one the timeout is thirty seconds, the
connection is by the standard streams, and the rest is empty. The variables of the environment are collected, and the last value of each counts. -/
theorem C132_settings_partial (nlhs : Nat) (hl : nlhs ≤ 1) (command : Str) (hc : NoNul command) (ns : List Named) (as : List Arg) (h : WrittenAll ns as) :
    ∃ s, arguments nlhs (.mx (.text command)) true as = .ok (some (command, s)) ∧
      s.timeout = lastOf Named.timeout? 30 ns ∧ s.connection = lastOf Named.connection? .standard ns ∧ s.directory = lastOf Named.directory? [] ns ∧
      s.log = lastOf Named.log? [] ns ∧ s.data = (ns.filterMap Named.data?).getLast? ∧
      s.verbosity = (match (ns.filterMap Named.debug?).getLast? with | none => 0 | some false => 1 | some true => 2) ∧
      (s.environment.map Prod.fst).Nodup ∧ ∀ n v, (n, v) ∈ s.environment ↔ LastGiven (allVariables ns) n v := by
  have hloop := settingsLoop_written h [] [] (by simp) as.length (by rw [written_length h]; omega) rfl .initial
  rw [List.nil_append, List.append_nil, foldl_settings] at hloop
  refine ⟨⟨(ns.filterMap Named.debug?).getLast?.elim 0 fun b => if b then 2 else 1, lastOf Named.timeout? 30 ns,
      lastOf Named.connection? .standard ns, Environ.assign [] (allVariables ns), (ns.filterMap Named.data?).getLast?.or none,
      lastOf Named.directory? [] ns, lastOf Named.log? [] ns⟩, ?_, rfl, rfl, rfl, rfl, ?_, ?_, ?_, ?_⟩
  · unfold arguments
    rw [if_neg (by omega)]
    dsimp only
    rw [if_neg (by simp)]
    show (settingsLoop as as.length 0 .initial).map _ = _
    rw [show ([] : List Arg).length = 0 from rfl] at hloop
    rw [hloop, cstr_of_noNul hc]
    rfl
  · simp
  · dsimp only
    cases (ns.filterMap Named.debug?).getLast? with
    | none => rfl
    | some b => cases b <;> rfl
  · dsimp only
    have := Environ.assign_sorted Environ.sorted_nil (allVariables ns)
    unfold List.Nodup
    rw [List.pairwise_map]
    refine this.imp fun {a b} hab e => ?_
    rw [e, Environ.strLt_irrefl] at hab
    cases hab
  · intro n v
    dsimp only
    rw [Environ.mem_assign _ Environ.sorted_nil]
    simp

theorem settingsLoop_stops {ns : List Named} {as : List Arg} (h : WrittenAll ns as) (pre : List Arg) (k v : Arg) (rest : List Arg)
    (hk : ∀ args i d, args[i]? = some k → settingsPair args i d = .ok none) (m : Nat) (hm : ns.length < m) (hp : pre.length % 2 = 0) (d : Settings) :
    settingsLoop (pre ++ as ++ k :: v :: rest) m pre.length d = .ok none := by
  induction h generalizing pre m d with
  | nil =>
    obtain ⟨m, rfl⟩ : ∃ m', m = m' + 1 := ⟨m - 1, by simp at hm; omega⟩
    unfold settingsLoop pairsEnd
    rw [if_pos (by simp only [List.length_append, List.length_cons, List.length_nil]; omega), hk _ _ _ (by simp)]
    rfl
  | cons n k' v' ns as hw hs ih =>
    obtain ⟨m, rfl⟩ : ∃ m', m = m' + 1 := ⟨m - 1, by simp at hm; omega⟩
    unfold settingsLoop pairsEnd
    rw [if_pos (by simp only [List.length_append, List.length_cons]; omega), settingsPair_written hw (by simp) (by simp)]
    rw [Outcome.bind_ok]
    dsimp only
    have := ih (pre ++ [k', v']) m (by simp at hm; omega) (by simp; omega) (d.after n)
    rw [List.append_assoc pre, List.length_append] at this
    exact this

theorem lowercase_client : ∀ w ∈ clientNames, ∀ c ∈ w, 97 ≤ c.toNat ∧ c.toNat ≤ 122 := by decide

/-- C132, errors: `traxclient` fails if the command is not a text, if the callback is not a function, or if there is an argument with another name. -/
theorem C132_errors_partial (nlhs : Nat) :
    (∀ command function as, (∀ s, command ≠ .mx (.text s)) → arguments nlhs command function as = .ok none) ∧
    (∀ command as, arguments nlhs command false as = .ok none) ∧
    (∀ command ns as key v rest, WrittenAll ns as → NoNul key → (∀ w ∈ clientNames, ¬ AnyCase key w) →
      arguments nlhs (.mx (.text command)) true (as ++ .mx (.text key) :: v :: rest) = .ok none) := by
  refine ⟨?_, ?_, ?_⟩
  · intro command function as h
    unfold arguments
    split
    · rfl
    · split
      · rename_i s; exact absurd rfl (h s)
      · rfl
  · intro command as
    unfold arguments
    split
    · rfl
    · split
      · simp
      · rfl
  · intro command ns as key v rest h hn hk
    unfold arguments
    split
    · rfl
    dsimp only
    rw [if_neg (by simp)]
    have hpair : ∀ args i d, args[i]? = some (Arg.mx (.text key)) → settingsPair args i d = .ok none := by
      intro args i d ha
      unfold settingsPair
      rw [withText_text ha hn]
      have hne : ∀ w ∈ clientNames, lower key ≠ w := fun w hw e => hk w hw ((anyCase_lower (lowercase_client w hw)).mp e)
      have hcode : ∀ c, argumentCode key = some c → c = 0 ∨ c = 1 ∨ c = 2 ∨ c = 3 ∨ c = 11 ∨ c = -1 := by
        intro c hc
        unfold argumentCode at hc
        rw [if_neg (hne b!"debug" (by decide)), if_neg (hne b!"timeout" (by decide)), if_neg (hne b!"environment" (by decide)), if_neg (hne b!"data" (by decide)),
          if_neg (hne b!"connection" (by decide)), if_neg (hne b!"directory" (by decide)), if_neg (hne b!"log" (by decide))] at hc
        repeat' split at hc
        all_goals first | (cases hc; done) | (cases hc; decide)
      cases e : argumentCode key with
      | none => rfl
      | some c => rcases hcode c e with rfl | rfl | rfl | rfl | rfl | rfl <;> rfl
    have := settingsLoop_stops h [] (.mx (.text key)) v rest hpair (as ++ .mx (.text key) :: v :: rest).length
      (by rw [List.length_append, written_length h]; simp only [List.length_cons]; omega) rfl .initial
    rw [List.nil_append] at this
    rw [show ([] : List Arg).length = 0 from rfl] at this
    rw [this]
    rfl

example : NoNul b!"timeot" ∧ ∀ w ∈ clientNames, ¬ AnyCase b!"timeot" w := by
  refine ⟨by decide, ?_⟩
  intro w hw h
  have e := (anyCase_lower (lowercase_client w hw)).mpr h
  have : ∀ w ∈ clientNames, ¬ lower b!"timeot" = w := by decide
  exact this w hw e

example : WrittenAll [.debug true, .connection .sockets, .environment [(b!"A", b!"1")]] [.mx (.text b!"Debug"), .logical true, .mx (.text b!"connection"),
    .mx (.text b!"socket"), .mx (.text b!"environment"), .struct [(b!"A", .text b!"1")]] :=
  .cons _ _ _ _ _ (.debugFlag _ (by unfold AnyCase; decide) _) (.cons _ _ _ _ _ (.sockets _ _ (by unfold AnyCase; decide) (by unfold AnyCase; decide))
    (.cons _ _ _ _ _ (.environment _ (by unfold AnyCase; decide) [(b!"A", b!"1")] (by decide)) .nil))

example (k : Str) (hk : AnyCase k b!"timeout") : Named.Written (.timeout 2) (.mx (.text k)) (.mx (.double 1 1 [.fin false (5 * 2 ^ 1073)])) := by
  have h : ∀ m n : Nat, m = 2 * n → n ≠ 0 → ((5 * n : Nat) : ℚ) / (m : ℚ) = 5 / 2 := by
    rintro m n rfl hn
    have : (n : ℚ) ≠ 0 := Nat.cast_ne_zero.mpr hn
    rw [Nat.cast_mul, Nat.cast_mul]
    field_simp
    norm_num
  have hv : ∀ n : Nat, doubleValue (.fin false n) = (n : ℚ) / ((2 ^ 1074 : Nat) : ℚ) := by intro n; rw [Nat.cast_pow]; rfl
  have hv := (hv (5 * 2 ^ 1073)).trans (h _ _ (pow_succ' 2 1073) (pow_ne_zero _ two_ne_zero))
  refine .timeout k hk false _ 2 (by norm_num) (by norm_num) ?_ ?_ ?_
  · rw [hv]; norm_num
  · intro h; norm_num at h
  · intro _; rw [hv]; norm_num

/-- The full C132 is false: a name at the end without a value is accepted, and so is a text that is not a name. -/
theorem C132_arguments_false : arguments 1 (.mx (.text b!"tracker")) true [.mx (.text b!"debug")] = .ok (some (b!"tracker", .initial)) ∧
    arguments 1 (.mx (.text b!"tracker")) true [.mx (.text b!"???")] = .ok (some (b!"tracker", .initial)) := ⟨rfl, rfl⟩

end Trax.Mex.Client
