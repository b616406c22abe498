import Verif.Lemmas.Values
import Verif.Lemmas.Image
import Verif.Spec.CppHandle

/-!
# Lemmas about `Metadata` and `Image` objects
-/

namespace Trax.Cpp

open Trax.Cpp.Spec (Ref Val Values MetaVal)

theorem text_arg {s : Str} (h : NoNul s) : (match (textArg s).map cstr with | some s => s | none => []) = s := by
  unfold textArg
  by_cases e : s = []
  · rw [if_pos e, e]; rfl
  · rw [if_neg e]; simp only [Option.map_some, cstr_of_noNul h]

/-- A record and what it says. -/
def MetaRep : Option Metadata → MetaVal → Prop
  | none, _ => False
  | some m, b => m.regions = b.regions ∧ m.images = b.images ∧ m.channels = b.channels ∧ m.flags = b.flags ∧
      trackerName m = b.name ∧ trackerDescription m = b.description ∧ trackerFamily m = b.family ∧ PropRep m.custom b.custom

theorem VInv.createNew {α β : Type} {R : Option α → β → Prop} {m : Mem α} {s s' : Values β} {v : Nat → Option Ref} (h : VInv R m s v) {x}
    {a : α} {b : β} (hs : s.construct x b = some s') (hR : R (some a) b) :
    ∃ m' v', (m.construct x).wrapNew x a = .ok m' ∧ VInv R m' s' v' := by
  unfold Values.construct at hs
  split at hs
  · next hx =>
    cases hs
    have h0 : VInv (fun o c => match o with | none => True | some _ => R o c) m s v := by
      refine ⟨h.inv, fun z => ?_, h.tag, h.bound⟩
      have := h.val z
      revert this
      cases v z with
      | none => cases s.vars z <;> exact id
      | some r => cases r <;> cases s.vars z with
        | none => exact id
        | some u => cases u <;> first | exact id | exact fun _ => trivial
    have h1 := h0.construct hx b trivial
    obtain ⟨m2, v2, e2, h2, hvx, hne, -, -⟩ := h1.wrapNew (x := x) (w := .val s.next b) (by rw [own_vars, if_pos rfl]) a b hR
    have h2 := h2.own_own h.bound
    refine ⟨m2, v2, e2, h2.inv, fun z => ?_, h2.tag, h2.bound⟩
    have hz := h2.val z
    by_cases e : z = x
    · subst e
      rw [hvx, own_vars, if_pos rfl] at hz ⊢
      exact hz
    · rw [hne z e, upd_ne _ _ e, own_vars, if_neg e] at hz ⊢
      have ho := h.val z
      revert ho hz
      cases v z with
      | none => cases s.vars z <;> exact fun h _ => h
      | some r => cases r <;> cases s.vars z with
        | none => exact fun _ => id
        | some u => cases u <;> first | exact fun h _ => h | exact fun _ h => h
  · cases hs

theorem VInv.metaStep {m : Mem Metadata} {s s' : Values MetaVal} {v : Nat → Option Ref} (h : VInv MetaRep m s v) (op : MetaOp)
    (hc : Cpp.Spec.MetaCareful s op) (hs : Cpp.Spec.metaStep s op = some s') :
    ∃ m' v', op.step m = .ok m' ∧ VInv MetaRep m' s' v' := by
  cases op with
  | construct x => exact h.createNew hs ⟨rfl, rfl, rfl, rfl, rfl, rfl, rfl, PropRep.create⟩
  | create x a =>
    simp only [Spec.metaStep] at hs
    split at hs
    · cases hs
    · next hch =>
      obtain ⟨h1, h2, h3⟩ := hc
      simp only [MetaOp.step, MetaArgs.record, Metadata.create, ne_eq, hch, not_false_eq_true, if_true, Outcome.bind_ok]
      exact h.createNew hs ⟨rfl, rfl, rfl, rfl, text_arg h1, text_arg h2, text_arg h3, PropRep.create⟩
  | copy x y => exact h.copy hs hc
  | move x y => exact h.move _ hs
  | assign x y => exact h.assign hs hc.1 hc.2
  | moveAssign x y => exact h.moveAssign hs
  | destroy x => exact h.destroy hs
  | setCustom x k u =>
    obtain ⟨hk, hu, hsh⟩ := hc
    simp only [Spec.metaStep, Values.change] at hs
    split at hs
    · next t b hx =>
      cases hs
      obtain ⟨w, hw, hcs⟩ := h.cases hx
      rcases hcs with ⟨-, -, hR⟩ | ⟨n, a, hvx, hp, hobj, hR⟩
      · exact absurd hR id
      · obtain ⟨g1, g2, g3, g4, g5, g6, g7, g8⟩ := hR
        obtain ⟨m2, e2, h2⟩ := h.inplace hvx hobj (h.unshared hx hvx hsh) (setCustom a k u)
          { b with custom := Trax.Spec.AMap.set b.custom k u } ⟨g1, g2, g3, g4, g5, g6, g7, propRep_set g8 hk hu⟩
        refine ⟨m2, v, ?_, h2⟩
        simp only [MetaOp.step, Mem.setCustom, Mem.var, hw, Outcome.bind_ok, hp, Mem.object, hobj]
        exact e2
    · cases hs

theorem VInv.metaRun (ops : List MetaOp) {m : Mem Metadata} {s s' : Values MetaVal} {v : Nat → Option Ref}
    (h : VInv MetaRep m s v) (hc : Cpp.Spec.MetaCarefulRun ops s) (hs : Cpp.Spec.metaRun ops s = some s') :
    ∃ m' v', runMetaOps ops m = .ok m' ∧ VInv MetaRep m' s' v' := by
  induction ops generalizing m s v with
  | nil => cases hs; exact ⟨m, v, rfl, h⟩
  | cons op ops ih =>
    obtain ⟨hc1, hc2⟩ := hc
    simp only [Spec.metaRun] at hs
    cases e : Spec.metaStep s op with
    | none => rw [e] at hs; cases hs
    | some s1 =>
      rw [e] at hs
      obtain ⟨m1, v1, e1, h1⟩ := h.metaStep op hc1 e
      obtain ⟨m2, v2, e2, h2⟩ := ih h1 (hc2 s1 e) hs
      exact ⟨m2, v2, by simp only [runMetaOps, e1, Outcome.bind_ok]; exact e2, h2⟩

theorem VInv.readMetadata {m : Mem Metadata} {s : Values MetaVal} {v : Nat → Option Ref} (h : VInv MetaRep m s v) {x t b}
    (hx : s.vars x = some (.val t b)) : ∃ r, m.readMetadata x = .ok r ∧ MetaRep (some r) b := by
  obtain ⟨w, hw, hc⟩ := h.cases hx
  rcases hc with ⟨-, -, hR⟩ | ⟨n, a, -, hp, hobj, hR⟩
  · exact absurd hR id
  · exact ⟨a, by simp only [Mem.readMetadata, Mem.var, hw, Outcome.bind_ok, hp, Mem.object, hobj], hR⟩

/-! ## `Image` -/

open Trax.Spec (pixelBytes PixelData FileData)

/-- An image with the bytes that its size says. -/
def ImageRep (o b : Option Image) : Prop := o = b ∧ ∀ w h f d, b = some (.memory w h f d) → PixelData w h f d

theorem imageWrite_eq {w h f : Int} {d : List UInt8} (hp : PixelData w h f d) {row j : Int} (v : UInt8) (h0 : 0 ≤ row) (h1 : row < h)
    (h2 : 0 ≤ j) (h3 : j < w * pixelBytes f) (hr : row = 0 ∨ w = 1) :
    (Image.memory w h f d).rowOffset row = .ok (row * (w * pixelBytes f)) ∧ 0 ≤ row * (w * pixelBytes f) ∧
      row * (w * pixelBytes f) + j < d.length := by
  obtain ⟨hf, hw, hh, hl, -⟩ := hp
  refine ⟨?_, ?_, ?_⟩
  · simp only [Image.rowOffset]
    rw [if_pos ⟨h0, h1⟩, Image.depth_channels hf]
    rcases hr with rfl | rfl
    · simp
    · rw [Int.one_mul, Int.mul_comm]
  · exact Int.mul_nonneg h0 (by omega)
  · rw [hl, show w * h * pixelBytes f = h * (w * pixelBytes f) by rw [← Int.mul_assoc, Int.mul_comm h w]]
    have := Int.mul_le_mul_of_nonneg_right (show row + 1 ≤ h by omega) (show 0 ≤ w * pixelBytes f by omega)
    rw [Int.add_mul, Int.one_mul] at this
    omega

theorem VInv.imageStep {m : Mem Image} {s s' : Values (Option Image)} {v : Nat → Option Ref} (h : VInv ImageRep m s v) (op : ImageOp)
    (hc : Cpp.Spec.ImageCareful s op) (hs : Cpp.Spec.imageStep s op = some s') :
    ∃ m' v', op.step m = .ok m' ∧ VInv ImageRep m' s' v' := by
  cases op with
  | construct x =>
    simp only [Spec.imageStep, Values.construct] at hs
    split at hs
    · next hx => cases hs; exact ⟨_, _, rfl, h.construct hx _ ⟨rfl, by rintro _ _ _ _ ⟨⟩⟩⟩
    · cases hs
  | path x p => exact h.createNew hs ⟨by rw [Image.createPath, cstr_of_noNul hc], by rintro _ _ _ _ ⟨⟩⟩
  | url x p => exact h.createNew hs ⟨by rw [Image.createUrl, cstr_of_noNul hc], by rintro _ _ _ _ ⟨⟩⟩
  | memory x w ht f fresh =>
    simp only [Spec.imageStep] at hs
    split at hs
    · next hd =>
      obtain ⟨hf, hw, hh, hlt⟩ := hd
      have hn : 0 ≤ w * ht * pixelBytes f := by
        refine Int.mul_nonneg (Int.mul_nonneg (by omega) (by omega)) ?_
        rcases hf with rfl | rfl | rfl <;> decide
      have hp : PixelData w ht f ((List.range (w * ht * pixelBytes f).toNat).map fresh) := by
        refine ⟨hf, hw, hh, ?_, ?_⟩ <;> simp only [List.length_map, List.length_range] <;> omega
      obtain ⟨-, -, -, hm, -⟩ := hp.facts
      simp only [ImageOp.step, Image.createMemory]
      rw [if_pos hf, hm]
      simp only [Outcome.map, Outcome.bind_ok, List.length_map, List.length_range, Int.toNat_natCast]
      refine h.createNew hs ⟨rfl, ?_⟩
      rintro _ _ _ _ ⟨⟩
      exact hp
    · cases hs
  | buffer x data =>
    simp only [Spec.imageStep] at hs
    split at hs
    · next hl =>
      simp only [ImageOp.step]
      split at hs
      · next hj =>
        rw [FileData.create (f := 2) ⟨hl, .inl ⟨rfl, hj⟩⟩, Outcome.bind_ok]
        exact h.createNew hs ⟨rfl, by rintro _ _ _ _ ⟨⟩⟩
      · split at hs
        · next hj =>
          rw [FileData.create (f := 1) ⟨hl, .inr ⟨rfl, hj⟩⟩, Outcome.bind_ok]
          exact h.createNew hs ⟨rfl, by rintro _ _ _ _ ⟨⟩⟩
        · cases hs
    · cases hs
  | copy x y => exact h.copy hs hc
  | move x y => exact h.move _ hs
  | assign x y => exact h.assign hs hc.1 hc.2
  | moveAssign x y => exact h.moveAssign hs
  | destroy x => exact h.destroy hs
  | write x row j u =>
    obtain ⟨hsh, hrow⟩ := hc
    simp only [Spec.imageStep, Values.change] at hs
    split at hs
    · next t b hx =>
      cases e : Spec.writeByte row j u b with
      | none => rw [e] at hs; cases hs
      | some b' =>
        rw [e] at hs
        cases hs
        unfold Spec.writeByte at e
        split at e
        · next w ht f d =>
          split at e
          · next hr =>
            cases e
            obtain ⟨h0, h1, h2, h3⟩ := hr
            have hr : row = 0 ∨ w = 1 := hrow.imp id fun hh => hh _ _ _ _ _ hx
            obtain ⟨wr, hw, hcs⟩ := h.cases hx
            rcases hcs with ⟨-, -, hR⟩ | ⟨n, a, hvx, hp, hobj, hR, hpd⟩
            · exact absurd hR.1 (by simp)
            · cases hR
              have hd := hpd _ _ _ _ rfl
              obtain ⟨k1, k2, k3⟩ := imageWrite_eq hd u h0 h1 h2 h3 hr
              obtain ⟨m2, e2, i2⟩ := h.inplace hvx hobj (h.unshared hx hvx hsh)
                (.memory w ht f (d.set (row * (w * pixelBytes f) + j).toNat u)) (some (.memory w ht f (d.set (row * (w * pixelBytes f) + j).toNat u)))
                ⟨rfl, by
                  rintro _ _ _ _ ⟨⟩
                  exact ⟨hd.format, hd.width, hd.height, by rw [List.length_set]; exact hd.length, by rw [List.length_set]; exact hd.fits⟩⟩
              refine ⟨m2, v, ?_, i2⟩
              simp only [ImageOp.step, Mem.writeImage, Mem.var, hw, Outcome.bind_ok, hp, Mem.object, hobj, imageWrite, k1]
              rw [if_pos ⟨by omega, k3⟩]
              exact e2
          · cases e
        · cases e
    · cases hs

theorem VInv.imageRun (ops : List ImageOp) {m : Mem Image} {s s' : Values (Option Image)} {v : Nat → Option Ref}
    (h : VInv ImageRep m s v) (hc : Cpp.Spec.ImageCarefulRun ops s) (hs : Cpp.Spec.imageRun ops s = some s') :
    ∃ m' v', runImageOps ops m = .ok m' ∧ VInv ImageRep m' s' v' := by
  induction ops generalizing m s v with
  | nil => cases hs; exact ⟨m, v, rfl, h⟩
  | cons op ops ih =>
    obtain ⟨hc1, hc2⟩ := hc
    simp only [Spec.imageRun] at hs
    cases e : Spec.imageStep s op with
    | none => rw [e] at hs; cases hs
    | some s1 =>
      rw [e] at hs
      obtain ⟨m1, v1, e1, h1⟩ := h.imageStep op hc1 e
      obtain ⟨m2, v2, e2, h2⟩ := ih h1 (hc2 s1 e) hs
      exact ⟨m2, v2, by simp only [runImageOps, e1, Outcome.bind_ok]; exact e2, h2⟩

/-- What a variable with an image points to. -/
theorem VInv.readImage {m : Mem Image} {s : Values (Option Image)} {v : Nat → Option Ref} (h : VInv ImageRep m s v) {x t b}
    (hx : s.vars x = some (.val t b)) : ∃ w, m.var x = .ok w ∧ (b = none → w.ptr = .null) ∧
      (∀ a, b = some a → ∃ n, w.ptr = .obj n ∧ m.object (.obj n) = .ok a) ∧ (∀ w h f d, b = some (.memory w h f d) → PixelData w h f d) := by
  obtain ⟨w, hw, hc⟩ := h.cases hx
  refine ⟨w, by simp only [Mem.var, hw], ?_⟩
  rcases hc with ⟨-, hp, hR, hd⟩ | ⟨n, a, -, hp, hobj, hR, hd⟩
  · subst hR
    exact ⟨fun _ => hp, by rintro _ ⟨⟩, by rintro _ _ _ _ ⟨⟩⟩
  · subst hR
    exact ⟨by rintro ⟨⟩, by rintro _ ⟨⟩; exact ⟨n, hp, by simp only [Mem.object, hobj]⟩, hd⟩

end Trax.Cpp
