import Verif.Lemmas.Python
import Verif.Spec.PySession
import Verif.Props.Endpoint
import Verif.Props.RegionApi

/-!
# Lemmas about Python sessions
-/

namespace Trax.Py
open Py.Spec
open Trax.Spec (ValidKey Plain Arrives ImageArrives Sendable WellFormed deliver Connected objectList ImagesArrive ObjectsArrive SendablePairs)

/-! ## Texts -/

theorem ascii_encode : ∀ {t : Text}, (∀ c ∈ t, c < 128) → t.encode = some (ascii t)
  | [], _ => rfl
  | c :: t, h => by
    have hc := h c List.mem_cons_self
    rw [Text.encode, ascii_encode fun c hc => h c (List.mem_cons_of_mem _ hc), utf8, if_pos hc]
    rfl

theorem plain_noNul' {t : Text} (h : Plain (ascii t)) : NoNul (ascii t) := fun c hc => (h c hc).1

theorem validKey_noNul {k : Str} (h : ValidKey k) : NoNul k := by
  intro c hc e
  subst e
  exact absurd (h.2 0 hc) (by decide)

theorem ascii_toC {t : Text} (h : ∀ c ∈ t, c < 128) (hn : NoNul (ascii t)) : toC t = .ok (ascii t) := by
  unfold toC
  rw [ascii_encode h]
  dsimp only
  rw [cstr_of_noNul hn]

theorem ascii_ctext {t : Text} (h : ∀ c ∈ t, c < 128) (hn : NoNul (ascii t)) : CText t :=
  ⟨encode_isSome.1 ⟨_, ascii_encode h⟩, fun h0 => (noNul_iff.1 hn) ((encode_nul (ascii_encode h)).2 h0)⟩

theorem Spec.SendableDict.good {d : Dict} (h : SendableDict d) : GoodDict d :=
  ⟨h.1, fun e he => by
    obtain ⟨h1, h2, h3⟩ := h.2 e he
    exact ⟨ascii_ctext (fun c hc => h1 c (List.mem_append_left _ hc)) (validKey_noNul h2), ascii_ctext (fun c hc => h1 c (List.mem_append_right _ hc)) (plain_noNul' h3)⟩⟩

theorem Spec.SendableDict.setAll : ∀ {d : Dict} (_ : ∀ e ∈ d, (∀ c ∈ e.1 ++ e.2, c < 128) ∧ ValidKey (ascii e.1) ∧ Plain (ascii e.2)) (p : Properties),
    propSetAll p d = .ok ((pairs d).foldl (fun m kv => m.set kv.1 kv.2) p)
  | [], _, _ => rfl
  | (k, v) :: d, h, p => by
    obtain ⟨h1, h2, h3⟩ := h (k, v) List.mem_cons_self
    rw [propSetAll, propSet, ascii_toC (fun c hc => h1 c (List.mem_append_left _ hc)) (validKey_noNul h2)]
    simp only [Except.bind]
    rw [ascii_toC (fun c hc => h1 c (List.mem_append_right _ hc)) (plain_noNul' h3)]
    simp only [Except.bind]
    rw [SendableDict.setAll (fun e he => h e (List.mem_cons_of_mem _ he))]
    rfl

theorem Spec.SendableDict.new {d : Dict} (h : SendableDict d) : propNew d = .ok (Properties.ofPairs (pairs d)) :=
  SendableDict.setAll h.2 _

theorem Spec.SendableDict.shown {d : Dict} (h : SendableDict d) : SameDict d (propDict (Properties.ofPairs (pairs d))) := by
  obtain ⟨p, e, hp⟩ := Holds.setAll d Holds.create h.good
  have e' : propNew d = .ok p := e
  rw [h.new] at e'
  cases e'
  refine ⟨hp.dict.1, fun k v => ?_⟩
  rw [hp.dict.2, ← lookup_mem h.1]
  simp

theorem append_ofPairs (kvs : List (Str × Str)) : (Properties.ofPairs kvs).append Properties.create false = Properties.ofPairs kvs :=
  Properties.foldl_set_enumerate (Properties.wf_ofPairs kvs)

/-! ## Lists -/

theorem wrapImages_ok (images : List (Text × Image)) :
    wrapImages images = .ok (.ok [imageAt images t!"color", imageAt images t!"depth", imageAt images t!"ir"]) := by
  unfold wrapImages imageAt channelOrder
  simp only [wrapImagesLoop]
  generalize List.find? (fun e : Text × Image => decide (e.1 = t!"color")) images = x
  generalize List.find? (fun e : Text × Image => decide (e.1 = t!"depth")) images = y
  generalize List.find? (fun e : Text × Image => decide (e.1 = t!"ir")) images = z
  rcases x with _ | ⟨_, a⟩ <;> rcases y with _ | ⟨_, b⟩ <;> rcases z with _ | ⟨_, c⟩ <;> rfl

theorem modify_append {α : Type} (l : List α) (a : α) (m : List α) (f : α → α) : (l ++ a :: m).modify l.length f = l ++ f a :: m := by
  induction l with
  | nil => rfl
  | cons b l ih => simpa using ih

theorem wrapObjectsLoop_ok (env : Env) : ∀ (objects : List (Region × Dict)) (done : ObjList), (∀ o ∈ objects, WellFormed o.1 ∧ SendableDict o.2) →
    wrapObjectsLoop env objects done.length (done ++ ObjList.create objects.length) = .ok (.ok (done ++ objectList (plainObjects objects)))
  | [], done, _ => by simp [wrapObjectsLoop, ObjList.create, plainObjects, objectList]
  | (r, d) :: objects, done, h => by
    obtain ⟨hr, hd⟩ := h (r, d) List.mem_cons_self
    rw [wrapObjectsLoop, hd.new]
    dsimp only
    have hset : ObjList.set env.legacy env.fresh (done ++ ObjList.create ((r, d) :: objects).length) (done.length : Int) (some r) =
        .ok (done ++ (some r, Properties.create) :: ObjList.create objects.length) := by
      unfold ObjList.set
      rw [if_neg (by simp [ObjList.create]), Int.toNat_natCast, List.getElem?_append_right (Nat.le_refl _), Nat.sub_self]
      simp only [ObjList.create, List.length_cons, List.replicate_succ, List.getElem?_cons_zero]
      rw [C74_clone _ _ _ hr]
      show Outcome.ok (List.set _ _ _) = _
      rw [List.set_append_right _ _ (Nat.le_refl _), Nat.sub_self]
      rfl
    rw [hset, Outcome.bind_ok]
    have hp : ObjList.properties (done ++ (some r, Properties.create) :: ObjList.create objects.length) (done.length : Int) = some Properties.create := by
      unfold ObjList.properties
      rw [if_neg (by simp), Int.toNat_natCast, List.getElem?_append_right (Nat.le_refl _), Nat.sub_self]
      rfl
    rw [hp]
    dsimp only
    rw [append_ofPairs]
    have hs : ObjList.setProperties (done ++ (some r, Properties.create) :: ObjList.create objects.length) done.length (Properties.ofPairs (pairs d)) =
        (done ++ [(some r, Properties.ofPairs (pairs d))]) ++ ObjList.create objects.length := by
      unfold ObjList.setProperties
      rw [modify_append]
      simp
    rw [hs, show done.length + 1 = (done ++ [((some r, Properties.ofPairs (pairs d)) : Option Region × Properties)]).length by simp,
      wrapObjectsLoop_ok env objects _ fun o ho => h o (List.mem_cons_of_mem _ ho)]
    simp [plainObjects, objectList]

theorem wrapObjects_ok (env : Env) {objects : List (Region × Dict)} (h : ∀ o ∈ objects, WellFormed o.1 ∧ SendableDict o.2) :
    wrapObjects env objects = .ok (.ok (objectList (plainObjects objects))) := wrapObjectsLoop_ok env objects [] h

theorem wrapObjectListLoop_ok (env : Env) {l : ObjList} (h : ∀ e ∈ l, ∃ r, e.1 = some r ∧ WellFormed r) : ∀ (n i : Nat), i + n = l.length →
    wrapObjectListLoop env l i n = .ok ((l.drop i).map fun e => (e.1, propDict e.2))
  | 0, i, hi => by
    rw [List.drop_eq_nil_of_le (by omega)]
    rfl
  | n + 1, i, hi => by
    have hlt : i < l.length := by omega
    obtain ⟨r, hr, hw⟩ := h _ (List.getElem_mem hlt)
    have hp : ObjList.properties l (i : Int) = some l[i].2 := by
      unfold ObjList.properties
      rw [if_neg (by omega), Int.toNat_natCast, List.getElem?_eq_getElem hlt]
      rfl
    have hg : ObjList.get l (i : Int) = some r := by
      unfold ObjList.get
      rw [if_neg (by omega), Int.toNat_natCast, List.getElem?_eq_getElem hlt, Option.map_some, hr]
      rfl
    rw [wrapObjectListLoop, hp]
    dsimp only
    rw [hg, C74_clone _ _ _ hw, Outcome.bind_ok, wrapObjectListLoop_ok env h n (i + 1) (by omega), List.drop_eq_getElem_cons hlt, List.map_cons, hr]
    rfl

theorem wrapObjectList_ok (env : Env) {l : ObjList} (h : ∀ e ∈ l, ∃ r, e.1 = some r ∧ WellFormed r) :
    wrapObjectList env (some l) = .ok (l.map fun e => (e.1, propDict e.2)) := wrapObjectListLoop_ok env h l.length 0 (by omega)

theorem forall₂_left {α β : Type} {R : α → β → Prop} {P : α → Prop} : ∀ {l : List α} {m : List β}, List.Forall₂ R l m → (∀ a ∈ l, P a) →
    ∀ b ∈ m, ∃ a, P a ∧ R a b
  | _, _, .nil, _, b, hb => absurd hb List.not_mem_nil
  | _, _, .cons h hs, hp, b, hb => by
    rcases List.mem_cons.1 hb with rfl | hb
    · exact ⟨_, hp _ List.mem_cons_self, h⟩
    · exact forall₂_left hs (fun a ha => hp a (List.mem_cons_of_mem _ ha)) b hb

/-- Objects that arrive are shown with their properties. -/
theorem objects_shown (env : Env) {objects : List (Region × Dict)} {sent : List (Region × List (Str × Str))} {l : ObjList}
    (hd : ∀ o ∈ objects, SendableDict o.2) (hs : Trax.Spec.SendableObjects sent) (hp : List.Forall₂ (fun (o : Region × Dict) (o' : Region × List (Str × Str)) => o'.2 = pairs o.2) objects sent)
    (ha : ObjectsArrive sent l) : ∃ shown, wrapObjectList env (some l) = .ok shown ∧ ObjectsShown (sent.map Prod.fst) objects shown := by
  refine ⟨_, wrapObjectList_ok env ?_, ?_, ?_⟩
  · intro e he
    obtain ⟨o, ho, ⟨r, hr, har⟩, -⟩ := forall₂_left ha hs e he
    exact ⟨r, hr, arrives_wellFormed ho.1 har⟩
  · rw [List.forall₂_map_right_iff]
    clear hs
    induction hp generalizing l with
    | nil => cases ha; exact .nil
    | cons h _ ih =>
      cases ha with
      | cons h' ha =>
        refine .cons ?_ (ih (fun o ho => hd o (List.mem_cons_of_mem _ ho)) ha)
        rw [h'.2, h]
        exact (hd _ List.mem_cons_self).shown
  · rw [List.forall₂_map_right_iff, List.forall₂_map_left_iff]
    exact ha.imp fun _ _ h => h.1

theorem converted_pairs {env : Env} {formats : UInt32} {objects : List (Region × Dict)} {sent : List (Region × List (Str × Str))}
    (h : Trax.Spec.Converted env formats (plainObjects objects) sent) :
    List.Forall₂ (fun (o : Region × Dict) (o' : Region × List (Str × Str)) => o'.2 = pairs o.2) objects sent := by
  unfold Trax.Spec.Converted plainObjects at h
  rw [List.forall₂_map_left_iff] at h
  exact h.imp fun _ _ h => h.2

/-- Images that arrive are shown. -/
theorem images_shown {channels : UInt32} {images : List (Text × Image)} {l : ImageList}
    (ha : ImagesArrive channels [imageAt images t!"color", imageAt images t!"depth", imageAt images t!"ir"] l) :
    ∃ shown, wrapImageList (some l) = .ok (.ok shown) ∧ ImagesShown channels images shown := by
  unfold ImagesArrive Trax.Spec.channelFlags at ha
  cases ha with
  | @cons _ x _ l hx ha =>
  cases ha with
  | @cons _ y _ l hy ha =>
  cases ha with
  | @cons _ z _ l hz ha =>
  cases ha
  dsimp only at hx hy hz
  simp only [List.getElem?_cons_zero, List.getElem?_cons_succ, Option.some.injEq] at hx hy hz
  have key : ∀ (p : Prop) [Decidable p] (o : Option Image) (x : Option Image), (if p then ∃ img img', o = some img ∧ x = some img' ∧ ImageArrives img img' else x = none) →
      (p ∧ ∃ img', x = some img' ∧ ∃ img, o = some img ∧ ImageArrives img img') ∨ (¬ p ∧ x = none) := by
    intro p _ o x h
    split_ifs at h with hp
    · obtain ⟨img, img', h1, h2, h3⟩ := h
      exact .inl ⟨hp, img', h2, img, h1, h3⟩
    · exact .inr ⟨hp, h⟩
  have mem1 : ∀ {n : Text} {a : Image}, (∃ img, imageAt images n = some img ∧ ImageArrives img a) →
      ∀ name img', (name, img') ∈ [(n, a)] → ∃ img, imageAt images name = some img ∧ ImageArrives img img' := by
    intro n a h name img' hm
    cases List.mem_singleton.1 hm
    exact h
  have mem2 : ∀ {n m : Text} {a b : Image}, (∃ img, imageAt images n = some img ∧ ImageArrives img a) → (∃ img, imageAt images m = some img ∧ ImageArrives img b) →
      ∀ name img', (name, img') ∈ [(n, a), (m, b)] → ∃ img, imageAt images name = some img ∧ ImageArrives img img' := by
    intro n m a b h h' name img' hm
    rcases List.mem_cons.1 hm with hm | hm
    · cases hm; exact h
    · exact mem1 h' name img' hm
  have mem3 : ∀ {n m k : Text} {a b c : Image}, (∃ img, imageAt images n = some img ∧ ImageArrives img a) → (∃ img, imageAt images m = some img ∧ ImageArrives img b) →
      (∃ img, imageAt images k = some img ∧ ImageArrives img c) →
      ∀ name img', (name, img') ∈ [(n, a), (m, b), (k, c)] → ∃ img, imageAt images name = some img ∧ ImageArrives img img' := by
    intro n m k a b c h h' h'' name img' hm
    rcases List.mem_cons.1 hm with hm | hm
    · cases hm; exact h
    · exact mem2 h' h'' name img' hm
  unfold ImagesShown
  rcases key _ _ _ hx with ⟨h0, a, rfl, a1⟩ | ⟨h0, rfl⟩ <;>
    rcases key _ _ _ hy with ⟨h1, b, rfl, b1⟩ | ⟨h1, rfl⟩ <;>
    rcases key _ _ _ hz with ⟨h2, c, rfl, c1⟩ | ⟨h2, rfl⟩ <;>
    simp only [ne_eq, not_not] at h0 h1 h2 <;>
    simp only [List.filter_cons, List.filter_nil, ne_eq, h0, h1, h2, not_true, not_false_iff, decide_true, decide_false, if_true, Bool.false_eq_true, if_false]
  · exact ⟨[(t!"color", a), (t!"depth", b), (t!"ir", c)], rfl, rfl, mem3 a1 b1 c1⟩
  · exact ⟨[(t!"color", a), (t!"depth", b)], rfl, rfl, mem2 a1 b1⟩
  · exact ⟨[(t!"color", a), (t!"ir", c)], rfl, rfl, mem2 a1 c1⟩
  · exact ⟨[(t!"color", a)], rfl, rfl, mem1 a1⟩
  · exact ⟨[(t!"depth", b), (t!"ir", c)], rfl, rfl, mem2 b1 c1⟩
  · exact ⟨[(t!"depth", b)], rfl, rfl, mem1 b1⟩
  · exact ⟨[(t!"ir", c)], rfl, rfl, mem1 c1⟩
  · exact ⟨[], rfl, rfl, by simp⟩

end Trax.Py
