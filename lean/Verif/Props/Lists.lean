import Verif.Lemmas.ObjectSteps
import Verif.Lemmas.Lists

/-!
# Property theorems C50, C51: object lists and image lists
-/

namespace Trax
open Spec

/-! ## C50: object lists

A program has regions of its own and any number of object lists. `AStore` (`Verif/Spec/ObjectLists.lean`) says
what it should see: regions and lists are plain values that have nothing in common with each other. -/

/-- **C50.** Whatever a program does with its regions and object lists, as long as it respects the three rules
in `AStore.Proper` (an element is not set to itself, nor to NULL, and a list that has elements is not appended to itself):
nothing undefined happens, in particular no block is used after its release or released twice; everything
the program reads is what the plain values say; and once all regions and lists are released, nothing
is left in memory. `_partial`: without the rules it is false, see below. -/
theorem C50_history_partial (legacy : Bool) (fresh : Nat → List UInt8) (ops : List ObjOp) (hp : AStore.start.ProperRun ops) :
    ∃ s, ObjStore.run legacy fresh ops ⟨⟨[], []⟩, [], []⟩ = .ok s ∧
      (∀ v, s.readVar v = .ok ((AStore.start.run ops).vars[v]?.join)) ∧
      (∀ l, s.readCount l = ((AStore.start.run ops).lists[l]?.join).map List.length) ∧
      (∀ l i, s.readRegion l i = .ok (((AStore.start.run ops).slot l i).map Prod.fst)) ∧
      (∀ l i k, NoNul k → s.readProperty l i k = .ok (((AStore.start.run ops).slot l i).map fun e => e.2 k)) ∧
      ((∀ v : Nat, (AStore.start.run ops).vars[v]?.join = none) → (∀ l : Nat, (AStore.start.run ops).lists[l]?.join = none) →
        s.liveBlocks = 0) := by
  obtain ⟨s, hrun, h⟩ := StoreRel.run legacy fresh ops StoreRel.start hp
  generalize AStore.start.run ops = t at h
  refine ⟨s, hrun, ?_, ?_, ?_, ?_, ?_⟩
  · intro v
    unfold ObjStore.readVar
    cases hv : s.vars[v]?.join with
    | none => simp only; rw [h.var_none hv]
    | some p =>
      obtain ⟨-, -, r, h3, h4⟩ := h.var_lt hv
      simp only [region_of_getElem h4, h3]; rfl
  · intro l
    unfold ObjStore.readCount
    have hs := h.shape l
    cases ha : s.lists[l]?.join with
    | none => rw [hs.none_iff.mp ha]; rfl
    | some a =>
      cases hb : t.lists[l]?.join with
      | none => rw [hs.none_iff.mpr hb] at ha; cases ha
      | some b =>
        rw [join_eq_some' ha, join_eq_some' hb] at hs
        simp [hs.1]
  · intro l i
    unfold ObjStore.readRegion
    cases he : t.slot l i with
    | none =>
      rcases h.slot_none he with hn | ⟨a, ha, -, hg, -⟩
      · rw [hn]; rfl
      · simp only [ha, hg]; rfl
    | some e =>
      obtain ⟨-, a, p, q, pr, ha, -, hg, -, -, -, hval, -⟩ := h.slot_some he
      simp only [ha, Option.join_some, hg, region_of_getElem hval]; rfl
  · intro l i k hk
    unfold ObjStore.readProperty
    cases he : t.slot l i with
    | none =>
      rcases h.slot_none he with hn | ⟨a, ha, -, -, hg⟩
      · rw [hn]; rfl
      · simp only [ha, hg]; rfl
    | some e =>
      obtain ⟨-, a, p, q, pr, ha, -, -, -, -, -, -, hap, -, hpv, hrep⟩ := h.slot_some he
      simp only [ha, Option.join_some, hap, properties_of_getElem hpv]
      show Outcome.ok (some (pr.get k)) = _
      rw [hrep.2 k hk]; rfl
  · intro hv hl
    have hnone : ∀ loc, valOf t loc = none := by
      intro loc; cases loc with
      | var v => exact hv v
      | slot l i => simp [valOf, hl l]
    have hpnone : ∀ x, pvalOf t x = none := by
      intro x; simp [pvalOf, hl x.1]
    unfold ObjStore.liveBlocks
    rw [List.countP_eq_zero.mpr, List.countP_eq_zero.mpr]
    · intro o ho
      cases o with
      | none => simp
      | some v =>
        obtain ⟨p, hp⟩ := List.mem_iff_getElem?.mp ho
        obtain ⟨x, hx⟩ := h.props.live p v hp
        rw [(h.props.none_iff x).mpr (hpnone x)] at hx; cases hx
    · intro o ho
      cases o with
      | none => simp
      | some v =>
        obtain ⟨p, hp⟩ := List.mem_iff_getElem?.mp ho
        obtain ⟨x, hx⟩ := h.regions.live p v hp
        rw [(h.regions.none_iff x).mpr (hnone x)] at hx; cases hx

/-- The hypotheses are met by a program with two lists, copying from one to the other and changing
the originals. -/
example : AStore.start.ProperRun [.newRegion (.special 7), .create 2, .set 0 1 (.var 0), .change 0 (.special 9), .create 1,
    .set 1 0 (.slot 0 1), .setProperty 0 1 b!"key" b!"value", .append 1 0, .freeRegion 0, .release 0] := by
  simp [AStore.ProperRun, AStore.Proper, AStore.step, AStore.start, AStore.slot, AStore.arg, AStore.onSlot, AStore.onList, WellFormed]
  constructor <;> decide

/-- What the specification says about that program: the second list has the copies, with the value from before
the change, and the first list is gone. -/
example : ((AStore.start.run [.newRegion (.special 7), .create 2, .set 0 1 (.var 0), .change 0 (.special 9), .create 1,
    .set 1 0 (.slot 0 1), .append 1 0, .freeRegion 0, .release 0]).lists.map (Option.map (List.map Prod.fst))) =
    [none, some [.special 7, .special 0, .special 7]] := rfl

/-- Without the rules C50 is false: setting an element to the region that `get` returned for it uses that region
after releasing it. -/
theorem C50_own_element_false : ∃ (l : Nat) (i : Int), ∀ legacy fresh,
    ObjStore.run legacy fresh [.create 1, .set l i (.slot l i)] ⟨⟨[], []⟩, [], []⟩ = .ub :=
  ⟨0, 0, fun _ _ => rfl⟩

/-- Appending a list to itself writes behind the end of its arrays. -/
theorem C50_self_append_false : ∀ legacy fresh,
    ObjStore.run legacy fresh [.create 1, .append 0 0] ⟨⟨[], []⟩, [], []⟩ = .ub :=
  fun _ _ => rfl

/-- Setting an element to NULL is accepted, but then the list cannot be released any more. -/
theorem C50_null_false : ∀ legacy fresh,
    (∃ s, ObjStore.run legacy fresh [.create 1, .set 0 0 .null] ⟨⟨[], []⟩, [], []⟩ = .ok s) ∧
    ObjStore.run legacy fresh [.create 1, .set 0 0 .null, .release 0] ⟨⟨[], []⟩, [], []⟩ = .ub :=
  fun _ _ => ⟨⟨_, rfl⟩, rfl⟩

/-- **C50** for the lists as the session calls use them (`Model/Lists`, where a list is a plain value): setting element `i` of a list
without NULL regions to a well-formed region succeeds for every index, changes that region and nothing else, and nothing at all
for an index outside of the list; reading outside of the list gives nothing. `_partial`: for well-formed regions. -/
theorem C50_plain_partial (legacy : Bool) (fresh : Nat → List UInt8) (l : ObjList) (i : Int) (r : Region)
    (hl : ∀ e ∈ l, e.1 ≠ none) (hr : WellFormed r) :
    ∃ l', ObjList.set legacy fresh l i (some r) = .ok l' ∧ l'.count = l.count ∧
      (∀ j, l'.get j = if j = i ∧ 0 ≤ i ∧ i < l.length then some r else l.get j) ∧
      (∀ j, l'.properties j = l.properties j) ∧
      (∀ j : Int, j < 0 ∨ (l.length : Int) ≤ j → l'.get j = none ∧ l'.properties j = none) ∧
      (∀ j : Nat, ∀ h : j < l.length, l.get j = (l[j]'h).1 ∧ l.properties j = some (l[j]'h).2) := by
  have hread : ∀ j : Nat, ∀ h : j < l.length, l.get j = (l[j]'h).1 ∧ l.properties j = some (l[j]'h).2 := by
    intro j h
    unfold ObjList.get ObjList.properties
    rw [if_neg (by omega), if_neg (by omega)]
    simp [List.getElem?_eq_getElem h]
  have hout : ∀ (l' : ObjList), l'.length = l.length → ∀ j : Int, j < 0 ∨ (l.length : Int) ≤ j → l'.get j = none ∧ l'.properties j = none := by
    intro l' h j hj
    unfold ObjList.get ObjList.properties
    rw [if_pos (by omega), if_pos (by omega)]
    exact ⟨rfl, rfl⟩
  unfold ObjList.set
  by_cases hi : i < 0 ∨ i ≥ l.length
  · rw [if_pos hi]
    refine ⟨l, rfl, rfl, fun j => ?_, fun j => rfl, hout l rfl, hread⟩
    rw [if_neg (by omega)]
  · rw [if_neg hi]
    have hlt : i.toNat < l.length := by omega
    rw [List.getElem?_eq_getElem hlt]
    rcases he : l[i.toNat] with ⟨q, p⟩
    have hq := hl _ (List.getElem_mem hlt)
    rw [he] at hq
    rcases q with _ | q
    · exact absurd rfl hq
    · dsimp only
      rw [clone_wellFormed legacy fresh hr]
      refine ⟨List.set l i.toNat (some r, p), rfl, by simp [ObjList.count], fun j => ?_, fun j => ?_, hout _ (by simp), hread⟩
      · unfold ObjList.get
        rw [List.length_set]
        by_cases hj : j < 0 ∨ j ≥ l.length
        · rw [if_pos hj, if_neg (by omega), if_pos hj]
        · rw [if_neg hj]
          by_cases hji : j = i
          · subst hji
            rw [if_pos ⟨rfl, by omega, by omega⟩, List.getElem?_set_self hlt]
            rfl
          · rw [if_neg (by omega), if_neg hj, List.getElem?_set_ne (by omega)]
      · unfold ObjList.properties
        rw [List.length_set]
        by_cases hj : j < 0 ∨ j ≥ l.length
        · rw [if_pos hj, if_pos hj]
        · rw [if_neg hj, if_neg hj]
          by_cases hji : j = i
          · subst hji
            rw [List.getElem?_set_self hlt, List.getElem?_eq_getElem hlt, he]
            rfl
          · rw [List.getElem?_set_ne (by omega)]

/-- A list of two objects, and the index behind its end. -/
example : (∀ e ∈ ObjList.create 2, e.1 ≠ none) ∧ WellFormed (Region.createSpecial 1) ∧
    ObjList.set false (fun _ => []) (ObjList.create 2) 2 (some (Region.createSpecial 1)) = .ok (ObjList.create 2) := by
  refine ⟨?_, ?_, rfl⟩
  · intro e he
    rw [List.eq_of_mem_replicate he]
    simp
  · trivial

/-! ## C51: image lists -/

/-- What a program should find in an image list after some steps: per channel the image set last. Only
the channels color 1, depth 2 and infrared 4 exist. -/
def Spec.imageAt : List ImageList.Op → Int → Option Image
  | [], _ => none
  | .clear :: _, _ => none
  | .set img c :: before, channel => if c = channel ∧ (c = 1 ∨ c = 2 ∨ c = 4) then img else imageAt before channel

/-- **C51, lists.** After any steps (`ops`, the last one first) the list has for each channel the image that was set
last for it, and nothing for other channels. -/
theorem C51_image_lists (ops : List ImageList.Op) :
    ∃ l, ImageList.run ops.reverse ImageList.create = .ok l ∧ ∀ channel, l.get channel = .ok (Spec.imageAt ops channel) := by
  have run_append : ∀ (a b : List ImageList.Op) (l : ImageList), ImageList.run (a ++ b) l = (ImageList.run a l).bind (ImageList.run b) := by
    intro a
    induction a with
    | nil => intro b l; rfl
    | cons op a ih =>
      intro b l
      simp only [List.cons_append, ImageList.run]
      cases ImageList.step l op with
      | ok x => exact ih b x
      | abort => rfl
      | ub => rfl
  suffices h : ∃ a b c : Option Image, ImageList.run ops.reverse ImageList.create = .ok [a, b, c] ∧
      Spec.imageAt ops 1 = a ∧ Spec.imageAt ops 2 = b ∧ Spec.imageAt ops 4 = c ∧
      ∀ ch, ch ≠ 1 → ch ≠ 2 → ch ≠ 4 → Spec.imageAt ops ch = none by
    obtain ⟨a, b, c, h1, h2, h3, h4, h5⟩ := h
    refine ⟨_, h1, ?_⟩
    intro ch
    unfold ImageList.get ImageList.channelIndex
    by_cases c1 : ch = 1
    · subst c1; simp [h2]
    by_cases c2 : ch = 2
    · subst c2; simp [h3]
    by_cases c4 : ch = 4
    · subst c4; simp [h4]
    simp [c1, c2, c4, h5 ch c1 c2 c4]
  induction ops with
  | nil => exact ⟨none, none, none, rfl, rfl, rfl, rfl, fun _ _ _ _ => rfl⟩
  | cons op ops ih =>
    obtain ⟨a, b, c, h1, h2, h3, h4, h5⟩ := ih
    rw [List.reverse_cons, run_append, h1, Outcome.bind_ok]
    cases op with
    | clear => exact ⟨none, none, none, rfl, rfl, rfl, rfl, fun _ _ _ _ => rfl⟩
    | set img ch =>
      simp only [ImageList.run, ImageList.step, ImageList.set, ImageList.channelIndex, Spec.imageAt]
      by_cases c1 : ch = 1
      · subst c1
        exact ⟨img, b, c, rfl, by simp, by simpa using h3, by simpa using h4, fun x x1 x2 x4 => by simp [Ne.symm x1, h5 x x1 x2 x4]⟩
      by_cases c2 : ch = 2
      · subst c2
        exact ⟨a, img, c, rfl, by simpa using h2, by simp, by simpa using h4, fun x x1 x2 x4 => by simp [Ne.symm x2, h5 x x1 x2 x4]⟩
      by_cases c4 : ch = 4
      · subst c4
        exact ⟨a, b, img, rfl, by simpa using h2, by simpa using h3, by simp, fun x x1 x2 x4 => by simp [Ne.symm x4, h5 x x1 x2 x4]⟩
      refine ⟨a, b, c, by simp [c1, c2, c4], ?_, ?_, ?_, ?_⟩
      · simpa [c1, c2, c4] using h2
      · simpa [c1, c2, c4] using h3
      · simpa [c1, c2, c4] using h4
      · intro x x1 x2 x4; simpa [c1, c2, c4] using h5 x x1 x2 x4

/-- A list with two channels, one of them replaced, and a refused one. -/
example : Spec.imageAt [.set (some (.path b!"b")) 1, .set (some (.path b!"x")) 8, .set (some (.path b!"d")) 2, .set (some (.path b!"a")) 1] 1 =
    some (.path b!"b") := rfl

/-- **C51, counting.** The number of channels in a set is counted correctly, and the loop ends, for every set whose
highest bit is clear. -/
theorem C51_count_partial (channels : UInt32) (h : channels.toNat < 2 ^ 31) :
    ImageList.count channels = .ok ((List.range 32).countP fun i => channels.toNat.testBit i) := by
  rw [count_eq, if_pos h]; rfl

example : ImageList.count 5 = .ok 2 := by rw [C51_count_partial 5 (by decide)]; decide

/-- With the highest bit set the subtraction in the loop overflows. -/
theorem C51_count_false : ∃ channels : UInt32, ImageList.count channels = .ub :=
  ⟨0x80000001, by rw [count_eq, if_neg (by decide)]⟩

end Trax
