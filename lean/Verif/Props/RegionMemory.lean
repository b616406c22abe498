import Verif.Lemmas.RegionMemory

/-!
# C163: Region functions keep their memory in order
-/

namespace Trax

open RegMem

/-- **C163** (proved part). Any program of region calls, in any memory. It ends as the same program on values: with the same
answers, an `assert` that fails, or an undefined call (a variable that does not exist, NULL, an access outside of an array); it is never
undefined because of memory that is not there any more or is released twice. If it returns, the blocks that were taken before are still
taken, those of its variables are taken, no two of them are the same, and there is one other for every conversion of a polygon to a
mask. -/
theorem C163_memory_partial (g : Setting) (ops : List Op) (m : CMem.Heap) (hm : m.OK) :
    match RegMem.Spec.run g ⟨[], []⟩ ops with
    | .ok (v, answers) => ∃ (s : State) (m' : CMem.Heap) (lost : Multiset Nat), RegMem.run g ⟨[], []⟩ ops m = .ok ((s, answers), m') ∧
        s.regions.map (Option.map Prod.snd) = v.regions ∧ s.texts.map Option.isSome = v.texts.map Option.isSome ∧
        m'.live.Nodup ∧ (m'.live : Multiset Nat) = s.held + lost + m.live ∧ s.held.card = v.needed ∧
        lost.card = RegMem.Spec.conversions g ⟨[], []⟩ ops
    | .abort => RegMem.run g ⟨[], []⟩ ops m = .abort
    | .ub => RegMem.run g ⟨[], []⟩ ops m = .ub := by
  have h0 : Same ⟨[], []⟩ ⟨[], []⟩ := ⟨rfl, rfl, by simp⟩
  have := run_does g ops h0 m m.live hm (by simp [State.held])
  cases hr : RegMem.Spec.run g ⟨[], []⟩ ops with
  | ok x =>
    rw [hr] at this
    obtain ⟨⟨s, xs⟩, m', w, h1, h2, ⟨hs, hx, lost, rfl, hl⟩, h4⟩ := this
    obtain ⟨v, ys⟩ := x
    dsimp only at hs hx
    subst hx
    exact ⟨s, m', lost, h1, hs.regions, hs.texts, h2.1, h4, held_card hs, hl⟩
  | abort => rw [hr] at this; exact this
  | ub => rw [hr] at this; exact this

/-- **C163** (proved part). A program that has released all its regions and texts and has never converted a polygon to a
mask leaves the memory as it found it. -/
theorem C163_balanced_partial (g : Setting) (ops : List Op) (m : CMem.Heap) (hm : m.OK) {v : RegMem.Spec.Values} {answers : List Answer}
    (hr : RegMem.Spec.run g ⟨[], []⟩ ops = .ok (v, answers)) (hv : (∀ r ∈ v.regions, r = none) ∧ ∀ t ∈ v.texts, t = none)
    (hc : RegMem.Spec.conversions g ⟨[], []⟩ ops = 0) :
    ∃ (s : State) (m' : CMem.Heap), RegMem.run g ⟨[], []⟩ ops m = .ok ((s, answers), m') ∧ m'.live.Perm m.live := by
  have := C163_memory_partial g ops m hm
  rw [hr] at this
  obtain ⟨s, m', lost, h1, _, _, _, h2, h3, h4⟩ := this
  refine ⟨s, m', h1, Multiset.coe_eq_coe.1 ?_⟩
  have hn : v.needed = 0 := by
    obtain ⟨rs, ts⟩ := v
    simp only [RegMem.Spec.Values.needed, Nat.add_eq_zero_iff, List.sum_eq_zero_iff, List.mem_map]
    refine ⟨?_, ?_⟩
    · rintro _ ⟨r, hm, rfl⟩; rw [hv.1 r hm]
    · rintro _ ⟨t, hm, rfl⟩; rw [hv.2 t hm]
  rw [hn, Multiset.card_eq_zero] at h3
  rw [hc, Multiset.card_eq_zero] at h4
  rw [h2, h3, h4]
  simp

/-- A program that reads a region and converts it to a mask `n` times, releases every mask and then the region. -/
def Demo.masks (text : Str) (n : Nat) : List Op :=
  .decode text :: ((List.range n).flatMap fun k => [.convert 0 8, .release (k + 1)]) ++ [.release 0]

theorem masks_values (g : Setting) {ps : List (Flt × Flt)} {r : Region}
    (hc : Region.apiConvert g.legacy g.fresh (some (.polygon ps)) 8 = .ok (some r)) (n : Nat) :
    ∀ k, ∃ answers, RegMem.Spec.run g ⟨some (.polygon ps) :: List.replicate k none, []⟩
        (((List.range' k n).flatMap fun k => [.convert 0 8, .release (k + 1)]) ++ [.release 0]) =
          .ok (⟨List.replicate (k + n + 1) none, []⟩, answers) ∧
      RegMem.Spec.conversions g ⟨some (.polygon ps) :: List.replicate k none, []⟩
        (((List.range' k n).flatMap fun k => [.convert 0 8, .release (k + 1)]) ++ [.release 0]) = n := by
  induction n with
  | zero => exact fun k => ⟨[.nothing], rfl, rfl⟩
  | succ n ih =>
    intro k
    obtain ⟨answers, h1, h2⟩ := ih (k + 1)
    have s1 : RegMem.Spec.step g ⟨some (.polygon ps) :: List.replicate k none, []⟩ (.convert 0 8) =
        .ok (⟨some (.polygon ps) :: (List.replicate k none ++ [some r]), []⟩, .nothing) := by
      simp only [RegMem.Spec.step, List.getElem?_cons_zero, hc]
      rfl
    have s2 : RegMem.Spec.step g ⟨some (.polygon ps) :: (List.replicate k none ++ [some r]), []⟩ (.release (k + 1)) =
        .ok (⟨some (.polygon ps) :: List.replicate (k + 1) none, []⟩, .nothing) := by
      have e : (List.replicate k (none : Option Region) ++ [some r])[k]? = some (some r) := by simp
      simp only [RegMem.Spec.step, List.getElem?_cons_succ, e, List.set_cons_succ]
      congr 3
      simp [List.set_append, List.replicate_succ']
    rw [List.range'_succ, List.flatMap_cons]
    refine ⟨.nothing :: .nothing :: answers, ?_, ?_⟩
    · simp only [List.cons_append, List.nil_append, RegMem.Spec.run, s1, s2, Outcome.bind, h1, Outcome.map]
      congr 4
      omega
    · simp only [List.cons_append, List.nil_append, RegMem.Spec.conversions, s1, s2, h2]
      simp [RegMem.Spec.polygonToMask]
      omega

/-- **C163** (refuted part). Programs that release all their regions leave blocks behind: a program that reads a polygon and converts it
to a mask `n` times, for any `n`, leaves `n` blocks that it has no pointer to. -/
theorem C163_leak_false (g : Setting) (text : Str) {ps : List (Flt × Flt)} {r : Region} (hd : Region.decode text = .ok (some (.polygon ps)))
    (hc : Region.apiConvert g.legacy g.fresh (some (.polygon ps)) 8 = .ok (some r)) (n : Nat) (m : CMem.Heap) (hm : m.OK) :
    ∃ (s : State) (answers : List Answer) (m' : CMem.Heap),
      RegMem.run g ⟨[], []⟩ (Demo.masks text n) m = .ok ((s, answers), m') ∧ (∀ x ∈ s.regions, x = none) ∧ s.texts = [] ∧
      m'.live.length = m.live.length + n := by
  obtain ⟨answers, h1, h2⟩ := masks_values g hc n 0
  have e : ((List.range n).flatMap fun k => [Op.convert 0 8, .release (k + 1)]) =
      (List.range' 0 n).flatMap fun k => [.convert 0 8, .release (k + 1)] := by rw [List.range_eq_range']
  have s0 : RegMem.Spec.step g ⟨[], []⟩ (.decode text) = .ok (⟨[some (.polygon ps)], []⟩, .nothing) := by
    simp only [RegMem.Spec.step, hd]; rfl
  have hr : RegMem.Spec.run g ⟨[], []⟩ (Demo.masks text n) = .ok (⟨List.replicate (0 + n + 1) none, []⟩, .nothing :: answers) := by
    simp only [Demo.masks, List.cons_append, e, RegMem.Spec.run, s0, Outcome.bind]
    exact (congrArg (Outcome.map _) h1)
  have hn : RegMem.Spec.conversions g ⟨[], []⟩ (Demo.masks text n) = n := by
    simp only [Demo.masks, List.cons_append, e, RegMem.Spec.conversions, s0]
    simp only [RegMem.Spec.polygonToMask]
    exact (Nat.zero_add _).trans h2
  have := C163_memory_partial g (Demo.masks text n) m hm
  rw [hr] at this
  obtain ⟨s, m', lost, h3, h4, h5, _, h6, h7, h8⟩ := this
  refine ⟨s, _, m', h3, ?_, by simpa using h5, ?_⟩
  · intro x hx
    have : x.map Prod.snd ∈ List.replicate (0 + n + 1) (none : Option Region) := by
      have h := List.mem_map_of_mem (f := Option.map Prod.snd) hx
      rw [h4] at h
      exact h
    simpa using (List.mem_replicate.1 this).2
  · have h9 := congrArg Multiset.card h6
    rw [Multiset.card_add, Multiset.card_add, h7, h8, hn] at h9
    have h0 : RegMem.Spec.Values.needed ⟨List.replicate (0 + n + 1) none, []⟩ = 0 := by
      simp [RegMem.Spec.Values.needed]
    rw [h0] at h9
    simp only [Multiset.coe_card] at h9
    omega

/-- Fresh memory full of zeros. -/
def Demo.setting : Setting := ⟨false, fun n => List.replicate n 0, fun n => List.replicate n (.zero, .zero)⟩

/-- A polygon and its conversion, as the theorems above need them. -/
example : Region.decode b!"0,0,4,0,4,3" = .ok (some (.polygon [(.ofInt 0, .ofInt 0), (.ofInt 4, .ofInt 0), (.ofInt 4, .ofInt 3)])) := by
  decide +kernel

example : Region.apiConvert false (fun n => List.replicate n 0) (some (.polygon [(.ofInt 0, .ofInt 0), (.ofInt 4, .ofInt 0), (.ofInt 4, .ofInt 3)])) 8 =
    .ok (some (.mask 0 4 4 3 (List.replicate 12 0))) := by
  decide +kernel

/-- A program with regions of all types, whose run ends with nothing held. -/
example : (RegMem.Spec.run Demo.setting ⟨[], []⟩ [.special 3, .decode b!"0,0,4,0,4,3", .getBounds 1, .convert 2 8, .clone 3, .clone 1, .overlap 3 4
      ⟨.ofInt 0, .ofInt 100, .ofInt 0, .ofInt 100⟩, .encode 2, .convert 0 2, .release 4, .release 3, .release 5, .release 2, .release 1,
      .release 0, .freeText 0]).map (fun x => x.1) = .ok ⟨List.replicate 7 none, [none]⟩ := by
  decide +kernel

example : RegMem.Spec.conversions Demo.setting ⟨[], []⟩ [.special 3, .decode b!"0,0,4,0,4,3", .getBounds 1, .convert 2 8, .clone 3, .clone 1,
    .release 4] = 0 := by
  decide +kernel

end Trax
