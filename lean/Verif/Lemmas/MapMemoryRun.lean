import Verif.Lemmas.MapMemoryPut
import Mathlib.Data.List.Forall2

/-! Programs with property objects on the heap. -/

namespace Trax
namespace MapMem
open Trax.Spec

/-! ### Making and releasing maps -/

theorem smNew_ok {h : Heap} {C : List (Ptr × Block)} (hi : Is h C) :
    ∃ M : MapAt, (smNew h 32).1 = M.map ∧ Is (smNew h 32).2 (M.cells ++ C) ∧ M.Fits ∧ M.value = Properties.create := by
  refine ⟨⟨h.next, h.next + 1, List.replicate 32 ⟨0, []⟩⟩, rfl, ?_, ⟨by simp, ?_⟩, ?_⟩
  · have h1 := (hi.alloc (.map 32 (h.next + 1))).alloc (.buckets (List.replicate 32 (0, none)))
    refine h1.perm ?_
    unfold MapAt.cells
    rw [List.map_replicate]
    have : (List.replicate 32 (⟨0, []⟩ : BucketAt)).flatMap BucketAt.cells = [] := by
      simp [BucketAt.cells]
    rw [this]
    exact List.Perm.swap _ _ _
  · intro b hb q hq
    rw [(List.mem_replicate.mp hb).2] at hq
    simp at hq
  · unfold MapAt.value
    rw [List.map_replicate]
    rfl

theorem deletePairs_ok {array : Ptr} {all : List PairAt} {C : List (Ptr × Block)} (R : List PairAt) :
    ∀ (A : List PairAt) (h : Heap), all = A ++ R → Is h ((array, .pairs (all.map PairAt.slot)) :: (R.flatMap PairAt.cells ++ C)) →
      ∃ h', deletePairs array R.length A.length h = .ok h' ∧ Is h' ((array, .pairs (all.map PairAt.slot)) :: C) := by
  induction R with
  | nil =>
    intro A h _ hi
    exact ⟨h, rfl, hi⟩
  | cons q R ih =>
    intro A h e hi
    have hslot : (all.map PairAt.slot)[A.length]? = some (some (q.key, q.value)) := by rw [e]; simp [PairAt.slot]
    rw [List.length_cons, deletePairs, pairs_ok hi (List.mem_cons_self ..), Outcome.bind_ok, hslot]
    dsimp only
    rw [List.flatMap_cons] at hi
    unfold PairAt.cells at hi
    have h1 : Is h ((q.key, .text q.keyRoom (some q.k)) :: ((q.value, .text q.valueRoom (some q.v)) :: ((array, .pairs (all.map PairAt.slot)) :: (R.flatMap PairAt.cells ++ C)))) :=
      hi.perm (by unfold PairAt.cells; same_parts)
    obtain ⟨f1, h2⟩ := h1.free
    rw [f1, Outcome.bind_ok]
    obtain ⟨f2, h3⟩ := h2.free
    rw [f2, Outcome.bind_ok]
    have := ih (A ++ [q]) _ (by rw [e]; simp) h3
    rw [List.length_append, List.length_singleton] at this
    exact this

theorem deleteBucket_ok {b : BucketAt} {C : List (Ptr × Block)} {h : Heap} (hi : Is h (b.cells ++ C)) :
    ∃ h1 h2, deleteBucket b.pairs.length (if b.pairs = [] then none else some b.array) h = .ok h1 ∧ h1.freeIf (if b.pairs = [] then none else some b.array) = .ok h2 ∧ Is h2 C := by
  unfold deleteBucket
  unfold BucketAt.cells at hi
  by_cases hb : b.pairs = []
  · rw [if_pos hb] at hi ⊢
    refine ⟨h, h, by simp [hb], rfl, hi⟩
  · rw [if_neg hb] at hi ⊢
    rw [if_neg (by simpa using hb)]
    dsimp only
    obtain ⟨h1, g1, g2⟩ := deletePairs_ok b.pairs [] h rfl hi
    obtain ⟨f1, f2⟩ := g2.free
    exact ⟨h1, _, g1, f1, f2⟩

theorem deleteBuckets_ok {table : Ptr} {all : List BucketAt} {C : List (Ptr × Block)} (R : List BucketAt) :
    ∀ (A : List BucketAt) (h : Heap), all = A ++ R → Is h ((table, .buckets (all.map BucketAt.entry)) :: (R.flatMap BucketAt.cells ++ C)) →
      ∃ h', deleteBuckets table R.length A.length h = .ok h' ∧ Is h' ((table, .buckets (all.map BucketAt.entry)) :: C) := by
  induction R with
  | nil =>
    intro A h _ hi
    exact ⟨h, rfl, hi⟩
  | cons b R ih =>
    intro A h e hi
    have hget : (all.map BucketAt.entry)[A.length]? = some (b.pairs.length, if b.pairs = [] then none else some b.array) := by rw [e]; simp [BucketAt.entry]
    rw [List.length_cons, deleteBuckets, buckets_ok hi (List.mem_cons_self ..), Outcome.bind_ok, hget]
    dsimp only
    rw [List.flatMap_cons] at hi
    have h1 : Is h (b.cells ++ ((table, .buckets (all.map BucketAt.entry)) :: (R.flatMap BucketAt.cells ++ C))) := hi.perm (by same_parts)
    obtain ⟨h2, h3, g1, g2, g3⟩ := deleteBucket_ok h1
    rw [g1, Outcome.bind_ok, g2, Outcome.bind_ok]
    have := ih (A ++ [b]) _ (by rw [e]; simp) g3
    rw [List.length_append, List.length_singleton] at this
    exact this

theorem smDelete_ok {h : Heap} {M : MapAt} {C : List (Ptr × Block)} (hi : Is h (M.cells ++ C)) : ∃ h', smDelete h M.map = .ok h' ∧ Is h' C := by
  unfold MapAt.cells at hi
  unfold smDelete
  rw [map_ok hi (by simp : (M.map, Block.map M.buckets.length M.table) ∈ _), Outcome.bind_ok]
  dsimp only
  have h1 : Is h ((M.table, .buckets (M.buckets.map BucketAt.entry)) :: (M.buckets.flatMap BucketAt.cells ++ ((M.map, .map M.buckets.length M.table) :: C))) :=
    hi.perm (by same_parts)
  obtain ⟨h2, g1, g2⟩ := deleteBuckets_ok M.buckets [] h rfl h1
  rw [List.length_nil] at g1
  rw [g1, Outcome.bind_ok]
  obtain ⟨f1, f2⟩ := g2.free
  rw [f1, Outcome.bind_ok]
  obtain ⟨f3, f4⟩ := f2.free
  exact ⟨_, f3, f4⟩

/-! ### Counting and enumerating -/

theorem countBuckets_ok {all : List BucketAt} (R : List BucketAt) :
    ∀ A : List BucketAt, all = A ++ R → countBuckets (all.map BucketAt.entry) R.length A.length = .ok ((R.map BucketAt.value).flatten.length) := by
  induction R with
  | nil => intro A _; rfl
  | cons b R ih =>
    intro A e
    have hget : (all.map BucketAt.entry)[A.length]? = some b.entry := by rw [e]; simp
    rw [List.length_cons, countBuckets, hget]
    dsimp only
    have := ih (A ++ [b]) (by rw [e]; simp)
    rw [List.length_append, List.length_singleton] at this
    rw [this]
    simp [Outcome.map, BucketAt.entry, BucketAt.value]

theorem smCount_ok {h : Heap} {M : MapAt} {C : List (Ptr × Block)} (hi : Is h (M.cells ++ C)) : smCount h M.map = .ok M.value.count := by
  unfold MapAt.cells at hi
  unfold smCount
  rw [map_ok hi (by simp : (M.map, Block.map M.buckets.length M.table) ∈ _), Outcome.bind_ok]
  dsimp only
  rw [buckets_ok hi (by simp : (M.table, Block.buckets (M.buckets.map BucketAt.entry)) ∈ _), Outcome.bind_ok, StrMap.count_eq]
  exact countBuckets_ok M.buckets [] rfl

theorem enumPairs_ok {f : Arg → Arg → Heap → Outcome Heap} {array : Ptr} {all : List PairAt} {Inv : List (Str × Str) → Heap → Prop}
    (hsrc : ∀ acc h, Inv acc h → h.pairs array = .ok (all.map PairAt.slot))
    (hstep : ∀ acc h, ∀ q ∈ all, Inv acc h → ∃ h', f (.held q.key) (.held q.value) h = .ok h' ∧ Inv (acc ++ [(q.k, q.v)]) h') (R : List PairAt) :
    ∀ (A : List PairAt) (acc : List (Str × Str)) (h : Heap), all = A ++ R → Inv acc h →
      ∃ h', enumPairs f array R.length A.length h = .ok h' ∧ Inv (acc ++ R.map fun q => (q.k, q.v)) h' := by
  induction R with
  | nil =>
    intro A acc h _ hi
    exact ⟨h, rfl, by simpa using hi⟩
  | cons q R ih =>
    intro A acc h e hi
    have hslot : (all.map PairAt.slot)[A.length]? = some (some (q.key, q.value)) := by rw [e]; simp [PairAt.slot]
    rw [List.length_cons, enumPairs, hsrc acc h hi, Outcome.bind_ok, hslot]
    dsimp only
    obtain ⟨h1, g1, g2⟩ := hstep acc h q (by rw [e]; simp) hi
    rw [g1, Outcome.bind_ok]
    obtain ⟨h2, g3, g4⟩ := ih (A ++ [q]) (acc ++ [(q.k, q.v)]) h1 (by rw [e]; simp) g2
    rw [List.length_append, List.length_singleton] at g3
    exact ⟨h2, g3, by simpa using g4⟩

theorem enumBuckets_ok {f : Arg → Arg → Heap → Outcome Heap} {M : MapAt} {Inv : List (Str × Str) → Heap → Prop}
    (hsrc : ∀ acc h, Inv acc h → ∀ c ∈ M.cells, h.blocks c.1 = some c.2)
    (hstep : ∀ acc h, ∀ b ∈ M.buckets, ∀ q ∈ b.pairs, Inv acc h → ∃ h', f (.held q.key) (.held q.value) h = .ok h' ∧ Inv (acc ++ [(q.k, q.v)]) h') (R : List BucketAt) :
    ∀ (A : List BucketAt) (acc : List (Str × Str)) (h : Heap), M.buckets = A ++ R → Inv acc h →
      ∃ h', enumBuckets f M.table R.length A.length h = .ok h' ∧ Inv (acc ++ (R.map BucketAt.value).flatten) h' := by
  induction R with
  | nil =>
    intro A acc h _ hi
    exact ⟨h, rfl, by simpa using hi⟩
  | cons b R ih =>
    intro A acc h e hi
    have hget : (M.buckets.map BucketAt.entry)[A.length]? = some (b.pairs.length, if b.pairs = [] then none else some b.array) := by rw [e]; simp [BucketAt.entry]
    have hl : h.buckets M.table = .ok (M.buckets.map BucketAt.entry) := by
      unfold Heap.buckets
      rw [hsrc acc h hi (M.table, .buckets (M.buckets.map BucketAt.entry)) (by simp [MapAt.cells])]
    rw [List.length_cons, enumBuckets, hl, Outcome.bind_ok, hget]
    dsimp only
    have hone : ∃ h', enumBucket f b.pairs.length (if b.pairs = [] then none else some b.array) h = .ok h' ∧ Inv (acc ++ b.value) h' := by
      unfold enumBucket
      by_cases hb : b.pairs = []
      · refine ⟨h, by simp [hb], ?_⟩
        unfold BucketAt.value
        simpa [hb] using hi
      · rw [if_neg (by simpa using hb), if_neg hb]
        dsimp only
        refine enumPairs_ok (fun acc h hi => ?_) (fun acc h q hq hi => hstep acc h b (by rw [e]; simp) q hq hi) b.pairs [] acc h rfl hi
        unfold Heap.pairs
        rw [hsrc acc h hi (b.array, .pairs (b.pairs.map PairAt.slot)) ((cells_split e).mem_iff.mpr (by simp [BucketAt.cells, hb]))]
    obtain ⟨h1, g1, g2⟩ := hone
    rw [g1, Outcome.bind_ok]
    obtain ⟨h2, g3, g4⟩ := ih (A ++ [b]) (acc ++ b.value) h1 (by rw [e]; simp) g2
    rw [List.length_append, List.length_singleton] at g3
    exact ⟨h2, g3, by simpa using g4⟩

/-! ### Property objects -/

/-- An object: its own block and its map. -/
structure ObjAt where
  self : Ptr
  M : MapAt

def ObjAt.cells (o : ObjAt) : List (Ptr × Block) := (o.self, .object o.M.map) :: o.M.cells

theorem create_ok {h : Heap} {C : List (Ptr × Block)} (hi : Is h C) :
    ∃ o : ObjAt, (create h).1 = o.self ∧ Is (create h).2 (o.cells ++ C) ∧ o.M.Fits ∧ o.M.value = Properties.create := by
  obtain ⟨M, e1, e2, e3, e4⟩ := smNew_ok (hi.alloc (.object 0))
  refine ⟨⟨h.next, M⟩, rfl, ?_, e3, e4⟩
  unfold create
  dsimp only
  rw [e1]
  have h1 : Is (smNew (h.alloc (.object 0)) 32).2 ((h.next, .object 0) :: (M.cells ++ C)) := e2.perm (by same_parts)
  exact h1.put (.object M.map)

theorem release_ok {h : Heap} {C : List (Ptr × Block)} {o : ObjAt} (hi : Is h (o.cells ++ C)) : ∃ h', release h (some o.self) = .ok h' ∧ Is h' C := by
  unfold release
  dsimp only
  rw [object_ok hi (by simp [ObjAt.cells] : (o.self, Block.object o.M.map) ∈ _), Outcome.bind_ok]
  have h1 : Is h (o.M.cells ++ ((o.self, .object o.M.map) :: C)) := hi.perm (by unfold ObjAt.cells; same_parts)
  obtain ⟨h2, g1, g2⟩ := smDelete_ok h1
  rw [g1, Outcome.bind_ok]
  obtain ⟨f1, f2⟩ := g2.free
  exact ⟨_, f1, f2⟩

theorem clear_ok {h : Heap} {C : List (Ptr × Block)} {o : ObjAt} (hi : Is h (o.cells ++ C)) :
    ∃ h' M, clear h (some o.self) = .ok h' ∧ Is h' ((ObjAt.mk o.self M).cells ++ C) ∧ M.Fits ∧ M.value = Properties.create := by
  unfold clear
  dsimp only
  rw [object_ok hi (by simp [ObjAt.cells] : (o.self, Block.object o.M.map) ∈ _), Outcome.bind_ok]
  have h1 : Is h (o.M.cells ++ ((o.self, .object o.M.map) :: C)) := hi.perm (by unfold ObjAt.cells; same_parts)
  obtain ⟨h2, g1, g2⟩ := smDelete_ok h1
  rw [g1]
  obtain ⟨M, e1, e2, e3, e4⟩ := smNew_ok g2
  have h3 : Is (smNew h2 32).2 ((o.self, .object o.M.map) :: (M.cells ++ C)) := e2.perm (by same_parts)
  refine ⟨_, M, rfl, ?_, e3, e4⟩
  dsimp only
  rw [e1]
  exact h3.put (.object M.map)

theorem set_ok {h : Heap} {C : List (Ptr × Block)} {o : ObjAt} {key value : Arg} {k v : Str} (hi : Is h (o.cells ++ C)) (hf : o.M.Fits) (hk : Outside C key k)
    (hv : Outside C value v) (sk : Spec.Short k) (sv : Spec.Short v) :
    ∃ h' M, set h (some o.self) key value = .ok h' ∧ Is h' ((ObjAt.mk o.self M).cells ++ C) ∧ M.Fits ∧ M.value = o.M.value.put k v ∧ M.map = o.M.map := by
  unfold set
  rw [object_ok hi (by simp [ObjAt.cells] : (o.self, Block.object o.M.map) ∈ _), Outcome.bind_ok]
  have h1 : Is h (o.M.cells ++ ((o.self, .object o.M.map) :: C)) := hi.perm (by unfold ObjAt.cells; same_parts)
  obtain ⟨h', bs, g1, g2, g3, g4⟩ := smPut_ok h1 hf (hk.mono fun c hc => by simp [hc]) (hv.mono fun c hc => by simp [hc]) sk sv
  exact ⟨h', _, g1, g2.perm (by unfold ObjAt.cells; same_parts), g3, g4, rfl⟩

theorem smSize_ok {h : Heap} {C : List (Ptr × Block)} {M : MapAt} {a : Arg} {k : Str} (hi : Is h (M.cells ++ C)) (hM : M.Fits) (ha : a.read h = .ok k) (hk : NoNul k) :
    smSize h M.map a = .ok (StrMap.getSize M.value k) := by
  unfold smSize StrMap.getSize
  rcases smFind_ok hi hM ha hk with ⟨p, size, v, g1, g2, g3, g4, g5⟩ | ⟨g1, g2⟩
  · rw [g1, Outcome.bind_ok, g2]
    dsimp only
    rw [text_ok hi (by simp [g3] : (p, Block.text size (some v)) ∈ _), Outcome.bind_ok]
    have hl := g5.2
    have hw : wrap32 (v.length : Int) = v.length := by unfold wrap32; omega
    rw [hw, if_pos (by unfold InInt32; omega)]
    rfl
  · rw [g1, Outcome.bind_ok, g2]
    rfl

theorem has_ok {h : Heap} {C : List (Ptr × Block)} {o : ObjAt} {k : Str} (hi : Is h (o.cells ++ C)) (hf : o.M.Fits) (hk : NoNul k) :
    has h (some o.self) (.given k) = .ok (Properties.has o.M.value k) := by
  unfold has
  rw [object_ok hi (by simp [ObjAt.cells] : (o.self, Block.object o.M.map) ∈ _), Outcome.bind_ok]
  have h1 : Is h (o.M.cells ++ ((o.self, .object o.M.map) :: C)) := hi.perm (by unfold ObjAt.cells; same_parts)
  rw [smSize_ok h1 hf (show (Arg.given k).read h = .ok k from by show Outcome.ok (cstr k) = _; rw [cstr_of_noNul hk]) hk]
  unfold Properties.has
  dsimp only [Outcome.map, Outcome.bind]
  by_cases hs : StrMap.getSize o.M.value k < 1
  · rw [if_pos hs, decide_eq_true (by omega)]; rfl
  · rw [if_neg hs, decide_eq_false (by omega)]; rfl

theorem get_ok {h : Heap} {C : List (Ptr × Block)} {o : ObjAt} {k : Str} (hi : Is h (o.cells ++ C)) (hf : o.M.Fits) (hk : NoNul k) :
    ∃ h', (get h (some o.self) (.given k)).bind takeText = .ok (Properties.get o.M.value k, h') ∧ Is h' (o.cells ++ C) := by
  unfold get
  rw [object_ok hi (by simp [ObjAt.cells] : (o.self, Block.object o.M.map) ∈ _), Outcome.bind_ok]
  have h1 : Is h (o.M.cells ++ ((o.self, .object o.M.map) :: C)) := hi.perm (by unfold ObjAt.cells; same_parts)
  have hr : ∀ h' : Heap, (Arg.given k).read h' = .ok k := fun h' => by show Outcome.ok (cstr k) = _; rw [cstr_of_noNul hk]
  rw [smSize_ok h1 hf (hr h) hk, Outcome.bind_ok, Properties.get_eq]
  unfold StrMap.getSize
  have hi2 := h1.alloc (.text (8 * (StrMap.getSize o.M.value k)) none)
  have hi3 : Is (h.alloc (.text (8 * (StrMap.getSize o.M.value k)) none))
      (o.M.cells ++ ((h.next, .text (8 * (StrMap.getSize o.M.value k)) none) :: ((o.self, .object o.M.map) :: C))) := hi2.perm (by same_parts)
  rcases smFind_ok hi3 hf (hr _) hk with ⟨p, size, v, g1, g2, g3, g4, g5⟩ | ⟨g1, g2⟩
  · unfold StrMap.getSize at g1 hi3
    rw [g2] at g1 hi3 ⊢
    dsimp only at g1 hi3 ⊢
    rw [if_neg (by omega), Int.toNat_natCast]
    unfold smCopy
    rw [g1, Outcome.bind_ok]
    dsimp only
    rw [text_ok hi3 (by simp [g3] : (p, Block.text size (some v)) ∈ _), Outcome.bind_ok, if_neg (by omega)]
    have hi4 : Is (h.alloc (.text (8 * (v.length + 1)) none)) ((h.next, .text (8 * (v.length + 1)) none) :: (o.M.cells ++ ((o.self, .object o.M.map) :: C))) := hi3.perm (by same_parts)
    obtain ⟨h5, f1, f2⟩ := strcpy_ok (s := v) hi4 (.inr ⟨p, size, rfl, by simp [g3]⟩) (by omega)
    rw [f1]
    dsimp only [Outcome.map, Outcome.bind]
    unfold takeText
    dsimp only
    rw [text_ok f2 (List.mem_cons_self ..), Outcome.bind_ok]
    obtain ⟨f3, f4⟩ := f2.free
    rw [f3]
    exact ⟨_, rfl, f4.perm (by unfold ObjAt.cells; same_parts)⟩
  · rw [g2]
    dsimp only
    rw [if_pos (by decide), Outcome.bind_ok]
    exact ⟨h, rfl, hi⟩

theorem copyAll_ok {h : Heap} {C : List (Ptr × Block)} {s d : ObjAt} (flags : Nat) (hflags : flags ≠ 0) (hi : Is h (d.cells ++ (s.cells ++ C))) (hs : s.M.Fits) (hd : d.M.Fits) :
    ∃ h' M, copyAll h (some s.self) (some d.self) flags = .ok h' ∧ Is h' ((ObjAt.mk d.self M).cells ++ (s.cells ++ C)) ∧ M.Fits ∧
      M.value = s.M.value.enum.foldl Properties.copyOverwrite d.M.value := by
  unfold copyAll enumerate
  rw [if_pos ⟨hflags, by decide⟩]
  dsimp only
  rw [object_ok hi (by simp [ObjAt.cells] : (s.self, Block.object s.M.map) ∈ _), Outcome.bind_ok]
  unfold smEnum
  rw [map_ok hi (by simp [ObjAt.cells, MapAt.cells] : (s.M.map, Block.map s.M.buckets.length s.M.table) ∈ _), Outcome.bind_ok]
  dsimp only
  obtain ⟨h', g1, g2⟩ := enumBuckets_ok (f := copyOverwrite (some d.self)) (M := s.M)
    (Inv := fun acc h => ∃ M, Is h ((ObjAt.mk d.self M).cells ++ (s.cells ++ C)) ∧ M.Fits ∧ M.value = acc.foldl Properties.copyOverwrite d.M.value)
    (by
      rintro acc h ⟨M, hi, _⟩ c hc
      exact hi.get (by simp [ObjAt.cells, hc]))
    (by
      rintro acc h b hb q hq ⟨M, hi, hM, e⟩
      have hf := hs.2 b hb q hq
      have hcells : ∀ c ∈ q.cells, c ∈ s.cells ++ C := by
        intro c hc
        refine List.mem_append_left _ ?_
        unfold ObjAt.cells MapAt.cells
        refine List.mem_cons_of_mem _ (List.mem_cons_of_mem _ (List.mem_cons_of_mem _ (List.mem_flatMap.mpr ⟨b, hb, ?_⟩)))
        unfold BucketAt.cells
        rw [if_neg (List.ne_nil_of_mem hq)]
        exact List.mem_cons_of_mem _ (List.mem_flatMap.mpr ⟨q, hq, hc⟩)
      obtain ⟨h', M', g1, g2, g3, g4, _⟩ := set_ok (o := ⟨d.self, M⟩) (key := .held q.key) (value := .held q.value) (k := q.k) (v := q.v) hi hM
        (.inr ⟨_, q.keyRoom, rfl, hcells _ (by simp [PairAt.cells])⟩) (.inr ⟨_, q.valueRoom, rfl, hcells _ (by simp [PairAt.cells])⟩) hf.2.2.1 hf.2.2.2
      refine ⟨h', g1, M', g2, g3, ?_⟩
      rw [g4, List.foldl_append, ← e]
      rfl)
    s.M.buckets [] [] h rfl ⟨d.M, hi, hd, rfl⟩
  obtain ⟨M, k1, k2, k3⟩ := g2
  exact ⟨h', M, g1, k1, k2, by rw [k3]; rfl⟩

/-! ### Programs -/

/-- The object represents the map. -/
def Rep (p : Properties) (a : AMap) : Prop := PropRep p a ∧ ∀ k, ¬ NoNul k → a k = none

/-- A variable has its value. -/
inductive Var : Option ObjAt → Option AMap → Prop
  | null : Var none none
  | object {o a} : o.M.Fits → Rep o.M.value a → Var (some o) (some a)

def varCells : Option ObjAt → List (Ptr × Block)
  | none => []
  | some o => o.cells

/-- The program has these values. -/
def Holds (s : State) (t : Spec.Store) : Prop :=
  ∃ objs : List (Option ObjAt), s.vars = objs.map (Option.map ObjAt.self) ∧ Is s.heap (objs.flatMap varCells) ∧ List.Forall₂ Var objs t

theorem forall₂_split {α β : Type} {R : α → β → Prop} {l : List α} {t : List β} (h : List.Forall₂ R l t) {i : Nat} {b : β} (hb : t[i]? = some b) :
    ∃ A a B A' B', l = A ++ a :: B ∧ t = A' ++ b :: B' ∧ A.length = i ∧ A'.length = i ∧ R a b ∧ List.Forall₂ R A A' ∧ List.Forall₂ R B B' := by
  induction h generalizing i with
  | nil => simp at hb
  | @cons x y l t hxy hr ih =>
    cases i with
    | zero =>
      simp only [List.getElem?_cons_zero, Option.some.injEq] at hb
      subst hb
      exact ⟨[], x, l, [], t, rfl, rfl, rfl, rfl, hxy, .nil, hr⟩
    | succ i =>
      rw [List.getElem?_cons_succ] at hb
      obtain ⟨A, a, B, A', B', e1, e2, e3, e4, e5, e6, e7⟩ := ih hb
      exact ⟨x :: A, a, B, y :: A', B', by rw [e1]; rfl, by rw [e2]; rfl, by simp [e3], by simp [e4], e5, .cons hxy e6, e7⟩

theorem forall₂_mid {α β : Type} {R : α → β → Prop} {A B : List α} {A' B' : List β} {a : α} {b : β} (h1 : List.Forall₂ R A A') (h2 : R a b) (h3 : List.Forall₂ R B B') :
    List.Forall₂ R (A ++ a :: B) (A' ++ b :: B') := by
  induction h1 with
  | nil => exact .cons h2 h3
  | cons h _ ih => exact .cons h ih

theorem mid_perm (A B : List (Option ObjAt)) (x : Option ObjAt) :
    ((A ++ x :: B).flatMap varCells).Perm (varCells x ++ (A.flatMap varCells ++ B.flatMap varCells)) := by
  rw [List.flatMap_append, List.flatMap_cons]
  same_parts

theorem rep_set {p : Properties} {a : AMap} {k v : Str} (h : Rep p a) (sk : Spec.Short k) (sv : Spec.Short v) : Rep (p.put k v) (a.set k v) := by
  refine ⟨⟨Properties.wf_set h.1.1 k v, fun k' hk' => ?_⟩, fun k' hk' => ?_⟩
  · have := Properties.get_set h.1.1 k v k'
    rw [cstr_of_noNul sk.1, cstr_of_noNul hk', cstr_of_noNul sv.1, h.1.2 k' hk'] at this
    refine Eq.trans this ?_
    unfold AMap.set
    by_cases e : k = k'
    · rw [if_pos e, if_pos e.symm]
    · rw [if_neg e, if_neg (fun e' => e e'.symm)]
  · unfold AMap.set
    rw [if_neg (by rintro rfl; exact hk' sk.1)]
    exact h.2 k' hk'

theorem rep_empty : Rep Properties.create AMap.empty := ⟨PropRep.create, fun _ _ => rfl⟩

theorem rep_append {p d : Properties} {a b : AMap} (hp : Rep p a) (hd : Rep d b) : Rep (p.enum.foldl Properties.copyOverwrite d) (AMap.override a b) :=
  ⟨PropRep.append hp.1 hd.1 true, fun k hk => by unfold AMap.override; rw [hp.2 k hk, hd.2 k hk]; rfl⟩

theorem override_empty (a : AMap) : AMap.override a AMap.empty = a := by
  funext k
  unfold AMap.override AMap.empty
  cases a k <;> rfl

theorem empty_override (a : AMap) : AMap.override AMap.empty a = a := by
  funext k
  rfl

theorem step_ok {s : State} {t : Spec.Store} {op : Op} (hs : Holds s t) (ha : Spec.Allowed t op) :
    ∃ a s', step s op = .ok (a, s') ∧ Spec.Answered t op a ∧ Holds s' (Spec.after t op) := by
  obtain ⟨objs, hv, hi, hr⟩ := hs
  have hlen := hr.length_eq
  -- a variable of the program
  have var : ∀ {i b}, t[i]? = some b → ∃ A x B A' B', objs = A ++ x :: B ∧ t = A' ++ b :: B' ∧ A.length = i ∧ A'.length = i ∧ Var x b ∧
      List.Forall₂ Var A A' ∧ List.Forall₂ Var B B' ∧ s.vars[i]? = some (x.map ObjAt.self) ∧
      Is s.heap (varCells x ++ (A.flatMap varCells ++ B.flatMap varCells)) := by
    intro i b hb
    obtain ⟨A, x, B, A', B', e1, e2, e3, e4, e5, e6, e7⟩ := forall₂_split hr hb
    refine ⟨A, x, B, A', B', e1, e2, e3, e4, e5, e6, e7, ?_, ?_⟩
    · rw [hv, e1, List.map_append, List.map_cons, List.getElem?_append_right (by simp [e3])]
      simp [e3]
    · rw [e1] at hi
      exact hi.perm (mid_perm A B x)
  cases op with
  | create =>
    obtain ⟨o, e1, e2, e3, e4⟩ := create_ok hi
    refine ⟨_, _, rfl, rfl, objs ++ [some o], ?_, ?_, ?_⟩
    · dsimp only
      rw [hv, e1, List.map_append]
      rfl
    · refine e2.perm ?_
      rw [List.flatMap_append, List.flatMap_singleton]
      show (o.cells ++ _).Perm (_ ++ o.cells)
      exact List.perm_append_comm
    · exact List.rel_append hr (.cons (.object e3 (by rw [e4]; exact rep_empty)) .nil)
  | set i k v =>
    obtain ⟨⟨m, hm⟩, sk, sv⟩ := ha
    obtain ⟨A, x, B, A', B', e1, e2, e3, e4, e5, e6, e7, e8, e9⟩ := var hm
    cases e5 with
    | @object o a hf hrep =>
    obtain ⟨h', M, g1, g2, g3, g4, _⟩ := set_ok e9 hf (.inl ⟨k, rfl, cstr_of_noNul sk.1⟩) (.inl ⟨v, rfl, cstr_of_noNul sv.1⟩) sk sv
    refine ⟨.nothing, ⟨h', s.vars⟩, ?_, rfl, A ++ some ⟨o.self, M⟩ :: B, ?_, ?_, ?_⟩
    · unfold step
      dsimp only
      rw [e8]
      dsimp only [Outcome.bind]
      rw [show Option.map ObjAt.self (some o) = some o.self from rfl, g1]
      rfl
    · dsimp only
      rw [hv, e1]
      simp
    · exact g2.perm (mid_perm A B (some ⟨o.self, M⟩)).symm
    · show List.Forall₂ Var _ (t.modify i _)
      rw [e2, ← e4, modify_mid]
      exact forall₂_mid e6 (.object g3 (by rw [g4]; exact rep_set hrep sk sv)) e7
  | get i k =>
    obtain ⟨⟨m, hm⟩, sk⟩ := ha
    obtain ⟨A, x, B, A', B', e1, e2, e3, e4, e5, e6, e7, e8, e9⟩ := var hm
    cases e5 with
    | @object o a hf hrep =>
    obtain ⟨h', g1, g2⟩ := get_ok e9 hf sk.1
    refine ⟨.text (Properties.get o.M.value k), ⟨h', s.vars⟩, ?_, ⟨m, hm, by rw [hrep.1.2 k sk.1]⟩, objs, hv, ?_, hr⟩
    · unfold step
      dsimp only
      rw [e8]
      dsimp only [Outcome.bind]
      rw [show Option.map ObjAt.self (some o) = some o.self from rfl]
      cases hg : get s.heap (some o.self) (.given k) with
      | ok r =>
        rw [hg, Outcome.bind_ok] at g1
        dsimp only
        rw [g1]
        rfl
      | abort => rw [hg] at g1; cases g1
      | ub => rw [hg] at g1; cases g1
    · rw [e1]
      exact g2.perm (mid_perm A B (some o)).symm
  | has i k =>
    obtain ⟨⟨m, hm⟩, sk⟩ := ha
    obtain ⟨A, x, B, A', B', e1, e2, e3, e4, e5, e6, e7, e8, e9⟩ := var hm
    cases e5 with
    | @object o a hf hrep =>
    refine ⟨.flag (Properties.has o.M.value k), s, ?_, ⟨m, hm, by rw [Properties.has_eq, hrep.1.2 k sk.1]⟩, objs, hv, hi, hr⟩
    unfold step
    dsimp only
    rw [e8]
    dsimp only [Outcome.bind]
    rw [show Option.map ObjAt.self (some o) = some o.self from rfl, has_ok e9 hf sk.1]
    rfl
  | count i =>
    obtain ⟨m, hm⟩ := ha
    obtain ⟨A, x, B, A', B', e1, e2, e3, e4, e5, e6, e7, e8, e9⟩ := var hm
    cases e5 with
    | @object o a hf hrep =>
    have hc : count s.heap (some o.self) = .ok o.M.value.count := by
      unfold count
      rw [object_ok e9 (by simp [varCells, ObjAt.cells] : (o.self, Block.object o.M.map) ∈ _), Outcome.bind_ok]
      exact smCount_ok (C := (o.self, .object o.M.map) :: (A.flatMap varCells ++ B.flatMap varCells)) (e9.perm (by unfold varCells ObjAt.cells; same_parts))
    refine ⟨.number o.M.value.count, s, ?_, ⟨m, o.M.value.enum.map Prod.fst, hm, StrMap.enum_keys_nodup hrep.1.1, ?_, ?_⟩, objs, hv, hi, hr⟩
    · unfold step
      dsimp only
      rw [e8]
      dsimp only [Outcome.bind]
      rw [show Option.map ObjAt.self (some o) = some o.self from rfl, hc]
      rfl
    · intro k
      rw [List.mem_map]
      constructor
      · rintro ⟨kv, h1, rfl⟩
        have := (Properties.mem_enumerate hrep.1.1 kv.1 kv.2).mp h1
        rw [← hrep.1.2 _ this.1, this.2]
        exact fun e => nomatch e
      · intro h1
        have hk : NoNul k := Classical.byContradiction fun hk => h1 (hrep.2 k hk)
        cases hv : m k with
        | none => exact absurd hv h1
        | some v => exact ⟨(k, v), (Properties.mem_enumerate hrep.1.1 k v).mpr ⟨hk, by rw [hrep.1.2 k hk, hv]⟩, rfl⟩
    · rw [List.length_map, StrMap.count_eq]
  | clear i =>
    have hm : t[i]? = some (t[i]'ha) := List.getElem?_eq_getElem ha
    generalize t[i]'ha = b at hm
    obtain ⟨A, x, B, A', B', e1, e2, e3, e4, e5, e6, e7, e8, e9⟩ := var hm
    cases e5 with
    | null =>
      refine ⟨.nothing, s, ?_, rfl, objs, hv, hi, ?_⟩
      · unfold step
        dsimp only
        rw [e8]
        rfl
      · show List.Forall₂ Var _ (t.modify i _)
        rw [e2, ← e4, modify_mid, e1]
        exact forall₂_mid e6 .null e7
    | @object o a hf hrep =>
      obtain ⟨h', M, g1, g2, g3, g4⟩ := clear_ok e9
      refine ⟨.nothing, ⟨h', s.vars⟩, ?_, rfl, A ++ some ⟨o.self, M⟩ :: B, ?_, ?_, ?_⟩
      · unfold step
        dsimp only
        rw [e8]
        dsimp only [Outcome.bind]
        rw [show Option.map ObjAt.self (some o) = some o.self from rfl, g1]
        rfl
      · dsimp only
        rw [hv, e1]
        simp
      · exact g2.perm (mid_perm A B (some ⟨o.self, M⟩)).symm
      · show List.Forall₂ Var _ (t.modify i _)
        rw [e2, ← e4, modify_mid]
        exact forall₂_mid e6 (.object g3 (by rw [g4]; exact rep_empty)) e7
  | copy i =>
    have hm : t[i]? = some (t[i]'ha) := List.getElem?_eq_getElem ha
    generalize t[i]'ha = b at hm
    obtain ⟨A, x, B, A', B', e1, e2, e3, e4, e5, e6, e7, e8, e9⟩ := var hm
    obtain ⟨d, c1, c2, c3, c4⟩ := create_ok e9
    cases e5 with
    | null =>
      refine ⟨.nothing, ⟨(create s.heap).2, s.vars ++ [some (create s.heap).1]⟩, ?_, rfl, objs ++ [some d], ?_, ?_, ?_⟩
      · unfold step
        dsimp only
        rw [e8]
        rfl
      · dsimp only
        rw [hv, c1, List.map_append]
        rfl
      · refine c2.perm ?_
        rw [List.flatMap_append, List.flatMap_singleton, e1]
        refine List.Perm.trans (List.Perm.append_left _ (mid_perm A B none).symm) ?_
        show (d.cells ++ _).Perm (_ ++ d.cells)
        exact List.perm_append_comm
      · show List.Forall₂ Var _ (t ++ [some ((t[i]?.join).getD AMap.empty)])
        rw [hm]
        exact List.rel_append hr (.cons (.object c3 (by rw [c4]; exact rep_empty)) .nil)
    | @object o a hf hrep =>
      obtain ⟨h', M, g1, g2, g3, g4⟩ := copyAll_ok 1 (by decide) c2 hf c3
      refine ⟨.nothing, ⟨h', s.vars ++ [some d.self]⟩, ?_, rfl, objs ++ [some ⟨d.self, M⟩], ?_, ?_, ?_⟩
      · unfold step copy
        dsimp only
        rw [e8]
        dsimp only [Outcome.bind]
        rw [show Option.map ObjAt.self (some o) = some o.self from rfl, c1, g1]
        rfl
      · dsimp only
        rw [hv, List.map_append]
        rfl
      · refine g2.perm ?_
        rw [List.flatMap_append, List.flatMap_singleton, e1]
        refine List.Perm.trans (List.Perm.append_left _ (mid_perm A B (some o)).symm) ?_
        show ((ObjAt.mk d.self M).cells ++ _).Perm (_ ++ (ObjAt.mk d.self M).cells)
        exact List.perm_append_comm
      · show List.Forall₂ Var _ (t ++ [some ((t[i]?.join).getD AMap.empty)])
        rw [hm]
        refine List.rel_append hr (.cons (.object g3 ?_) .nil)
        dsimp only
        rw [g4, c4, show ((some (some a)).join).getD AMap.empty = a from rfl, ← override_empty a]
        exact rep_append hrep rep_empty
  | append i j o =>
    obtain ⟨hlt, ⟨m, hm⟩, hij⟩ := ha
    have hmi : t[i]? = some (t[i]'hlt) := List.getElem?_eq_getElem hlt
    generalize t[i]'hlt = b at hmi
    -- the drain
    obtain ⟨A, x, B, A', B', e1, e2, e3, e4, e5, e6, e7, e8, e9⟩ := var hm
    cases e5 with
    | @object d a hf hrep =>
    -- the source
    obtain ⟨X, y, Y, X', Y', f1, f2, f3, f4, f5, f6, f7, f8, f9⟩ := var hmi
    cases f5 with
    | null =>
      refine ⟨.nothing, s, ?_, rfl, objs, hv, hi, ?_⟩
      · unfold step
        dsimp only
        rw [f8, e8]
        rfl
      · show List.Forall₂ Var _ (t.modify j (Option.map fun d => AMap.override ((t[i]?.join).getD AMap.empty) d))
        rw [hmi]
        show List.Forall₂ Var _ (t.modify j (Option.map fun d => AMap.override AMap.empty d))
        rw [e2, ← e4, modify_mid, e1]
        refine forall₂_mid e6 ?_ e7
        show Var _ (some (AMap.override AMap.empty m))
        rw [empty_override]
        exact .object hf hrep
    | @object o' a' hf' hrep' =>
      -- the source is among the others
      have hmem : some o' ∈ A ++ B := by
        have h1 : objs[i]? = some (some o') := by rw [f1, ← f3]; simp
        rw [e1, List.getElem?_append] at h1
        by_cases hi : i < A.length
        · rw [if_pos hi] at h1
          exact List.mem_append_left _ (List.mem_of_getElem? h1)
        · rw [if_neg hi] at h1
          obtain ⟨n, hn⟩ : ∃ n, i - A.length = n + 1 := ⟨i - A.length - 1, by omega⟩
          rw [hn, List.getElem?_cons_succ] at h1
          exact List.mem_append_right _ (List.mem_of_getElem? h1)
      obtain ⟨P, Q, hPQ⟩ := List.append_of_mem hmem
      have hrest : (A.flatMap varCells ++ B.flatMap varCells).Perm (o'.cells ++ (P.flatMap varCells ++ Q.flatMap varCells)) := by
        rw [← List.flatMap_append, hPQ]
        exact mid_perm P Q (some o')
      have hi2 : Is s.heap (d.cells ++ (o'.cells ++ (P.flatMap varCells ++ Q.flatMap varCells))) := e9.perm (List.Perm.append_left _ hrest)
      obtain ⟨h', M, g1, g2, g3, g4⟩ := copyAll_ok (if o then 3 else 1) (by cases o <;> decide) hi2 hf' hf
      refine ⟨.nothing, ⟨h', s.vars⟩, ?_, rfl, A ++ some ⟨d.self, M⟩ :: B, ?_, ?_, ?_⟩
      · unfold step append
        dsimp only
        rw [f8, e8]
        dsimp only [Outcome.bind]
        rw [show Option.map ObjAt.self (some d) = some d.self from rfl, show Option.map ObjAt.self (some o') = some o'.self from rfl, g1]
        rfl
      · dsimp only
        rw [hv, e1]
        simp
      · exact g2.perm ((List.Perm.append_left _ hrest.symm).trans (mid_perm A B (some ⟨d.self, M⟩)).symm)
      · show List.Forall₂ Var _ (t.modify j (Option.map fun d => AMap.override ((t[i]?.join).getD AMap.empty) d))
        rw [hmi]
        show List.Forall₂ Var _ (t.modify j (Option.map fun d => AMap.override a' d))
        rw [e2, ← e4, modify_mid]
        exact forall₂_mid e6 (.object g3 (by rw [g4]; exact rep_append hrep' hrep)) e7
  | release i =>
    have hm : t[i]? = some (t[i]'ha) := List.getElem?_eq_getElem ha
    generalize t[i]'ha = b at hm
    obtain ⟨A, x, B, A', B', e1, e2, e3, e4, e5, e6, e7, e8, e9⟩ := var hm
    have hvars : s.vars.set i none = (A ++ none :: B).map (Option.map ObjAt.self) := by
      rw [hv, e1, ← e3, List.map_append, List.map_append, List.set_append_right _ _ (by simp)]
      simp
    have hstore : List.Forall₂ Var (A ++ none :: B) (Spec.after t (.release i)) := by
      show List.Forall₂ Var _ (t.set i none)
      rw [e2, ← e4, List.set_append_right _ _ (by simp)]
      simp only [Nat.sub_self, List.set_cons_zero]
      exact forall₂_mid e6 .null e7
    cases e5 with
    | null =>
      refine ⟨.nothing, ⟨s.heap, s.vars.set i none⟩, ?_, rfl, A ++ none :: B, hvars, ?_, hstore⟩
      · unfold step
        dsimp only
        rw [e8]
        rfl
      · exact e9.perm (mid_perm A B none).symm
    | @object o a hf hrep =>
      obtain ⟨h', g1, g2⟩ := release_ok e9
      refine ⟨.nothing, ⟨h', s.vars.set i none⟩, ?_, rfl, A ++ none :: B, hvars, ?_, hstore⟩
      · unfold step
        dsimp only
        rw [e8]
        dsimp only [Outcome.bind]
        rw [show Option.map ObjAt.self (some o) = some o.self from rfl, g1]
        rfl
      · exact g2.perm (mid_perm A B none).symm

theorem run_ok (ops : List Op) : ∀ {s : State} {t : Spec.Store}, Holds s t → Spec.Proper t ops →
    ∃ as s', run ops s = .ok (as, s') ∧ Spec.AllAnswered t ops as ∧ Holds s' (Spec.final t ops) := by
  induction ops with
  | nil =>
    intro s t hs _
    exact ⟨[], s, rfl, rfl, hs⟩
  | cons op ops ih =>
    intro s t hs hp
    obtain ⟨a, s1, g1, g2, g3⟩ := step_ok hs hp.1
    obtain ⟨as, s2, k1, k2, k3⟩ := ih g3 hp.2
    refine ⟨a :: as, s2, ?_, ⟨a, as, rfl, g2, k2⟩, k3⟩
    rw [run, g1, Outcome.bind_ok, k1]
    rfl

end MapMem
end Trax
