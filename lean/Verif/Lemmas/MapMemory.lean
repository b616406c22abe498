import Verif.Spec.MapMemory
import Verif.Lemmas.Properties

/-! Property objects on the heap: the blocks they are made of, and what the functions do with them. -/

namespace Trax
namespace MapMem

/-! ### Heaps given by the list of their blocks -/

/-- The heap has exactly these blocks. -/
structure Is (h : Heap) (C : List (Ptr × Block)) : Prop where
  nodup : (C.map Prod.fst).Nodup
  mem : ∀ p b, h.blocks p = some b ↔ (p, b) ∈ C
  bound : ∀ c ∈ C, c.1 < h.next

theorem is_empty : Is Heap.empty [] := ⟨by simp, by intro p b; simp [Heap.empty], by simp⟩

theorem Is.perm {h : Heap} {C D : List (Ptr × Block)} (hi : Is h C) (hp : C.Perm D) : Is h D :=
  ⟨(hp.map Prod.fst).nodup_iff.mp hi.nodup, fun p b => (hi.mem p b).trans hp.mem_iff, fun c hc => hi.bound c (hp.mem_iff.mpr hc)⟩

theorem Is.get {h : Heap} {C : List (Ptr × Block)} (hi : Is h C) {p : Ptr} {b : Block} (hm : (p, b) ∈ C) : h.blocks p = some b := (hi.mem p b).mpr hm

theorem Is.fresh {h : Heap} {C : List (Ptr × Block)} (hi : Is h C) : h.blocks h.next = none := by
  cases hb : h.blocks h.next with
  | none => rfl
  | some b => exact absurd (hi.bound _ ((hi.mem _ _).mp hb)) (Nat.lt_irrefl _)

theorem Is.alloc {h : Heap} {C : List (Ptr × Block)} (hi : Is h C) (b : Block) : Is (h.alloc b) ((h.next, b) :: C) := by
  refine ⟨?_, ?_, ?_⟩
  · rw [List.map_cons, List.nodup_cons]
    refine ⟨fun hm => ?_, hi.nodup⟩
    obtain ⟨c, hc, he⟩ := List.mem_map.mp hm
    exact absurd (he ▸ hi.bound c hc) (Nat.lt_irrefl _)
  · intro p b'
    show (if p = h.next then some b else h.blocks p) = some b' ↔ _
    by_cases hp : p = h.next
    · rw [if_pos hp, List.mem_cons, Prod.mk.injEq]
      constructor
      · intro e
        exact .inl ⟨hp, (Option.some.inj e).symm⟩
      · rintro (⟨_, e⟩ | hm)
        · rw [e]
        · exact absurd (show p < h.next from hi.bound _ hm) (by rw [hp]; exact Nat.lt_irrefl _)
    · rw [if_neg hp, hi.mem, List.mem_cons, Prod.mk.injEq]
      constructor
      · exact .inr
      · rintro (⟨e, _⟩ | hm)
        · exact absurd e hp
        · exact hm
  · intro c hc
    show c.1 < h.next + 1
    rcases List.mem_cons.mp hc with rfl | hc
    · exact Nat.lt_succ_self _
    · exact Nat.lt_succ_of_lt (hi.bound c hc)

theorem Is.put {h : Heap} {C : List (Ptr × Block)} {p : Ptr} {b : Block} (hi : Is h ((p, b) :: C)) (b' : Block) :
    Is (h.put p (some b')) ((p, b') :: C) := by
  have hn := hi.nodup
  rw [List.map_cons, List.nodup_cons] at hn
  refine ⟨by rw [List.map_cons, List.nodup_cons]; exact hn, ?_, ?_⟩
  · intro q c
    show (if q = p then some b' else h.blocks q) = some c ↔ _
    by_cases hq : q = p
    · subst hq
      rw [if_pos rfl, List.mem_cons, Prod.mk.injEq]
      constructor
      · intro e
        exact .inl ⟨rfl, (Option.some.inj e).symm⟩
      · rintro (⟨_, e⟩ | hm)
        · rw [e]
        · exact absurd (List.mem_map_of_mem (f := Prod.fst) hm) hn.1
    · rw [if_neg hq, hi.mem, List.mem_cons, List.mem_cons, Prod.mk.injEq, Prod.mk.injEq]
      simp [hq]
  · intro c hc
    rcases List.mem_cons.mp hc with rfl | hc
    · exact hi.bound (p, b) (by simp)
    · exact hi.bound c (by simp [hc])

theorem Is.free {h : Heap} {C : List (Ptr × Block)} {p : Ptr} {b : Block} (hi : Is h ((p, b) :: C)) :
    h.free p = .ok (h.put p none) ∧ Is (h.put p none) C := by
  have hn := hi.nodup
  rw [List.map_cons, List.nodup_cons] at hn
  refine ⟨by unfold Heap.free; rw [hi.get (List.mem_cons_self ..)], hn.2, ?_, fun c hc => hi.bound c (by simp [hc])⟩
  intro q c
  show (if q = p then none else h.blocks q) = some c ↔ _
  by_cases hq : q = p
  · subst hq
    rw [if_pos rfl]
    exact ⟨fun e => (nomatch e), fun hm => absurd (List.mem_map_of_mem (f := Prod.fst) hm) hn.1⟩
  · rw [if_neg hq, hi.mem, List.mem_cons, Prod.mk.injEq]
    simp [hq]

/-- A text that is outside of some of the blocks of the heap: one of the program, or in one of the blocks `C`. -/
def Outside (C : List (Ptr × Block)) (a : Arg) (s : Str) : Prop :=
  (∃ t, a = .given t ∧ cstr t = s) ∨ ∃ p size, a = .held p ∧ (p, Block.text size (some s)) ∈ C

theorem Outside.read {h : Heap} {C D : List (Ptr × Block)} {a : Arg} {s : Str} (ho : Outside C a s) (hi : Is h D) (hs : ∀ c ∈ C, c ∈ D) : a.read h = .ok s := by
  rcases ho with ⟨t, rfl, ht⟩ | ⟨p, size, rfl, hp⟩
  · show Outcome.ok (cstr t) = _
    rw [ht]
  · show h.text p = _
    unfold Heap.text
    rw [hi.get (hs _ hp)]

theorem Outside.mono {C D : List (Ptr × Block)} {a : Arg} {s : Str} (ho : Outside C a s) (hs : ∀ c ∈ C, c ∈ D) : Outside D a s := by
  rcases ho with h | ⟨p, size, h1, h2⟩
  · exact .inl h
  · exact .inr ⟨p, size, h1, hs _ h2⟩

theorem strcpy_ok {h : Heap} {C : List (Ptr × Block)} {d size : Nat} {c : Option Str} {a : Arg} {s : Str} (hi : Is h ((d, .text size c) :: C)) (ho : Outside C a s)
    (hs : s.length < size) : ∃ h', strcpy h d a = .ok h' ∧ Is h' ((d, .text size (some s)) :: C) := by
  have hn := hi.nodup
  rw [List.map_cons, List.nodup_cons] at hn
  refine ⟨h.put d (some (.text size (some s))), ?_, hi.put _⟩
  unfold strcpy
  rw [ho.read hi (fun c hc => by simp [hc]), Outcome.bind_ok, hi.get (List.mem_cons_self .. : (d, Block.text size c) ∈ (d, Block.text size c) :: C)]
  dsimp only
  rw [if_neg]
  rintro (e | e)
  · rcases ho with ⟨t, e', _⟩ | ⟨p, size', e', hp⟩
    · rw [e] at e'; cases e'
    · rw [e] at e'
      cases e'
      exact hn.1 (List.mem_map.mpr ⟨_, hp, rfl⟩)
  · omega

/-! ### The blocks of an object -/

/-- A pair, with the sizes of its texts. -/
structure PairAt where
  key : Ptr
  value : Ptr
  keyRoom : Nat
  valueRoom : Nat
  k : Str
  v : Str

def PairAt.slot (q : PairAt) : Option (Ptr × Ptr) := some (q.key, q.value)

def PairAt.cells (q : PairAt) : List (Ptr × Block) := [(q.key, .text q.keyRoom (some q.k)), (q.value, .text q.valueRoom (some q.v))]

/-- The texts have room. -/
def PairAt.Fits (q : PairAt) : Prop := q.k.length < q.keyRoom ∧ q.v.length < q.valueRoom ∧ Spec.Short q.k ∧ Spec.Short q.v

/-- A bucket; without pairs the array is NULL. -/
structure BucketAt where
  array : Ptr
  pairs : List PairAt

def BucketAt.entry (b : BucketAt) : Nat × Option Ptr := (b.pairs.length, if b.pairs = [] then none else some b.array)

def BucketAt.cells (b : BucketAt) : List (Ptr × Block) :=
  if b.pairs = [] then [] else (b.array, .pairs (b.pairs.map PairAt.slot)) :: b.pairs.flatMap PairAt.cells

def BucketAt.value (b : BucketAt) : Bucket := b.pairs.map fun q => (q.k, q.v)

/-- A map. -/
structure MapAt where
  map : Ptr
  table : Ptr
  buckets : List BucketAt

def MapAt.cells (M : MapAt) : List (Ptr × Block) :=
  (M.map, .map M.buckets.length M.table) :: (M.table, .buckets (M.buckets.map BucketAt.entry)) :: M.buckets.flatMap BucketAt.cells

def MapAt.value (M : MapAt) : StrMap := ⟨M.buckets.map BucketAt.value⟩

def MapAt.Fits (M : MapAt) : Prop := M.buckets.length = 32 ∧ ∀ b ∈ M.buckets, ∀ q ∈ b.pairs, q.Fits

/-! ### Looking for a pair -/

theorem bucketGet_found {B D : List PairAt} {q : PairAt} {key : Str} (hq : q.k = key) (hB : ∀ x ∈ B, x.k ≠ key) :
    bucketGet ((B ++ q :: D).map fun q => (q.k, q.v)) key = some q.v := by
  induction B with
  | nil => simp [bucketGet, hq]
  | cons x B ih =>
    simp only [List.cons_append, List.map_cons, bucketGet]
    rw [if_neg (hB x (by simp))]
    exact ih fun y hy => hB y (by simp [hy])

theorem bucketGet_absent {B : List PairAt} {key : Str} (hB : ∀ x ∈ B, x.k ≠ key) : bucketGet (B.map fun q => (q.k, q.v)) key = none := by
  rw [bucketGet_eq_none]
  simp only [List.map_map, List.mem_map, Function.comp, not_exists, not_and]
  exact fun x hx => hB x hx

theorem bucketPut_found {B D : List PairAt} {q : PairAt} {key v : Str} (hq : q.k = key) (hB : ∀ x ∈ B, x.k ≠ key) :
    bucketPut ((B ++ q :: D).map fun q => (q.k, q.v)) key v = (B.map fun q => (q.k, q.v)) ++ (key, v) :: D.map fun q => (q.k, q.v) := by
  induction B with
  | nil => simp [bucketPut, hq]
  | cons x B ih =>
    simp only [List.cons_append, List.map_cons, bucketPut]
    rw [if_neg (hB x (by simp)), ih fun y hy => hB y (by simp [hy])]

theorem bucketPut_absent {B : List PairAt} {key v : Str} (hB : ∀ x ∈ B, x.k ≠ key) :
    bucketPut (B.map fun q => (q.k, q.v)) key v = (B.map fun q => (q.k, q.v)) ++ [(key, v)] := by
  induction B with
  | nil => rfl
  | cons x B ih =>
    simp only [List.map_cons, bucketPut]
    rw [if_neg (hB x (by simp)), ih fun y hy => hB y (by simp [hy])]
    rfl

theorem findPair_ok {h : Heap} {key : Str} {all : List PairAt} (ht : ∀ q ∈ all, h.text q.key = .ok q.k) (R : List PairAt) :
    ∀ A, all = A ++ R → (∀ x ∈ A, x.k ≠ key) →
      (∃ B q D, all = B ++ q :: D ∧ q.k = key ∧ (∀ x ∈ B, x.k ≠ key) ∧ findPair h (all.map PairAt.slot) key R.length A.length = .ok (some B.length)) ∨
      ((∀ x ∈ all, x.k ≠ key) ∧ findPair h (all.map PairAt.slot) key R.length A.length = .ok none) := by
  induction R with
  | nil =>
    intro A e hA
    rw [List.append_nil] at e
    exact .inr ⟨by rw [e]; exact hA, rfl⟩
  | cons q R ih =>
    intro A e hA
    have hslot : (all.map PairAt.slot)[A.length]? = some (some (q.key, q.value)) := by
      rw [e]; simp [PairAt.slot]
    have hone : findPair h (all.map PairAt.slot) key (q :: R).length A.length =
        if q.k = key then .ok (some A.length) else findPair h (all.map PairAt.slot) key R.length (A.length + 1) := by
      rw [List.length_cons, findPair, hslot]
      dsimp only
      rw [ht q (by rw [e]; simp), Outcome.bind_ok]
    rw [hone]
    by_cases hq : q.k = key
    · rw [if_pos hq]
      exact .inl ⟨A, q, R, e, hq, hA, rfl⟩
    · rw [if_neg hq]
      have := ih (A ++ [q]) (by rw [e]; simp) (by
        intro x hx
        rcases List.mem_append.mp hx with hx | hx
        · exact hA x hx
        · rw [List.mem_singleton.mp hx]; exact hq)
      rw [List.length_append, List.length_singleton] at this
      exact this

theorem getPair_ok {h : Heap} {C : List (Ptr × Block)} {b : BucketAt} {key : Str} (hi : Is h (b.cells ++ C)) :
    (∃ B q D, b.pairs = B ++ q :: D ∧ q.k = key ∧ (∀ x ∈ B, x.k ≠ key) ∧ getPair h b.entry key = .ok (some B.length)) ∨
    ((∀ x ∈ b.pairs, x.k ≠ key) ∧ getPair h b.entry key = .ok none) := by
  unfold getPair BucketAt.entry
  by_cases hb : b.pairs = []
  · right
    simp [hb]
  · rw [if_neg (by simpa using hb), if_neg hb]
    dsimp only
    have hcell : ∀ c ∈ b.cells, h.blocks c.1 = some c.2 := fun c hc => hi.get (by simp [hc])
    unfold BucketAt.cells at hcell
    rw [if_neg hb] at hcell
    have hp : h.pairs b.array = .ok (b.pairs.map PairAt.slot) := by
      unfold Heap.pairs
      rw [hcell (b.array, .pairs (b.pairs.map PairAt.slot)) (by simp)]
    rw [hp, Outcome.bind_ok]
    exact findPair_ok (fun q hq => by
      unfold Heap.text
      rw [hcell (q.key, .text q.keyRoom (some q.k)) (List.mem_cons_of_mem _ (List.mem_flatMap.mpr ⟨q, hq, by simp [PairAt.cells]⟩))]) b.pairs [] rfl (by simp)

/-- A map whose bucket `index` is `b`. -/
theorem cells_split {M : MapAt} {A B : List BucketAt} {b : BucketAt} (hb : M.buckets = A ++ b :: B) :
    M.cells.Perm ((M.map, .map M.buckets.length M.table) :: (M.table, .buckets (M.buckets.map BucketAt.entry)) :: (b.cells ++ (A.flatMap BucketAt.cells ++ B.flatMap BucketAt.cells))) := by
  unfold MapAt.cells
  refine .cons _ (.cons _ ?_)
  rw [hb, List.flatMap_append, List.flatMap_cons, ← List.append_assoc, ← List.append_assoc]
  exact List.Perm.append_right _ List.perm_append_comm

theorem bucketOf_ok {h : Heap} {C : List (Ptr × Block)} {M : MapAt} {key : Str} (hi : Is h (M.cells ++ C)) (hM : M.buckets.length = 32) :
    ∃ A b B, M.buckets = A ++ b :: B ∧ A.length = (strHash key).toNat % 32 ∧
      bucketOf h M.map key = .ok (A.length, M.table, M.buckets.map BucketAt.entry, b.entry) := by
  have hlt : (strHash key).toNat % 32 < M.buckets.length := by rw [hM]; exact Nat.mod_lt _ (by decide)
  refine ⟨M.buckets.take ((strHash key).toNat % 32), M.buckets[(strHash key).toNat % 32], M.buckets.drop ((strHash key).toNat % 32 + 1), ?_, ?_, ?_⟩
  · rw [List.getElem_cons_drop, List.take_append_drop]
  · rw [List.length_take, Nat.min_eq_left (Nat.le_of_lt hlt)]
  · unfold bucketOf
    have h1 : h.map M.map = .ok (32, M.table) := by
      unfold Heap.map
      rw [hi.get (by unfold MapAt.cells; rw [hM]; simp : (M.map, Block.map 32 M.table) ∈ M.cells ++ C)]
    have h2 : h.buckets M.table = .ok (M.buckets.map BucketAt.entry) := by
      unfold Heap.buckets
      rw [hi.get (by unfold MapAt.cells; simp : (M.table, Block.buckets (M.buckets.map BucketAt.entry)) ∈ M.cells ++ C)]
    rw [h1, Outcome.bind_ok]
    dsimp only
    rw [if_neg (by decide), h2, Outcome.bind_ok, List.getElem?_map, List.getElem?_eq_getElem hlt]
    dsimp only [Option.map_some]
    rw [List.length_take, Nat.min_eq_left (Nat.le_of_lt hlt)]

theorem smFind_ok {h : Heap} {C : List (Ptr × Block)} {M : MapAt} {a : Arg} {k : Str} (hi : Is h (M.cells ++ C)) (hM : M.Fits) (ha : a.read h = .ok k) (hk : NoNul k) :
    (∃ p size v, smFind h M.map a = .ok (some p) ∧ M.value.pair k = some v ∧ (p, Block.text size (some v)) ∈ M.cells ∧ v.length < size ∧ Spec.Short v) ∨
    (smFind h M.map a = .ok none ∧ M.value.pair k = none) := by
  obtain ⟨A, b, B, hb, hA, hbo⟩ := bucketOf_ok hi hM.1 (key := k)
  have hpair : M.value.pair k = bucketGet (b.pairs.map fun q => (q.k, q.v)) k := by
    unfold StrMap.pair StrMap.index MapAt.value
    rw [cstr_of_noNul hk]
    dsimp only
    rw [List.length_map, hM.1, ← hA, List.getD_eq_getElem?_getD, List.getElem?_map, hb]
    simp [BucketAt.value]
  have hperm := (cells_split hb).append_right C
  have hi' : Is h (b.cells ++ ((M.map, .map M.buckets.length M.table) :: (M.table, .buckets (M.buckets.map BucketAt.entry)) :: (A.flatMap BucketAt.cells ++ B.flatMap BucketAt.cells) ++ C)) := by
    refine hi.perm (hperm.trans ?_)
    rw [show ∀ (x y : Ptr × Block) l m n, (x :: y :: (l ++ m)) ++ n = ([x, y] ++ l) ++ (m ++ n) from by simp,
      show ∀ (x y : Ptr × Block) m n l, l ++ (x :: y :: m ++ n) = (l ++ [x, y]) ++ (m ++ n) from by simp]
    exact List.Perm.append_right _ List.perm_append_comm
  unfold smFind
  rw [ha, Outcome.bind_ok, hbo, Outcome.bind_ok]
  dsimp only
  rcases getPair_ok hi' (key := k) with ⟨X, q, Y, e, hq, hX, hg⟩ | ⟨hX, hg⟩
  · left
    rw [hg, Outcome.bind_ok]
    have hne : b.pairs ≠ [] := by rw [e]; simp
    have he : b.entry.2 = some b.array := by unfold BucketAt.entry; rw [if_neg hne]
    dsimp only
    rw [he]
    dsimp only
    have hcell : ∀ c ∈ b.cells, h.blocks c.1 = some c.2 := fun c hc => hi'.get (by simp [hc])
    have hmem : (q.value, Block.text q.valueRoom (some q.v)) ∈ b.cells := by
      unfold BucketAt.cells
      rw [if_neg hne]
      exact List.mem_cons_of_mem _ (List.mem_flatMap.mpr ⟨q, by rw [e]; simp, by simp [PairAt.cells]⟩)
    have hp : h.pairs b.array = .ok (b.pairs.map PairAt.slot) := by
      unfold Heap.pairs
      rw [hcell (b.array, .pairs (b.pairs.map PairAt.slot)) (by unfold BucketAt.cells; rw [if_neg hne]; simp)]
    rw [hp, Outcome.bind_ok]
    have hslot : (b.pairs.map PairAt.slot)[X.length]? = some (some (q.key, q.value)) := by rw [e]; simp [PairAt.slot]
    rw [hslot]
    have hf : q.Fits := hM.2 b (by rw [hb]; simp) q (by rw [e]; simp)
    refine ⟨q.value, q.valueRoom, q.v, rfl, ?_, ?_, hf.2.1, hf.2.2.2⟩
    · rw [hpair, e]; exact bucketGet_found hq hX
    · exact (cells_split hb).mem_iff.mpr (by simp [hmem])
  · right
    rw [hg, Outcome.bind_ok]
    exact ⟨rfl, by rw [hpair]; exact bucketGet_absent hX⟩

end MapMem
end Trax
