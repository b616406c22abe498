import Verif.Lemmas.MapMemoryRun

/-!
# C159: the memory of property objects

What the heap contains is that of `Verif/Model/MapMemory.lean`; what a program may expect is in `Verif/Spec/MapMemory.lean`.
-/

namespace Trax
namespace MapMem
open Trax.Spec

/-- C159, as far as it holds: a program that uses `trax_properties_*` with texts of less than 2 GiB, and that does not append an object to
itself, never reads or writes outside of a block or in a released one, releases no block twice, gets the answers of finite maps, and when it
has released all of its objects, no block is left. Copies are independent of what they were made of. -/
theorem C159_memory_partial (ops : List Op) (hp : Spec.Proper [] ops) :
    ∃ answers s, run ops ⟨Heap.empty, []⟩ = .ok (answers, s) ∧ Spec.AllAnswered [] ops answers ∧
      ((∀ i, ¬ Spec.Live (Spec.final [] ops) i) → ∀ p, s.heap.blocks p = none) := by
  obtain ⟨as, s, g1, g2, objs, hv, hi, hr⟩ := run_ok ops (s := ⟨Heap.empty, []⟩) (t := []) ⟨[], rfl, is_empty, .nil⟩ hp
  refine ⟨as, s, g1, g2, fun hnone p => ?_⟩
  have hall : ∀ x ∈ objs, x = none := by
    intro x hx
    obtain ⟨i, hlt, rfl⟩ := List.getElem_of_mem hx
    have hrel := List.Forall₂.get hr hlt (hr.length_eq ▸ hlt)
    simp only [List.get_eq_getElem] at hrel
    cases hrel' : objs[i] with
    | none => rfl
    | some o =>
      exfalso
      rw [hrel'] at hrel
      generalize hb : (Spec.final [] ops)[i]'(hr.length_eq ▸ hlt) = b at hrel
      cases hrel with
      | object _ _ => exact hnone i ⟨_, by rw [List.getElem?_eq_getElem (hr.length_eq ▸ hlt), hb]⟩
  have hnil : objs.flatMap varCells = [] := by
    rw [List.flatMap_eq_nil_iff]
    intro x hx
    rw [hall x hx]
    rfl
  rw [hnil] at hi
  cases hb : s.heap.blocks p with
  | none => rfl
  | some b => exact absurd ((hi.mem p b).mp hb) (by simp)

/-- A program for which C159 holds, and what it gets: keys that share a bucket, longer and shorter values, a copy, the object appended to its
copy, NULL. -/
def sample : List Op :=
  [.create, .set 0 b!"A" b!"1", .set 0 b!"a" b!"22", .set 0 b!"!" b!"333", .set 0 b!"a" b!"4444", .set 0 b!"A" b!"", .copy 0, .clear 0, .set 0 b!"b" b!"x", .set 0 b!"a" b!"y",
    .append 0 1 false, .get 1 b!"a", .get 1 b!"b", .get 1 b!"A", .get 1 b!"c", .has 0 b!"A", .count 0, .count 1, .release 0, .release 1, .release 0, .copy 0, .release 2]

theorem short_of (t : Str) (h1 : ∀ c ∈ t, c ≠ 0) (h2 : t.length < 100) : Spec.Short t := ⟨h1, by omega⟩

example : Spec.Proper [] sample := by
  refine ⟨trivial, ⟨⟨_, rfl⟩, short_of _ (by decide) (by decide), short_of _ (by decide) (by decide)⟩, ⟨⟨_, rfl⟩, short_of _ (by decide) (by decide), short_of _ (by decide) (by decide)⟩,
    ⟨⟨_, rfl⟩, short_of _ (by decide) (by decide), short_of _ (by decide) (by decide)⟩, ⟨⟨_, rfl⟩, short_of _ (by decide) (by decide), short_of _ (by decide) (by decide)⟩,
    ⟨⟨_, rfl⟩, short_of _ (by decide) (by decide), short_of _ (by decide) (by decide)⟩, (by decide : 0 < 1), (by decide : 0 < 2),
    ⟨⟨_, rfl⟩, short_of _ (by decide) (by decide), short_of _ (by decide) (by decide)⟩, ⟨⟨_, rfl⟩, short_of _ (by decide) (by decide), short_of _ (by decide) (by decide)⟩,
    ⟨(by decide : 0 < 2), ⟨_, rfl⟩, by decide⟩, ⟨⟨_, rfl⟩, short_of _ (by decide) (by decide)⟩, ⟨⟨_, rfl⟩, short_of _ (by decide) (by decide)⟩,
    ⟨⟨_, rfl⟩, short_of _ (by decide) (by decide)⟩, ⟨⟨_, rfl⟩, short_of _ (by decide) (by decide)⟩, ⟨⟨_, rfl⟩, short_of _ (by decide) (by decide)⟩,
    ⟨_, rfl⟩, ⟨_, rfl⟩, (by decide : 0 < 2), (by decide : 1 < 2), (by decide : 0 < 2), (by decide : 0 < 2), (by decide : 2 < 3), trivial⟩

example : (match run sample ⟨Heap.empty, []⟩ with
    | .ok (as, s) => decide (as.filter (· ≠ .nothing) = [.text (some b!"y"), .text (some b!"x"), .text (some b!""), .text none, .flag false, .number 2, .number 4]) &&
        (List.range s.heap.next).all fun p => (s.heap.blocks p).isNone
    | _ => false) = true := by decide +kernel

/-! ### Where it does not hold -/

theorem enum_skip {f : Arg → Arg → Heap → Outcome Heap} {all : List BucketAt} {table : Ptr} {h : Heap} (hl : h.buckets table = .ok (all.map BucketAt.entry)) {b : BucketAt}
    {E B : List BucketAt} (hE : ∀ x ∈ E, x.pairs = []) (he : enumBucket f b.pairs.length (if b.pairs = [] then none else some b.array) h = .ub) :
    ∀ A : List BucketAt, all = A ++ (E ++ b :: B) → enumBuckets f table (E ++ b :: B).length A.length h = .ub := by
  induction E with
  | nil =>
    intro A e
    have hget : (all.map BucketAt.entry)[A.length]? = some (b.pairs.length, if b.pairs = [] then none else some b.array) := by rw [e]; simp [BucketAt.entry]
    rw [List.nil_append, List.length_cons, enumBuckets, hl, Outcome.bind_ok, hget]
    dsimp only
    rw [he]
    rfl
  | cons x E ih =>
    intro A e
    have hx := hE x (by simp)
    have hget : (all.map BucketAt.entry)[A.length]? = some (0, none) := by rw [e]; simp [BucketAt.entry, hx]
    rw [List.cons_append, List.length_cons, enumBuckets, hl, Outcome.bind_ok, hget]
    dsimp only
    rw [enumBucket, if_pos rfl, Outcome.bind_ok]
    have := ih (fun y hy => hE y (by simp [hy])) (A ++ [x]) (by rw [e]; simp)
    rw [show (A ++ [x]).length = A.length + 1 by simp] at this
    exact this

theorem first_used (l : List BucketAt) (h : ∃ b ∈ l, b.pairs ≠ []) : ∃ E b B, l = E ++ b :: B ∧ (∀ x ∈ E, x.pairs = []) ∧ b.pairs ≠ [] := by
  induction l with
  | nil => simp at h
  | cons x l ih =>
    by_cases hx : x.pairs = []
    · obtain ⟨E, b, B, e, h1, h2⟩ := ih (by
        obtain ⟨b, hb, h2⟩ := h
        rcases List.mem_cons.mp hb with rfl | hb
        · exact absurd hx h2
        · exact ⟨b, hb, h2⟩)
      refine ⟨x :: E, b, B, by rw [e]; rfl, fun y hy => ?_, h2⟩
      rcases List.mem_cons.mp hy with rfl | hy
      · exact hx
      · exact h1 y hy
    · exact ⟨[], x, l, rfl, by simp, hx⟩

theorem selfCopy_ub {h : Heap} {C : List (Ptr × Block)} {o : ObjAt} {flags : Nat} (hflags : flags ≠ 0) (hi : Is h (o.cells ++ C)) (hf : o.M.Fits)
    (hw : o.M.value.WF 32) {k v : Str} (hk : (k, v) ∈ o.M.value.enum) : copyAll h (some o.self) (some o.self) flags = .ub := by
  have h1 : Is h (o.M.cells ++ ((o.self, .object o.M.map) :: C)) := hi.perm (by unfold ObjAt.cells; same_parts)
  unfold copyAll enumerate
  rw [if_pos ⟨hflags, by decide⟩]
  dsimp only
  rw [object_ok hi (by simp [ObjAt.cells] : (o.self, Block.object o.M.map) ∈ _), Outcome.bind_ok]
  unfold smEnum
  rw [map_ok hi (by simp [ObjAt.cells, MapAt.cells] : (o.M.map, Block.map o.M.buckets.length o.M.table) ∈ _), Outcome.bind_ok]
  dsimp only
  obtain ⟨E, b, B, e, hE, hb⟩ := first_used o.M.buckets (by
    obtain ⟨bv, hbv, hm⟩ := List.mem_flatten.mp (show (k, v) ∈ (o.M.buckets.map BucketAt.value).flatten from hk)
    obtain ⟨b, hb, rfl⟩ := List.mem_map.mp hbv
    exact ⟨b, hb, fun hn => by simp [BucketAt.value, hn] at hm⟩)
  have hl : h.buckets o.M.table = .ok (o.M.buckets.map BucketAt.entry) :=
    buckets_ok h1 (by simp [MapAt.cells] : (o.M.table, Block.buckets (o.M.buckets.map BucketAt.entry)) ∈ _)
  have hsplit : Is h (b.cells ++ ((o.M.map, .map o.M.buckets.length o.M.table) :: (o.M.table, .buckets (o.M.buckets.map BucketAt.entry)) ::
      ((E.flatMap BucketAt.cells ++ B.flatMap BucketAt.cells) ++ ((o.self, .object o.M.map) :: C)))) :=
    h1.perm (((cells_split e).append_right _).trans (by same_parts))
  have := enum_skip (f := copyOverwrite (some o.self)) hl (b := b) (B := B) hE ?_ [] e
  · rw [e]; exact this
  obtain ⟨q, R, hq⟩ : ∃ q R, b.pairs = q :: R := by
    cases hp : b.pairs with
    | nil => exact absurd hp hb
    | cons q R => exact ⟨q, R, rfl⟩
  have harr : h.pairs b.array = .ok (b.pairs.map PairAt.slot) := pairs_ok hsplit (by simp [BucketAt.cells, hb] : (b.array, Block.pairs (b.pairs.map PairAt.slot)) ∈ _)
  have hcell : ∀ c ∈ q.cells, c ∈ b.cells := by
    intro c hc
    unfold BucketAt.cells
    rw [if_neg hb, hq]
    simp [hc]
  have hkey : h.text q.key = .ok q.k := text_ok hsplit (List.mem_append_left _ (hcell (q.key, Block.text q.keyRoom (some q.k)) (by simp [PairAt.cells])))
  have hval : h.text q.value = .ok q.v := text_ok hsplit (List.mem_append_left _ (hcell (q.value, Block.text q.valueRoom (some q.v)) (by simp [PairAt.cells])))
  have hfit := hf.2 b (by rw [e]; simp) q (by rw [hq]; simp)
  unfold enumBucket
  rw [if_neg (by simpa using hb), if_neg hb]
  dsimp only
  rw [hq, List.length_cons, enumPairs, harr, Outcome.bind_ok]
  have hslot : (b.pairs.map PairAt.slot)[0]? = some (some (q.key, q.value)) := by rw [hq]; rfl
  rw [hslot]
  dsimp only
  suffices hs : copyOverwrite (some o.self) (.held q.key) (.held q.value) h = .ub by rw [hs]; rfl
  unfold copyOverwrite set
  rw [object_ok hi (by simp [ObjAt.cells] : (o.self, Block.object o.M.map) ∈ _), Outcome.bind_ok]
  unfold smPut
  rw [show (Arg.held q.key).read h = .ok q.k from hkey, Outcome.bind_ok, show (Arg.held q.value).read h = .ok q.v from hval, Outcome.bind_ok]
  obtain ⟨A2, b2, B2, e2, hA2, hbo⟩ := bucketOf_ok h1 hf.1 (key := q.k)
  rw [hbo, Outcome.bind_ok]
  dsimp only
  -- it is the bucket of the key
  have hidx : E.length = (strHash q.k).toNat % 32 := by
    have hlen : o.M.value.buckets.length = 32 := hw.len
    have hlt : E.length < o.M.value.buckets.length := by
      show E.length < (o.M.buckets.map BucketAt.value).length
      rw [e]; simp
    have := hw.idx E.length hlt (q.k, q.v) (by
      show (q.k, q.v) ∈ (o.M.buckets.map BucketAt.value)[E.length]
      simp [e, BucketAt.value, hq])
    unfold StrMap.index at this
    rw [hlen] at this
    exact this.symm
  have hbb : b2 = b := by
    have x1 : o.M.buckets[E.length]? = some b := by rw [e]; simp
    have x2 : o.M.buckets[E.length]? = some b2 := by rw [hidx, ← hA2, e2]; simp
    exact Option.some.inj (x2.symm.trans x1)
  rw [hbb]
  have hfind : getPair h b.entry q.k = .ok (some 0) := by
    unfold getPair BucketAt.entry
    rw [if_neg (by simpa using hb), if_neg hb]
    dsimp only
    rw [harr, Outcome.bind_ok, hq, List.length_cons, findPair]
    have hs0 : ((q :: R).map PairAt.slot)[0]? = some (some (q.key, q.value)) := rfl
    rw [hs0]
    dsimp only
    rw [hkey, Outcome.bind_ok, if_pos rfl]
  rw [hfind, Outcome.bind_ok]
  have hentry : b.entry.2 = some b.array := by unfold BucketAt.entry; rw [if_neg hb]
  rw [hentry]
  dsimp only
  unfold replaceValue
  rw [harr, Outcome.bind_ok, hslot]
  dsimp only
  rw [hval, Outcome.bind_ok, len32_short hfit.2.2.2, if_neg (Nat.lt_irrefl _)]
  unfold strcpy
  rw [show (Arg.held q.value).read h = .ok q.v from hval, Outcome.bind_ok,
    hsplit.get (List.mem_append_left _ (hcell (q.value, Block.text q.valueRoom (some q.v)) (by simp [PairAt.cells])))]
  dsimp only
  rw [if_pos (.inl rfl)]

theorem run_append (ops : List Op) (op : Op) : ∀ (s : State) {as s'}, run ops s = .ok (as, s') → step s' op = .ub → run (ops ++ [op]) s = .ub := by
  induction ops with
  | nil =>
    intro s as s' h1 h2
    rw [show s' = s from by cases h1; rfl] at h2
    rw [List.nil_append, run, h2]
    rfl
  | cons o ops ih =>
    intro s as s' h1 h2
    rw [run] at h1
    rw [List.cons_append, run]
    cases hs : step s o with
    | ok r =>
      rw [hs, Outcome.bind_ok] at h1
      rw [Outcome.bind_ok]
      cases hr : run ops r.2 with
      | ok t =>
        rw [hr] at h1
        rw [ih r.2 (as := t.1) (s' := t.2) hr (by
          have : t.2 = s' := by
            have := congrArg (fun x : Outcome (List Answer × State) => match x with | .ok y => some y.2 | _ => none) h1
            exact Option.some.inj this
          rw [this]
          exact h2)]
        rfl
      | abort => rw [hr] at h1; cases h1
      | ub => rw [hr] at h1; cases h1
    | abort => rw [hs] at h1; cases h1
    | ub => rw [hs] at h1; cases h1

/-- C159 does not hold when an object is appended to itself: whatever the program did before, if the object has a key, a value is copied onto
itself with `strcpy`, which C does not define. -/
theorem C159_self_append_false (ops : List Op) (hp : Spec.Proper [] ops) (i : Nat) (m : AMap) (hm : (Spec.final [] ops)[i]? = some (some m)) (k v : Str) (hk : m k = some v)
    (overwrite : Bool) : run (ops ++ [.append i i overwrite]) ⟨Heap.empty, []⟩ = .ub := by
  obtain ⟨as, s, g1, g2, objs, hv, hi, hr⟩ := run_ok ops (s := ⟨Heap.empty, []⟩) (t := []) ⟨[], rfl, is_empty, .nil⟩ hp
  refine run_append ops _ _ g1 ?_
  obtain ⟨A, x, B, A', B', e1, e2, e3, e4, e5, e6, e7⟩ := forall₂_split hr hm
  have h8 : s.vars[i]? = some (x.map ObjAt.self) := by
    rw [hv, e1, List.map_append, List.map_cons, List.getElem?_append_right (by simp [e3])]
    simp [e3]
  rw [e1] at hi
  have hi := hi.perm (mid_perm A B x)
  cases e5 with
  | @object o a hf hrep =>
  unfold step append
  dsimp only
  rw [h8]
  dsimp only [Outcome.bind]
  rw [show Option.map ObjAt.self (some o) = some o.self from rfl]
  have hnk : NoNul k := Classical.byContradiction fun hn => by
    have := hrep.2 k hn
    rw [hk] at this
    cases this
  rw [selfCopy_ub (k := k) (v := v) (by cases overwrite <;> decide) hi hf hrep.1.1 ((Properties.mem_enumerate hrep.1.1 k v).mpr ⟨hnk, by rw [hrep.1.2 k hnk, hk]⟩)]
  rfl

example : Spec.Proper [] [.create, .set 0 b!"key" b!"value"] ∧ (Spec.final [] [.create, .set 0 b!"key" b!"value"])[0]? = some (some (AMap.empty.set b!"key" b!"value")) ∧
    AMap.empty.set b!"key" b!"value" b!"key" = some b!"value" :=
  ⟨⟨trivial, ⟨⟨_, rfl⟩, short_of _ (by decide) (by decide), short_of _ (by decide) (by decide)⟩, trivial⟩, rfl, rfl⟩

/-- C159 does not hold for values of 2³² - 1 bytes or more: the block that is taken for such a value is too small. -/
theorem C159_long_false (k v : Str) (hk : Spec.Short k) (hv : NoNul v) (hl : 4294967295 ≤ v.length) : run [.create, .set 0 k v] ⟨Heap.empty, []⟩ = .ub := by
  obtain ⟨o, c1, c2, c3, c4⟩ := create_ok is_empty
  refine run_append [.create] _ _ (as := [.nothing]) (s' := ⟨(create Heap.empty).2, [some (create Heap.empty).1]⟩) rfl ?_
  unfold step
  dsimp only
  rw [show ([some (create Heap.empty).1] : List (Option Ptr))[0]? = some (some (create Heap.empty).1) from rfl]
  dsimp only [Outcome.bind]
  suffices h : set (create Heap.empty).2 (some (create Heap.empty).1) (.given k) (.given v) = .ub by rw [h]; rfl
  rw [c1]
  generalize (create Heap.empty).2 = h at c2
  unfold set
  rw [object_ok c2 (by simp [ObjAt.cells] : (o.self, Block.object o.M.map) ∈ _), Outcome.bind_ok]
  have h1 : Is h (o.M.cells ++ [(o.self, .object o.M.map)]) := c2.perm (by unfold ObjAt.cells; same_parts)
  unfold smPut
  rw [show (Arg.given k).read h = .ok k from by show Outcome.ok (cstr k) = _; rw [cstr_of_noNul hk.1], Outcome.bind_ok,
    show (Arg.given v).read h = .ok v from by show Outcome.ok (cstr v) = _; rw [cstr_of_noNul hv], Outcome.bind_ok]
  obtain ⟨A, b, B, e, hA, hbo⟩ := bucketOf_ok h1 c3.1 (key := k)
  rw [hbo, Outcome.bind_ok]
  dsimp only
  have hb : b.pairs = [] := by
    have x1 : o.M.value.buckets[A.length]? = some b.value := by
      show (o.M.buckets.map BucketAt.value)[A.length]? = _
      rw [e]; simp
    rw [c4] at x1
    have x2 : b.value ∈ Properties.create.buckets := List.mem_of_getElem? x1
    have x3 : b.value = [] := (List.mem_replicate.mp (show b.value ∈ List.replicate 32 [] from x2)).2
    unfold BucketAt.value at x3
    exact List.map_eq_nil_iff.mp x3
  have hentry : b.entry = (0, none) := by unfold BucketAt.entry; rw [hb]; rfl
  rw [hentry, getPair, if_pos rfl, Outcome.bind_ok]
  dsimp only
  unfold addPair
  dsimp only
  rw [growArray, if_pos rfl, Outcome.bind_ok]
  dsimp only
  generalize hn : h.next = n
  have hn2 : (h.alloc (.text (room k) none)).next = n + 1 := by rw [← hn]; rfl
  have hn3 : ((h.alloc (.text (room k) none)).alloc (.text (room v) none)).next = n + 2 := by rw [← hn]; rfl
  rw [hn2, hn3]
  have hi2 := ((h1.alloc (.text (room k) none)).alloc (.text (room v) none)).alloc (.pairs [none])
  rw [hn2, hn3, hn] at hi2
  have hi3 : Is (((h.alloc (.text (room k) none)).alloc (.text (room v) none)).alloc (.pairs [none]))
      ((o.M.table, .buckets (o.M.buckets.map BucketAt.entry)) :: ((n + 2, .pairs [none]) :: (n + 1, .text (room v) none) :: (n, .text (room k) none) ::
        ((o.M.map, .map o.M.buckets.length o.M.table) :: (o.M.buckets.flatMap BucketAt.cells ++ [(o.self, .object o.M.map)])))) :=
    hi2.perm (by unfold MapAt.cells; same_parts)
  have hi4 := hi3.put (.buckets ((o.M.buckets.map BucketAt.entry).set A.length (1, some (n + 2))))
  rw [pairs_ok hi4 (by simp : (n + 2, Block.pairs [none]) ∈ _), Outcome.bind_ok, if_neg (by decide)]
  have hi5 := (hi4.perm (List.Perm.swap _ _ _)).put (.pairs (([none] : List (Option (Ptr × Ptr))).set (1 - 1) (some (n, n + 1))))
  have hi6 := hi5.perm (D := (n, .text (room k) none) :: ((n + 1, .text (room v) none) :: (n + 2, .pairs (([none] : List (Option (Ptr × Ptr))).set (1 - 1) (some (n, n + 1)))) ::
    (o.M.table, .buckets ((o.M.buckets.map BucketAt.entry).set A.length (1, some (n + 2)))) ::
    ((o.M.map, .map o.M.buckets.length o.M.table) :: (o.M.buckets.flatMap BucketAt.cells ++ [(o.self, .object o.M.map)])))) (by same_parts)
  obtain ⟨h7, f1, f2⟩ := strcpy_ok (a := .given k) (s := k) hi6 (.inl ⟨k, rfl, cstr_of_noNul hk.1⟩) (by rw [room_short hk]; omega)
  rw [f1, Outcome.bind_ok]
  unfold strcpy
  rw [show (Arg.given v).read h7 = .ok v from by show Outcome.ok (cstr v) = _; rw [cstr_of_noNul hv], Outcome.bind_ok,
    f2.get (by simp : (n + 1, Block.text (room v) none) ∈ _)]
  dsimp only
  rw [if_pos]
  right
  unfold room len32
  omega

example : ∃ v : Str, NoNul v ∧ 4294967295 ≤ v.length :=
  ⟨List.replicate 4294967295 120, fun c hc => by rw [(List.mem_replicate.mp hc).2]; decide, Nat.le_of_eq List.length_replicate.symm⟩

/-- C159 does not hold for callbacks of `trax_properties_enumerate` that add a key to the object: when the key goes to the bucket that is
being read, `realloc` may move the pairs, and the next pair is read from the released block. -/
theorem C159_enumerate_false :
    (match run [.create, .set 0 b!"A" b!"1", .set 0 b!"a" b!"2"] ⟨Heap.empty, []⟩ with
      | .ok (_, s) =>
        match s.vars with
        | [p] => match enumerate s.heap p (fun _ _ h => set h p (.given b!"!") (.given b!"3")) with | .ub => true | _ => false
        | _ => false
      | _ => false) = true := by decide +kernel

/-- The callback may add a key that goes elsewhere, or change values. -/
example :
    (match run [.create, .set 0 b!"A" b!"1", .set 0 b!"a" b!"2"] ⟨Heap.empty, []⟩ with
      | .ok (_, s) =>
        match s.vars with
        | [p] => match enumerate s.heap p (fun k _ h => set h p k (.given b!"a longer value")) with | .ok _ => true | _ => false
        | _ => false
      | _ => false) = true := by decide +kernel

end MapMem
end Trax
