import Verif.Lemmas.MapMemory

/-! Changing property objects on the heap. -/

namespace Trax
namespace MapMem

/-- The two lists have the same parts. -/
macro "same_parts" : tactic => `(tactic|
  (refine List.perm_iff_count.mpr fun x => ?_
   simp only [List.count_append, List.count_cons, List.count_nil, List.append_assoc, List.cons_append, List.nil_append]
   omega))

theorem text_ok {h : Heap} {C : List (Ptr × Block)} {p size : Nat} {s : Str} (hi : Is h C) (hm : (p, Block.text size (some s)) ∈ C) : h.text p = .ok s := by
  unfold Heap.text
  rw [hi.get hm]

theorem pairs_ok {h : Heap} {C : List (Ptr × Block)} {p : Nat} {l : List (Option (Ptr × Ptr))} (hi : Is h C) (hm : (p, Block.pairs l) ∈ C) : h.pairs p = .ok l := by
  unfold Heap.pairs
  rw [hi.get hm]

theorem buckets_ok {h : Heap} {C : List (Ptr × Block)} {p : Nat} {l : List (Nat × Option Ptr)} (hi : Is h C) (hm : (p, Block.buckets l) ∈ C) : h.buckets p = .ok l := by
  unfold Heap.buckets
  rw [hi.get hm]

theorem map_ok {h : Heap} {C : List (Ptr × Block)} {p n b : Nat} (hi : Is h C) (hm : (p, Block.map n b) ∈ C) : h.map p = .ok (n, b) := by
  unfold Heap.map
  rw [hi.get hm]

theorem object_ok {h : Heap} {C : List (Ptr × Block)} {p m : Nat} (hi : Is h C) (hm : (p, Block.object m) ∈ C) : h.object (some p) = .ok m := by
  unfold Heap.object
  dsimp only
  rw [hi.get hm]

theorem len32_short {s : Str} (h : Spec.Short s) : len32 s = s.length := Nat.mod_eq_of_lt (Nat.lt_trans h.2 (by decide))

theorem room_short {s : Str} (h : Spec.Short s) : room s = s.length + 1 := by
  unfold room
  rw [len32_short h]
  have := h.2
  exact Nat.mod_eq_of_lt (by omega)

/-- The blocks of the other pairs, and the key of this one. -/
def around (X : List PairAt) (q : PairAt) (Y : List PairAt) : List (Ptr × Block) :=
  X.flatMap PairAt.cells ++ (q.key, .text q.keyRoom (some q.k)) :: Y.flatMap PairAt.cells

theorem bucket_split {b : BucketAt} {X Y : List PairAt} {q : PairAt} (e : b.pairs = X ++ q :: Y) :
    b.cells.Perm ((q.value, .text q.valueRoom (some q.v)) :: (b.array, .pairs (b.pairs.map PairAt.slot)) :: around X q Y) := by
  unfold BucketAt.cells around
  rw [if_neg (by rw [e]; simp), e, List.flatMap_append, List.flatMap_cons]
  unfold PairAt.cells
  same_parts

theorem replaceValue_ok {h : Heap} {D : List (Ptr × Block)} {b : BucketAt} {X Y : List PairAt} {q : PairAt} {a : Arg} {v : Str} (e : b.pairs = X ++ q :: Y)
    (hi : Is h (b.cells ++ D)) (hf : q.Fits) (ho : Outside D a v) (hv : Spec.Short v) :
    ∃ h' q', replaceValue h b.array X.length a v = .ok h' ∧ q'.k = q.k ∧ q'.v = v ∧ q'.Fits ∧ Is h' ((BucketAt.mk b.array (X ++ q' :: Y)).cells ++ D) := by
  have hi1 : Is h ((q.value, .text q.valueRoom (some q.v)) :: ((b.array, .pairs (b.pairs.map PairAt.slot)) :: (around X q Y ++ D))) :=
    hi.perm ((bucket_split e).append_right D)
  have hslot : (b.pairs.map PairAt.slot)[X.length]? = some (some (q.key, q.value)) := by rw [e]; simp [PairAt.slot]
  unfold replaceValue
  rw [pairs_ok hi1 (by simp : (b.array, Block.pairs (b.pairs.map PairAt.slot)) ∈ _), Outcome.bind_ok, hslot]
  dsimp only
  rw [text_ok hi1 (by simp : (q.value, Block.text q.valueRoom (some q.v)) ∈ _), Outcome.bind_ok, len32_short hv]
  by_cases hl : q.v.length < v.length
  · rw [if_pos hl]
    unfold reallocText
    rw [text_ok hi1 (by simp : (q.value, Block.text q.valueRoom (some q.v)) ∈ _), Outcome.bind_ok, room_short hv, if_neg (by omega)]
    have hi2 := hi1.alloc (.text (v.length + 1) (some q.v))
    have hi3 : Is (h.alloc (.text (v.length + 1) (some q.v)))
        ((q.value, .text q.valueRoom (some q.v)) :: ((b.array, .pairs (b.pairs.map PairAt.slot)) :: (h.next, .text (v.length + 1) (some q.v)) :: (around X q Y ++ D))) :=
      hi2.perm (by same_parts)
    obtain ⟨f1, hi4⟩ := hi3.free
    rw [f1]
    dsimp only [Outcome.map, Outcome.bind]
    have hi5 := hi4.put (.pairs ((b.pairs.map PairAt.slot).set X.length (some (q.key, h.next))))
    have hi6 := hi5.perm (List.Perm.swap _ _ _)
    obtain ⟨h', g1, g2⟩ := strcpy_ok hi6 (ho.mono fun c hc => by simp [hc]) (Nat.lt_succ_self _)
    refine ⟨h', { q with value := h.next, valueRoom := v.length + 1, v := v }, g1, rfl, rfl, ⟨hf.1, Nat.lt_succ_self _, hf.2.2.1, hv⟩, ?_⟩
    refine g2.perm ?_
    have hs : (b.pairs.map PairAt.slot).set X.length (some (q.key, h.next)) =
        (X ++ ({ q with value := h.next, valueRoom := v.length + 1, v := v } : PairAt) :: Y).map PairAt.slot := by
      rw [e, List.map_append, List.map_cons, List.set_append_right _ _ (by simp)]
      simp [PairAt.slot]
    rw [hs]
    exact ((bucket_split (b := ⟨b.array, X ++ ({ q with value := h.next, valueRoom := v.length + 1, v := v } : PairAt) :: Y⟩) rfl).append_right D).symm
  · rw [if_neg hl]
    obtain ⟨h', g1, g2⟩ := strcpy_ok hi1 (ho.mono fun c hc => by simp [hc]) (Nat.lt_of_le_of_lt (Nat.not_lt.mp hl) hf.2.1)
    refine ⟨h', { q with v := v }, g1, rfl, rfl, ⟨hf.1, Nat.lt_of_le_of_lt (Nat.not_lt.mp hl) hf.2.1, hf.2.2.1, hv⟩, ?_⟩
    refine g2.perm ?_
    have hs : b.pairs.map PairAt.slot = (X ++ ({ q with v := v } : PairAt) :: Y).map PairAt.slot := by rw [e]; simp [PairAt.slot]
    rw [hs]
    exact ((bucket_split (b := ⟨b.array, X ++ ({ q with v := v } : PairAt) :: Y⟩) rfl).append_right D).symm

theorem addPair_ok {h : Heap} {D : List (Ptr × Block)} {b : BucketAt} {table index : Nat} {list : List (Nat × Option Ptr)} {key value : Arg} {k v : Str}
    (hi : Is h ((table, .buckets list) :: (b.cells ++ D))) (hk : Outside D key k) (hv : Outside D value v) (sk : Spec.Short k) (sv : Spec.Short v) :
    ∃ h' array q, addPair h index table list b.entry key value k v = .ok h' ∧ q.k = k ∧ q.v = v ∧ q.Fits ∧
      Is h' ((table, .buckets (list.set index (BucketAt.entry ⟨array, b.pairs ++ [q]⟩))) :: ((BucketAt.mk array (b.pairs ++ [q])).cells ++ D)) := by
  have hi1 := (hi.alloc (.text (room k) none)).alloc (.text (room v) none)
  generalize hn1 : h.next = n1 at hi1
  have hn2 : (h.alloc (.text (room k) none)).next = n1 + 1 := by rw [← hn1]; rfl
  rw [hn2] at hi1
  unfold addPair
  dsimp only
  rw [hn2, hn1]
  generalize (h.alloc (.text (room k) none)).alloc (.text (room v) none) = h1 at hi1
  -- the array
  have hgrown : ∃ array h2, growArray h1 b.entry = .ok (array, b.pairs.length + 1, h2) ∧
      Is h2 ((table, .buckets list) :: ((array, .pairs (b.pairs.map PairAt.slot ++ [none])) :: (n1 + 1, .text (room v) none) :: (n1, .text (room k) none) ::
        (b.pairs.flatMap PairAt.cells ++ D))) := by
    unfold growArray BucketAt.entry
    by_cases hb : b.pairs = []
    · refine ⟨h1.next, h1.alloc (.pairs [none]), by simp [hb], ?_⟩
      have := hi1.alloc (.pairs [none])
      refine this.perm ?_
      unfold BucketAt.cells
      rw [if_pos hb, hb]
      simp only [List.map_nil, List.nil_append, List.flatMap_nil]
      same_parts
    · rw [if_neg (by simpa using hb), if_neg hb]
      dsimp only
      have hc : b.cells = (b.array, .pairs (b.pairs.map PairAt.slot)) :: b.pairs.flatMap PairAt.cells := by unfold BucketAt.cells; rw [if_neg hb]
      rw [hc] at hi1
      unfold reallocPairs
      rw [pairs_ok hi1 (by simp : (b.array, Block.pairs (b.pairs.map PairAt.slot)) ∈ _), Outcome.bind_ok]
      have htake : (b.pairs.map PairAt.slot ++ List.replicate (b.pairs.length + 1) none).take (b.pairs.length + 1) = b.pairs.map PairAt.slot ++ [none] := by
        rw [List.take_append, List.length_map, Nat.add_sub_cancel_left, List.take_of_length_le (by simp)]
        simp [List.take_replicate]
      rw [htake]
      have hi2 := hi1.alloc (.pairs (b.pairs.map PairAt.slot ++ [none]))
      have hi3 : Is (h1.alloc (.pairs (b.pairs.map PairAt.slot ++ [none]))) ((b.array, .pairs (b.pairs.map PairAt.slot)) :: ((table, .buckets list) ::
          ((h1.next, .pairs (b.pairs.map PairAt.slot ++ [none])) :: (n1 + 1, .text (room v) none) :: (n1, .text (room k) none) :: (b.pairs.flatMap PairAt.cells ++ D)))) :=
        hi2.perm (by same_parts)
      obtain ⟨f1, f2⟩ := hi3.free
      rw [f1]
      exact ⟨h1.next, _, rfl, f2⟩
  obtain ⟨array, h2, e2, hi2⟩ := hgrown
  rw [e2, Outcome.bind_ok]
  dsimp only
  have hi3 := hi2.put (.buckets (list.set index (b.pairs.length + 1, some array)))
  have hi4 := hi3.perm (List.Perm.swap _ _ _)
  rw [pairs_ok hi4 (by simp : (array, Block.pairs (b.pairs.map PairAt.slot ++ [none])) ∈ _), Outcome.bind_ok, if_neg (by simp)]
  have hi5 := hi4.put (.pairs ((b.pairs.map PairAt.slot ++ [none]).set (b.pairs.length + 1 - 1) (some (n1, n1 + 1))))
  have hi6 : Is _ ((n1, .text (room k) none) :: ((array, .pairs ((b.pairs.map PairAt.slot ++ [none]).set (b.pairs.length + 1 - 1) (some (n1, n1 + 1)))) ::
      (table, .buckets (list.set index (b.pairs.length + 1, some array))) :: (n1 + 1, .text (room v) none) :: (b.pairs.flatMap PairAt.cells ++ D))) :=
    hi5.perm (by same_parts)
  obtain ⟨h7, g1, hi7⟩ := strcpy_ok hi6 (hk.mono fun c hc => by simp [hc]) (by rw [room_short sk]; exact Nat.lt_succ_self _)
  rw [g1, Outcome.bind_ok]
  have hi8 : Is h7 ((n1 + 1, .text (room v) none) :: ((n1, .text (room k) (some k)) :: (array, .pairs ((b.pairs.map PairAt.slot ++ [none]).set (b.pairs.length + 1 - 1) (some (n1, n1 + 1)))) ::
      (table, .buckets (list.set index (b.pairs.length + 1, some array))) :: (b.pairs.flatMap PairAt.cells ++ D))) :=
    hi7.perm (by same_parts)
  obtain ⟨h9, g2, hi9⟩ := strcpy_ok hi8 (hv.mono fun c hc => by simp [hc]) (by rw [room_short sv]; exact Nat.lt_succ_self _)
  refine ⟨h9, array, ⟨n1, n1 + 1, room k, room v, k, v⟩, g2, rfl, rfl,
    ⟨by rw [room_short sk]; exact Nat.lt_succ_self _, by rw [room_short sv]; exact Nat.lt_succ_self _, sk, sv⟩, ?_⟩
  have hs : (b.pairs.map PairAt.slot ++ [none]).set (b.pairs.length + 1 - 1) (some (n1, n1 + 1)) = (b.pairs ++ [(⟨n1, n1 + 1, room k, room v, k, v⟩ : PairAt)]).map PairAt.slot := by
    rw [List.map_append, List.set_append_right _ _ (by simp)]
    simp [PairAt.slot]
  refine hi9.perm ?_
  rw [hs]
  unfold BucketAt.cells BucketAt.entry
  rw [if_neg (by simp), if_neg (by simp), List.length_append, List.length_singleton, List.flatMap_append]
  simp only [List.flatMap_cons, List.flatMap_nil, PairAt.cells]
  same_parts

theorem modify_mid {α : Type} (A : List α) (b : α) (B : List α) (f : α → α) : (A ++ b :: B).modify A.length f = A ++ f b :: B := by
  induction A with
  | nil => rfl
  | cons a A ih => simpa using ih

theorem smPut_ok {h : Heap} {C : List (Ptr × Block)} {M : MapAt} {key value : Arg} {k v : Str} (hi : Is h (M.cells ++ C)) (hM : M.Fits) (hk : Outside C key k)
    (hv : Outside C value v) (sk : Spec.Short k) (sv : Spec.Short v) :
    ∃ h' bs, smPut h M.map key value = .ok h' ∧ Is h' ((MapAt.mk M.map M.table bs).cells ++ C) ∧ (MapAt.mk M.map M.table bs).Fits ∧
      (MapAt.mk M.map M.table bs).value = M.value.put k v := by
  obtain ⟨A, b, B, hb, hA, hbo⟩ := bucketOf_ok hi hM.1 (key := k)
  have hput : ∀ b' : BucketAt, b'.value = bucketPut b.value k v → (MapAt.mk M.map M.table (A ++ b' :: B)).value = M.value.put k v := by
    intro b' e
    unfold StrMap.put StrMap.index MapAt.value
    rw [cstr_of_noNul sk.1, cstr_of_noNul sv.1]
    dsimp only
    rw [List.length_map, hM.1, ← hA, hb, List.map_append, List.map_append, List.map_cons, List.map_cons, e]
    congr 1
    rw [show A.length = (A.map BucketAt.value).length by simp]
    rw [modify_mid]
  have hlen : ∀ b' : BucketAt, (A ++ b' :: B).length = 32 := by
    intro b'
    have := hM.1
    rw [hb] at this
    simpa using this
  have hfits : ∀ b' : BucketAt, (∀ q ∈ b'.pairs, q.Fits) → (MapAt.mk M.map M.table (A ++ b' :: B)).Fits := by
    intro b' hq
    refine ⟨hlen b', fun c hc => ?_⟩
    rcases List.mem_append.mp hc with hc | hc
    · exact hM.2 c (by rw [hb]; simp [hc])
    · rcases List.mem_cons.mp hc with rfl | hc
      · exact hq
      · exact hM.2 c (by rw [hb]; simp [hc])
  have hbf : ∀ q ∈ b.pairs, q.Fits := hM.2 b (by rw [hb]; simp)
  have hperm := (cells_split hb).append_right C
  have hi' : Is h (b.cells ++ ((M.map, .map M.buckets.length M.table) :: (M.table, .buckets (M.buckets.map BucketAt.entry)) ::
      ((A.flatMap BucketAt.cells ++ B.flatMap BucketAt.cells) ++ C))) := hi.perm (hperm.trans (by same_parts))
  unfold smPut
  rw [hk.read hi (fun c hc => by simp [hc]), Outcome.bind_ok, hv.read hi (fun c hc => by simp [hc]), Outcome.bind_ok, hbo, Outcome.bind_ok]
  dsimp only
  rcases getPair_ok hi' (key := k) with ⟨X, q, Y, e, hq, hX, hg⟩ | ⟨hX, hg⟩
  · rw [hg, Outcome.bind_ok]
    have he : b.entry.2 = some b.array := by unfold BucketAt.entry; rw [if_neg (by rw [e]; simp)]
    dsimp only
    rw [he]
    dsimp only
    obtain ⟨h', q', g1, g2, g3, g4, g5⟩ := replaceValue_ok e hi' (hbf q (by rw [e]; simp)) (hv.mono fun c hc => by simp [hc]) sv
    refine ⟨h', A ++ ⟨b.array, X ++ q' :: Y⟩ :: B, g1, ?_, hfits _ ?_, hput _ ?_⟩
    · refine g5.perm (List.Perm.trans ?_ ((cells_split (M := ⟨M.map, M.table, A ++ ⟨b.array, X ++ q' :: Y⟩ :: B⟩) rfl).append_right C).symm)
      dsimp only
      have h1 : M.buckets.map BucketAt.entry = (A ++ (⟨b.array, X ++ q' :: Y⟩ : BucketAt) :: B).map BucketAt.entry := by
        rw [hb]
        simp [BucketAt.entry, e]
      rw [hM.1, hlen, h1]
      same_parts
    · intro x hx
      rcases List.mem_append.mp hx with hx | hx
      · exact hbf x (by rw [e]; simp [hx])
      · rcases List.mem_cons.mp hx with rfl | hx
        · exact g4
        · exact hbf x (by rw [e]; simp [hx])
    · unfold BucketAt.value
      rw [e, bucketPut_found hq hX]
      simp [g2, g3, hq]
  · rw [hg, Outcome.bind_ok]
    dsimp only
    have hi2 : Is h ((M.table, .buckets (M.buckets.map BucketAt.entry)) :: (b.cells ++ ((M.map, .map M.buckets.length M.table) ::
      ((A.flatMap BucketAt.cells ++ B.flatMap BucketAt.cells) ++ C)))) := hi'.perm (by same_parts)
    obtain ⟨h', array, q, g1, g2, g3, g4, g5⟩ := addPair_ok (index := A.length) hi2 (hk.mono fun c hc => by simp [hc]) (hv.mono fun c hc => by simp [hc]) sk sv
    refine ⟨h', A ++ ⟨array, b.pairs ++ [q]⟩ :: B, g1, ?_, hfits _ ?_, hput _ ?_⟩
    · refine g5.perm (List.Perm.trans ?_ ((cells_split (M := ⟨M.map, M.table, A ++ ⟨array, b.pairs ++ [q]⟩ :: B⟩) rfl).append_right C).symm)
      dsimp only
      have h1 : (M.buckets.map BucketAt.entry).set A.length (BucketAt.entry ⟨array, b.pairs ++ [q]⟩) = (A ++ (⟨array, b.pairs ++ [q]⟩ : BucketAt) :: B).map BucketAt.entry := by
        rw [hb, List.map_append, List.map_append, List.set_append_right _ _ (by simp)]
        simp
      rw [hM.1, hlen, h1]
      same_parts
    · intro x hx
      rcases List.mem_append.mp hx with hx | hx
      · exact hbf x hx
      · rw [List.mem_singleton.mp hx]; exact g4
    · unfold BucketAt.value
      rw [bucketPut_absent hX]
      simp [g2, g3]

end MapMem
end Trax
