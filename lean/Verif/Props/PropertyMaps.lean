import Verif.Lemmas.PropertyMaps
import Verif.Props.Values

/-!
# Property theorem C133: C++ properties and standard containers
-/

namespace Trax

open Cpp

/-- The entries of a `std::map`: each key once, in the order of the keys. -/
def IsMap (m : List (Str × Str)) : Prop := m.Pairwise fun a b => Environ.strLt a.1 b.1 = true

/-- **C133, `from_map`, for strings without NUL bytes** (and programs like those of C64). Whatever a program has done before: afterwards the object has the value of the map
for every key of the map and its former value for every other key, and every other object reads as before. -/
theorem C133_from_map_partial (ops : List PropsOp) (s : Cpp.Spec.Values Trax.Spec.AMap)
    (hs : Cpp.Spec.propsRun ops .start = some s) (hc : Cpp.Spec.PropsCarefulRun ops .start) (x t : Nat) (b : Trax.Spec.AMap)
    (hx : s.vars x = some (.val t b)) (given : List (Str × Str)) (hg : IsMap given) (hn : ∀ e ∈ given, NoNul e.1 ∧ NoNul e.2) :
    ∃ m m', runPropsOps ops .start = .ok m ∧ m.fromMap x given = .ok m' ∧
      (∀ k v, (k, v) ∈ given → m'.getProperty x k = .ok (some v)) ∧
      (∀ k, NoNul k → (∀ v, (k, v) ∉ given) → m'.getProperty x k = .ok (b k)) ∧
      ∀ y t c, y ≠ x → s.vars y = some (.val t c) → ∀ k, NoNul k → m'.getProperty y k = .ok (c k) := by
  obtain ⟨m, v, e, h⟩ := VInv.propsRun ops VInv.start hc hs
  obtain ⟨m', s', v', t', e', h', hx', hy'⟩ := VInv.fromMap given h hx hn
  refine ⟨m, m', e, e', fun k w hw => ?_, fun k hk hw => ?_, fun y t c hy hv k hk => ?_⟩
  · rw [h'.read hx' k (hn _ hw).1, foldl_amap_mem given b k w (sorted_nodup hg) hw]
  · rw [h'.read hx' k hk, foldl_amap_other given b k]
    intro hm
    obtain ⟨⟨k', w⟩, h1, rfl⟩ := List.mem_map.1 hm
    exact hw w h1
  · exact h'.read (by rw [hy' y hy]; exact hv) k hk

/-- **C133, `to_map`** (for programs like those of C64). The map gets exactly the properties of the object, and what it had under
other keys stays. -/
theorem C133_to_map_partial (ops : List PropsOp) (s : Cpp.Spec.Values Trax.Spec.AMap)
    (hs : Cpp.Spec.propsRun ops .start = some s) (hc : Cpp.Spec.PropsCarefulRun ops .start) (x t : Nat) (b : Trax.Spec.AMap)
    (hx : s.vars x = some (.val t b)) (into : List (Str × Str)) (hi : IsMap into) :
    ∃ m r, runPropsOps ops .start = .ok m ∧ m.toMap x into = .ok r ∧ IsMap r ∧
      ∀ k v, (k, v) ∈ r ↔ (NoNul k ∧ b k = some v) ∨ (¬ (NoNul k ∧ (b k).isSome) ∧ (k, v) ∈ into) := by
  obtain ⟨m, v, e, h⟩ := VInv.propsRun ops VInv.start hc hs
  obtain ⟨l, el, hd, hl⟩ := h.shown hx
  refine ⟨m, Environ.assign into l, e, ?_, Environ.assign_sorted hi l, fun k w => ?_⟩
  · simp only [Mem.toMap, el]
    rfl
  · rw [Environ.mem_assign l hi, lastGiven_nodup hd, hl]
    refine or_congr Iff.rfl (and_congr ?_ Iff.rfl)
    constructor
    · rintro hno ⟨hk, hb⟩
      obtain ⟨u, hu⟩ := Option.isSome_iff_exists.1 hb
      exact hno (k, u) ((hl k u).2 ⟨hk, hu⟩) rfl
    · rintro hno ⟨k', u⟩ hp rfl
      obtain ⟨h1, h2⟩ := (hl k' u).1 hp
      exact hno ⟨h1, by rw [h2]; rfl⟩

/-- **C133, round trip, for strings without NUL bytes.** A map given to an empty object comes back unchanged. -/
theorem C133_map_round_trip_partial (ops : List PropsOp) (s : Cpp.Spec.Values Trax.Spec.AMap)
    (hs : Cpp.Spec.propsRun ops .start = some s) (hc : Cpp.Spec.PropsCarefulRun ops .start) (x t : Nat)
    (hx : s.vars x = some (.val t Trax.Spec.AMap.empty)) (given : List (Str × Str)) (hg : IsMap given) (hn : ∀ e ∈ given, NoNul e.1 ∧ NoNul e.2) :
    ∃ m m', runPropsOps ops .start = .ok m ∧ m.fromMap x given = .ok m' ∧ m'.toMap x [] = .ok given := by
  obtain ⟨m, v, e, h⟩ := VInv.propsRun ops VInv.start hc hs
  obtain ⟨m', s', v', t', e', h', hx', hy'⟩ := VInv.fromMap given h hx hn
  obtain ⟨l, el, hd, hl⟩ := h'.shown hx'
  refine ⟨m, m', e, e', ?_⟩
  have : Environ.assign [] l = given := by
    refine sorted_ext (Environ.assign_sorted Environ.sorted_nil l) hg fun k w => ?_
    rw [Environ.mem_assign l Environ.sorted_nil, lastGiven_nodup hd, hl]
    constructor
    · rintro (⟨hk, hb⟩ | ⟨-, h⟩)
      · by_cases hm : k ∈ given.map Prod.fst
        · obtain ⟨⟨k', u⟩, h1, rfl⟩ := List.mem_map.1 hm
          rw [foldl_amap_mem given _ k' u (sorted_nodup hg) h1] at hb
          cases hb
          exact h1
        · rw [foldl_amap_other given _ k hm] at hb
          cases hb
      · simp at h
    · intro hm
      exact .inl ⟨(hn _ hm).1, foldl_amap_mem given _ k w (sorted_nodup hg) hm⟩
  simp only [Mem.toMap, el, Outcome.map]
  exact congrArg _ this

/-- **C133, `to_vector` and `operator<<`** (for programs like those of C64). The properties are listed in some order, each exactly once; the vector gets their keys
after what it has, and the stream one line `key=value` for each in the same order. -/
theorem C133_listing_partial (ops : List PropsOp) (s : Cpp.Spec.Values Trax.Spec.AMap)
    (hs : Cpp.Spec.propsRun ops .start = some s) (hc : Cpp.Spec.PropsCarefulRun ops .start) (x t : Nat) (b : Trax.Spec.AMap)
    (hx : s.vars x = some (.val t b)) :
    ∃ (m : Mem Properties) (l : List (Str × Str)), runPropsOps ops .start = .ok m ∧ (l.map Prod.fst).Nodup ∧ (∀ k v, (k, v) ∈ l ↔ NoNul k ∧ b k = some v) ∧
      (∀ into, m.toVector x into = .ok (into ++ l.map Prod.fst)) ∧
      ∀ out, m.print x out = .ok (out ++ l.flatMap fun e => e.1 ++ b!"=" ++ e.2 ++ b!"\n") := by
  obtain ⟨m, v, e, h⟩ := VInv.propsRun ops VInv.start hc hs
  obtain ⟨l, el, hd, hl⟩ := h.shown hx
  refine ⟨m, l, e, hd, hl, fun into => ?_, fun out => ?_⟩
  · simp only [Mem.toVector, el, Outcome.map]
    rw [Outcome.bind_ok, foldl_push l (fun kv => [kv.1])]
    rw [List.map_eq_flatMap]
  · simp only [Mem.print, el, Outcome.map]
    rw [Outcome.bind_ok]
    congr 1
    rw [← foldl_push l]
    congr 1
    funext e kv
    simp only [List.append_assoc]

/-- The hypotheses are met by the objects of `propsDemo` and by a map with two entries; an empty object is there after
`construct`. -/
example : (∃ s t b, Cpp.Spec.propsRun propsDemo .start = some s ∧ s.vars 3 = some (.val t b) ∧ b b!"a" = some b!"4") ∧
    (∃ s t, Cpp.Spec.propsRun [.construct 0] .start = some s ∧ s.vars 0 = some (.val t Trax.Spec.AMap.empty)) ∧
    IsMap [(b!"a", b!"x"), (b!"b", b!"")] ∧ (∀ e ∈ [(b!"a", b!"x"), (b!"b", b!"")], NoNul e.1 ∧ NoNul e.2) ∧
    ((runPropsOps propsDemo .start).bind fun m => (m.fromMap 3 [(b!"a", b!"x"), (b!"b", b!"")]).bind fun m => m.toMap 3 [(b!"z", b!"0")]) =
      .ok [(b!"a", b!"x"), (b!"b", b!""), (b!"z", b!"0")] ∧
    ((runPropsOps propsDemo .start).bind fun m => m.print 0 b!"> ") = .ok b!"> a=1\n" := by
  refine ⟨⟨_, _, _, rfl, rfl, rfl⟩, ⟨_, _, rfl, rfl⟩, ?_, ?_, ?_, ?_⟩
  · unfold IsMap; decide
  all_goals decide +kernel

/-- **C133, violated for strings with NUL bytes.** A `std::string` may have them, the C string passed on ends there: of the two entries `a` and `a\0b` of a
map one is left, with the value of the other. -/
theorem C133_nul_false :
    let given : List (Str × Str) := [(b!"a", b!"1"), ([97, 0, 98], b!"2")]
    IsMap given ∧ ((Mem.fromMap (Mem.construct .start 0) 0 given).bind fun m => m.toMap 0 []) = .ok [(b!"a", b!"2")] := by
  refine ⟨?_, by decide +kernel⟩
  unfold IsMap
  decide

end Trax
