import Verif.Model.PyMemory
import Mathlib.Tactic.Tauto

/-!
# Lemmas about the memory of Python programs
-/

namespace Trax.Py.Life

/-- The block at an address that is in use. -/
def At (m : Memory) (p : Nat) (b : Block) : Prop := m[p]? = some (some b)

/-- `L`: wrappers that only local variables refer to. `P`: blocks that belong to no wrapper. -/
structure Inv (s : State) (L P : List Nat) : Prop where
  keys : (s.refs.map (·.1)).Nodup
  names : (s.refs.map (·.2.wrapper)).Nodup
  next : ∀ e ∈ s.refs, e.2.wrapper < s.next
  known : ∀ w, (∃ e ∈ s.refs, e.2.wrapper = w) ↔ w ∈ s.vars.flatten ∨ w ∈ L
  sep : ∀ w ∈ L, w ∉ s.vars.flatten
  typed : ∀ e ∈ s.refs, e.2.owner = true → (∃ p b, e.2.item = .block p ∧ At s.mem p b ∧ b.kind = e.2.kind) ∨ (e.2.item = .null ∧ e.2.kind = .objectList)
  simple : ∀ e ∈ s.refs, e.2.wrapper ∈ s.vars.flatten → e.2.owner = true ∧ (e.2.kind = .image ∨ e.2.kind = .region ∨ e.2.kind = .properties)
  inj : ∀ e ∈ s.refs, ∀ e' ∈ s.refs, ∀ p, e.2.owner = true → e'.2.owner = true → e.2.item = .block p → e'.2.item = .block p → e = e'
  pend : P.Nodup
  apart : ∀ p ∈ P, ∀ e ∈ s.refs, e.2.owner = true → e.2.item ≠ .block p
  live : ∀ p, (∃ b, At s.mem p b) ↔ p ∈ P ∨ ∃ e ∈ s.refs, e.2.owner = true ∧ e.2.item = .block p

/-- Nothing that existed has changed. -/
structure Keeps (s s' : State) : Prop where
  refs : ∀ e ∈ s.refs, e ∈ s'.refs
  mem : ∀ p b, At s.mem p b → At s'.mem p b
  vars : s'.vars = s.vars
  next : s.next ≤ s'.next
  old : ∀ e ∈ s'.refs, e.2.wrapper < s.next → e ∈ s.refs

theorem Keeps.refl (s : State) : Keeps s s := ⟨fun _ h => h, fun _ _ h => h, rfl, Nat.le_refl _, fun _ h _ => h⟩

theorem Keeps.trans {a b c : State} (h : Keeps a b) (k : Keeps b c) : Keeps a c :=
  ⟨fun e he => k.refs e (h.refs e he), fun p q hq => k.mem p q (h.mem p q hq), k.vars.trans h.vars, Nat.le_trans h.next k.next,
    fun e he hl => h.old e (k.old e he (Nat.lt_of_lt_of_le hl h.next)) hl⟩

theorem Inv.same {s : State} {L L' P : List Nat} (h : Inv s L P) (hL : ∀ w, w ∈ L ↔ w ∈ L') : Inv s L' P :=
  { h with
    known := fun w => by rw [h.known w, hL w]
    sep := fun w hw => h.sep w ((hL w).mpr hw) }

theorem Inv.perm {s : State} {L P P' : List Nat} (h : Inv s L P) (hP : P.Perm P') : Inv s L P' :=
  { h with
    pend := hP.nodup_iff.mp h.pend
    apart := fun p hp => h.apart p (hP.mem_iff.mpr hp)
    live := fun p => by rw [h.live p, hP.mem_iff] }

theorem at_alloc_new (m : Memory) (b : Block) : At (alloc m b).2 (alloc m b).1 b := by simp [At, alloc]

theorem at_alloc_old {m : Memory} {b c : Block} {p : Nat} (h : At m p c) : At (alloc m b).2 p c := by
  unfold At alloc at *
  have hp : p < m.length := by
    rcases Nat.lt_or_ge p m.length with hp | hp
    · exact hp
    · rw [List.getElem?_eq_none hp] at h; cases h
  simp only [List.getElem?_append_left hp, h]

theorem at_alloc_inv {m : Memory} {b c : Block} {p : Nat} (h : At (alloc m b).2 p c) : At m p c ∨ (p = m.length ∧ c = b) := by
  unfold At alloc at *
  rcases Nat.lt_trichotomy p m.length with hp | hp | hp
  · simp only [List.getElem?_append_left hp] at h; exact .inl h
  · subst hp; simp at h; exact .inr ⟨rfl, h.symm⟩
  · rw [List.getElem?_eq_none (by simp; omega)] at h; cases h

theorem not_at_length {m : Memory} {c : Block} : ¬ At m m.length c := by simp [At]

theorem Inv.alloc {s : State} {L P : List Nat} (h : Inv s L P) (b : Block) :
    Inv { s with mem := (alloc s.mem b).2 } L ((alloc s.mem b).1 :: P) ∧ Keeps s { s with mem := (alloc s.mem b).2 } := by
  refine ⟨{ h with typed := ?_, pend := ?_, apart := ?_, live := ?_ }, ⟨fun _ h => h, fun p c hc => at_alloc_old hc, rfl, Nat.le_refl _, fun _ h _ => h⟩⟩
  · intro e he ho
    rcases h.typed e he ho with ⟨p, c, hp, hc, hk⟩ | hn
    · exact .inl ⟨p, c, hp, at_alloc_old hc, hk⟩
    · exact .inr hn
  · refine List.nodup_cons.mpr ⟨fun hm => ?_, h.pend⟩
    obtain ⟨c, hc⟩ := (h.live _).mpr (.inl hm)
    exact not_at_length hc
  · intro p hp e he ho hi
    rcases List.mem_cons.mp hp with hp | hp
    · subst hp
      obtain ⟨c, hc⟩ := (h.live _).mpr (.inr ⟨e, he, ho, hi⟩)
      exact not_at_length hc
    · exact h.apart p hp e he ho hi
  · intro p
    constructor
    · rintro ⟨c, hc⟩
      rcases at_alloc_inv hc with hc | ⟨hc, -⟩
      · rcases (h.live p).mp ⟨c, hc⟩ with hp | hp
        · exact .inl (List.mem_cons_of_mem _ hp)
        · exact .inr hp
      · subst hc; exact .inl List.mem_cons_self
    · rintro (hp | hp)
      · rcases List.mem_cons.mp hp with hp | hp
        · subst hp; exact ⟨b, at_alloc_new _ _⟩
        · obtain ⟨c, hc⟩ := (h.live p).mpr (.inl hp); exact ⟨c, at_alloc_old hc⟩
      · obtain ⟨c, hc⟩ := (h.live p).mpr (.inr hp); exact ⟨c, at_alloc_old hc⟩

/-- A new key does not replace anything. -/
theorem dictSet_new {d : List (Nat × OwnerRef)} {id : Nat} (h : id ∉ d.map (·.1)) (o : OwnerRef) : dictSet d id o = d ++ [(id, o)] := by
  unfold dictSet
  rw [List.filter_eq_self.mpr]
  intro e he
  simp only [ne_eq, decide_not, Bool.not_eq_eq_eq_not, Bool.not_true, decide_eq_false_iff_not]
  rintro rfl
  exact h (List.mem_map_of_mem he)

variable {addr : List Nat → Nat}

/-- What every new wrapper needs, whatever it refers to. -/
theorem Inv.wrap (haddr : ∀ l, addr l ∉ l) {s : State} {L P P' : List Nat} (h : Inv s L P) {item : Ptr} {k : Kind} {owner : Bool}
    (ht : owner = true → (∃ p b, item = .block p ∧ At s.mem p b ∧ b.kind = k) ∨ (item = .null ∧ k = .objectList))
    (hP' : P'.Nodup) (hs : ∀ p, p ∈ P ↔ p ∈ P' ∨ (owner = true ∧ item = .block p)) (hn : ∀ p ∈ P', owner = true → item ≠ .block p) :
    Inv (newWrapper addr s item k owner).2 (s.next :: L) P' ∧ Keeps s (newWrapper addr s item k owner).2 ∧
      (∃ id, (id, ⟨s.next, item, k, owner⟩) ∈ (newWrapper addr s item k owner).2.refs) := by
  have hr : (newWrapper addr s item k owner).2.refs = s.refs ++ [(addr (s.refs.map (·.1)), ⟨s.next, item, k, owner⟩)] := by
    unfold newWrapper
    exact dictSet_new (haddr _) _
  have hm : (newWrapper addr s item k owner).2.mem = s.mem := rfl
  have hv : (newWrapper addr s item k owner).2.vars = s.vars := rfl
  have hx : (newWrapper addr s item k owner).2.next = s.next + 1 := rfl
  generalize (newWrapper addr s item k owner).2 = t at hr hm hv hx
  generalize haid : addr (s.refs.map (·.1)) = id at hr
  have hid : id ∉ s.refs.map (·.1) := haid ▸ haddr _
  have mem_r : ∀ e, e ∈ t.refs ↔ e ∈ s.refs ∨ e = (id, ⟨s.next, item, k, owner⟩) := by intro e; rw [hr]; simp
  refine ⟨⟨?_, ?_, ?_, ?_, ?_, ?_, ?_, ?_, hP', ?_, ?_⟩, ⟨fun e he => (mem_r e).mpr (.inl he), fun p b hb => hm ▸ hb, hv, by omega, ?_⟩, id, (mem_r _).mpr (.inr rfl)⟩
  · rw [hr]; simp only [List.map_append, List.map_cons, List.map_nil]
    exact List.nodup_append.mpr ⟨h.keys, by simp, by rintro a ha b hb rfl; simp at hb; subst hb; exact hid ha⟩
  · rw [hr]; simp only [List.map_append, List.map_cons, List.map_nil]
    refine List.nodup_append.mpr ⟨h.names, by simp, ?_⟩
    rintro a ha b hb rfl
    simp at hb; subst hb
    obtain ⟨e, he, hw⟩ := List.mem_map.mp ha
    have := h.next e he; omega
  · intro e he
    rw [hx]
    rcases (mem_r e).mp he with he | rfl
    · have := h.next e he; omega
    · exact Nat.lt_succ_self _
  · intro w
    rw [hv, List.mem_cons, ← or_assoc, or_comm (a := w ∈ s.vars.flatten), or_assoc, ← h.known w]
    constructor
    · rintro ⟨e, he, hw⟩
      rcases (mem_r e).mp he with he | rfl
      · exact .inr ⟨e, he, hw⟩
      · exact .inl hw.symm
    · rintro (rfl | ⟨e, he, hw⟩)
      · exact ⟨_, (mem_r _).mpr (.inr rfl), rfl⟩
      · exact ⟨e, (mem_r e).mpr (.inl he), hw⟩
  · intro w hw hwv
    rw [hv] at hwv
    rcases List.mem_cons.mp hw with rfl | hw
    · obtain ⟨e, he, hew⟩ := (h.known _).mpr (.inl hwv)
      have := h.next e he; omega
    · exact h.sep w hw hwv
  · intro e he ho
    rw [hm]
    rcases (mem_r e).mp he with he | rfl
    · exact h.typed e he ho
    · exact ht ho
  · intro e he hw
    rw [hv] at hw
    rcases (mem_r e).mp he with he | rfl
    · exact h.simple e he hw
    · obtain ⟨e, he, hew⟩ := (h.known _).mpr (.inl hw)
      have := h.next e he; simp only at hew; omega
  · intro e he e' he' p ho ho' hi hi'
    rcases (mem_r e).mp he with he | rfl <;> rcases (mem_r e').mp he' with he' | rfl
    · exact h.inj e he e' he' p ho ho' hi hi'
    · exact absurd hi (h.apart p ((hs p).mpr (.inr ⟨ho', hi'⟩)) e he ho)
    · exact absurd hi' (h.apart p ((hs p).mpr (.inr ⟨ho, hi⟩)) e' he' ho')
    · rfl
  · intro p hp e he ho hi
    rcases (mem_r e).mp he with he | rfl
    · exact h.apart p ((hs p).mpr (.inl hp)) e he ho hi
    · exact hn p hp ho hi
  · intro p
    rw [hm, h.live p, hs p]
    constructor
    · rintro ((hp | hp) | ⟨e, he, ho⟩)
      · exact .inl hp
      · exact .inr ⟨_, (mem_r _).mpr (.inr rfl), hp⟩
      · exact .inr ⟨e, (mem_r e).mpr (.inl he), ho⟩
    · rintro (hp | ⟨e, he, ho⟩)
      · exact .inl (.inl hp)
      · rcases (mem_r e).mp he with he | rfl
        · exact .inr ⟨e, he, ho⟩
        · exact .inl (.inr ho)
  · intro e he hl
    rcases (mem_r e).mp he with he | rfl
    · exact he
    · simp only [Nat.lt_irrefl] at hl

/-- A wrapper that owns a block that belonged to nobody. -/
theorem Inv.own (haddr : ∀ l, addr l ∉ l) {s : State} {L P : List Nat} {p : Nat} {b : Block} (h : Inv s L (p :: P)) (hb : At s.mem p b) :
    Inv (newWrapper addr s (.block p) b.kind true).2 (s.next :: L) P ∧ Keeps s (newWrapper addr s (.block p) b.kind true).2 ∧
      (∃ id, (id, ⟨s.next, .block p, b.kind, true⟩) ∈ (newWrapper addr s (.block p) b.kind true).2.refs) := by
  have hnd := List.nodup_cons.mp h.pend
  refine h.wrap haddr (fun _ => .inl ⟨p, b, rfl, hb, rfl⟩) hnd.2 (fun q => ?_) (fun q hq _ he => ?_)
  · simp only [List.mem_cons, true_and, Ptr.block.injEq]
    constructor
    · rintro (rfl | hq)
      · exact .inr rfl
      · exact .inl hq
    · rintro (hq | rfl)
      · exact .inr hq
      · exact .inl rfl
  · cases he; exact hnd.1 hq

/-- A new object with its wrapper. -/
theorem Inv.new (haddr : ∀ l, addr l ∉ l) {s : State} {L P : List Nat} (h : Inv s L P) (b : Block) :
    Inv (newObject addr s b).2 (s.next :: L) P ∧ Keeps s (newObject addr s b).2 ∧ (newObject addr s b).1 = s.next ∧
      (∃ id, (id, ⟨s.next, .block s.mem.length, b.kind, true⟩) ∈ (newObject addr s b).2.refs) ∧ At (newObject addr s b).2.mem s.mem.length b ∧
      (newObject addr s b).2.mem = s.mem ++ [some b] := by
  obtain ⟨h1, k1⟩ := h.alloc b
  obtain ⟨h2, k2, h3⟩ := h1.own haddr (at_alloc_new _ _)
  exact ⟨h2, k1.trans k2, rfl, h3, k2.mem _ _ (at_alloc_new _ _), rfl⟩

/-- The pointer of a wrapper. -/
theorem reference_eq {s : State} {L P : List Nat} (h : Inv s L P) {e : Nat × OwnerRef} (he : e ∈ s.refs) :
    s.refs.find? (fun x => x.2.wrapper = e.2.wrapper) = some e := by
  have := h.names
  generalize s.refs = d at *
  induction d with
  | nil => cases he
  | cons a d ih =>
    simp only [List.map_cons, List.nodup_cons] at this
    rcases List.mem_cons.mp he with rfl | he
    · simp
    · rw [List.find?_cons_of_neg, ih he this.2]
      simp only [decide_eq_true_eq]
      intro hw
      exact this.1 (hw ▸ List.mem_map_of_mem he)

theorem reference_item {s : State} {L P : List Nat} (h : Inv s L P) {e : Nat × OwnerRef} (he : e ∈ s.refs) {w : Nat} (hw : e.2.wrapper = w) :
    reference s w = .ok e.2.item := by
  subst hw
  simp only [reference, reference_eq h he]

theorem access_block {m : Memory} {p : Nat} {b : Block} (h : At m p b) : access m b.kind (.block p) = .ok b := by
  simp only [access, show m[p]? = some (some b) from h, if_true]

theorem at_set_none {m : Memory} {p q : Nat} {b : Block} : At (m.set p none) q b ↔ At m q b ∧ q ≠ p := by
  unfold At
  rw [List.getElem?_set]
  split
  · rename_i hpq; subst hpq
    split <;> simp
  · rename_i hpq
    exact ⟨fun h => ⟨h, fun e => hpq e.symm⟩, fun h => h.1⟩

/-- Entries without the key of one of them. -/
theorem filter_key {s : State} {L P : List Nat} (h : Inv s L P) {e : Nat × OwnerRef} (he : e ∈ s.refs) (x : Nat × OwnerRef) :
    x ∈ s.refs.filter (fun x => x.1 ≠ e.1) ↔ x ∈ s.refs ∧ x ≠ e := by
  have hinj : ∀ x ∈ s.refs, x.1 = e.1 → x = e := by
    intro x hx hk
    have := h.keys
    generalize s.refs = d at *
    induction d with
    | nil => cases hx
    | cons a d ih =>
      simp only [List.map_cons, List.nodup_cons] at this
      rcases List.mem_cons.mp hx with hx' | hx' <;> rcases List.mem_cons.mp he with he' | he'
      · rw [hx', he']
      · exact absurd (by rw [← hx', hk]; exact List.mem_map_of_mem (f := (·.1)) he') this.1
      · exact absurd (by rw [← he', ← hk]; exact List.mem_map_of_mem (f := (·.1)) hx') this.1
      · exact ih he' hx' this.2
  simp only [List.mem_filter, ne_eq, decide_not, Bool.not_eq_eq_eq_not, Bool.not_true, decide_eq_false_iff_not]
  exact ⟨fun ⟨a, b⟩ => ⟨a, fun c => b (c ▸ rfl)⟩, fun ⟨a, b⟩ => ⟨a, fun c => b (hinj x a c)⟩⟩

theorem names_inj {s : State} {L P : List Nat} (h : Inv s L P) {e x : Nat × OwnerRef} (he : e ∈ s.refs) (hx : x ∈ s.refs)
    (hw : x.2.wrapper = e.2.wrapper) : x = e := by
  have h1 := reference_eq h he
  have h2 := reference_eq h hx
  rw [hw, h1] at h2
  exact (Option.some.inj h2).symm

/-- A local wrapper goes. -/
theorem Inv.gone {s : State} {L P : List Nat} (h : Inv s L P) {w : Nat} (hw : w ∉ s.vars.flatten) :
    ∃ s', gone s w = .ok s' ∧ Inv s' (L.filter (· ≠ w)) P ∧ s'.vars = s.vars ∧ s'.next = s.next ∧
      (∀ e, e ∈ s'.refs ↔ e ∈ s.refs ∧ e.2.wrapper ≠ w) ∧
      (∀ p b, At s'.mem p b → At s.mem p b) ∧
      (∀ p b, At s.mem p b → (∀ e ∈ s.refs, e.2.wrapper = w → e.2.owner = true → e.2.item ≠ .block p) → At s'.mem p b) := by
  by_cases hL : w ∈ L
  case neg =>
    have hno : ∀ e ∈ s.refs, e.2.wrapper ≠ w := fun e he hew => by
      rcases (h.known w).mp ⟨e, he, hew⟩ with h1 | h1
      · exact hw h1
      · exact hL h1
    have hf : s.refs.find? (fun e => e.2.wrapper = w) = none := by
      rw [List.find?_eq_none]; intro e he; simpa using hno e he
    refine ⟨s, by simp only [Life.gone, hf], h.same fun x => ?_, rfl, rfl, fun e => ⟨fun he => ⟨he, hno e he⟩, fun he => he.1⟩, fun _ _ h => h, fun _ _ h _ => h⟩
    simp only [List.mem_filter, ne_eq, decide_not, Bool.not_eq_eq_eq_not, Bool.not_true, decide_eq_false_iff_not]
    exact ⟨fun hx => ⟨hx, fun hxw => hL (hxw ▸ hx)⟩, fun hx => hx.1⟩
  case pos =>
    obtain ⟨e, he, hew⟩ := (h.known w).mpr (.inr hL)
    have hg : Life.gone s w = runFinalizer s e.1 e.2 := by
      subst hew; simp only [Life.gone, reference_eq h he]
    have hk := filter_key h he
    have hk' : ∀ x, x ∈ s.refs.filter (fun x => x.1 ≠ e.1) ↔ x ∈ s.refs ∧ x.2.wrapper ≠ w := by
      intro x
      rw [hk x]
      constructor
      · rintro ⟨hx, hne⟩; exact ⟨hx, fun hxw => hne (names_inj h he hx (hxw.trans hew.symm))⟩
      · rintro ⟨hx, hne⟩; exact ⟨hx, fun hxe => hne (hxe ▸ hew)⟩
    have key : ∀ m, (∀ q c, At m q c ↔ At s.mem q c ∧ ¬ (e.2.owner = true ∧ e.2.item = .block q)) →
        Inv { s with refs := s.refs.filter (fun x => x.1 ≠ e.1), mem := m } (L.filter (· ≠ w)) P := by
      intro m hm
      refine ⟨?_, ?_, ?_, ?_, ?_, ?_, ?_, ?_, h.pend, ?_, ?_⟩
      · exact h.keys.sublist (List.filter_sublist.map _)
      · exact h.names.sublist (List.filter_sublist.map _)
      · intro x hx; exact h.next x ((hk' x).mp hx).1
      · intro x
        simp only [List.mem_filter, ne_eq, decide_not, Bool.not_eq_eq_eq_not, Bool.not_true, decide_eq_false_iff_not]
        constructor
        · rintro ⟨y, hy, rfl⟩
          have hy := (hk' y).mp (by simpa using hy)
          rcases (h.known y.2.wrapper).mp ⟨y, hy.1, rfl⟩ with h1 | h1
          · exact .inl h1
          · exact .inr ⟨h1, hy.2⟩
        · intro hx
          have hxw : x ≠ w := by rcases hx with hx | hx; · rintro rfl; exact hw hx
                                 · exact hx.2
          obtain ⟨y, hy, rfl⟩ := (h.known x).mpr (hx.imp_right And.left)
          have := (hk' y).mpr ⟨hy, hxw⟩
          exact ⟨y, by simpa using this, rfl⟩
      · intro x hx; exact h.sep x (List.mem_filter.mp hx).1
      · intro x hx ho
        have hx := (hk x).mp hx
        rcases h.typed x hx.1 ho with ⟨p, b, hp, hb, hkind⟩ | hn
        · refine .inl ⟨p, b, hp, (hm p b).mpr ⟨hb, fun hc => ?_⟩, hkind⟩
          exact hx.2 (h.inj x hx.1 e he p ho hc.1 hp hc.2)
        · exact .inr hn
      · intro x hx hv; exact h.simple x ((hk x).mp hx).1 hv
      · intro x hx y hy; exact h.inj x ((hk x).mp hx).1 y ((hk y).mp hy).1
      · intro p hp x hx; exact h.apart p hp x ((hk x).mp hx).1
      · intro p
        have hl := h.live p
        constructor
        · rintro ⟨b, hb⟩
          obtain ⟨hb, hne⟩ := (hm p b).mp hb
          rcases hl.mp ⟨b, hb⟩ with h1 | ⟨x, hx, ho, hi⟩
          · exact .inl h1
          · exact .inr ⟨x, (hk x).mpr ⟨hx, fun hxe => hne (hxe ▸ ⟨ho, hi⟩)⟩, ho, hi⟩
        · rintro (h1 | ⟨x, hx, ho, hi⟩)
          · obtain ⟨b, hb⟩ := hl.mpr (.inl h1)
            exact ⟨b, (hm p b).mpr ⟨hb, fun hc => h.apart p h1 e he hc.1 hc.2⟩⟩
          · have hx := (hk x).mp hx
            obtain ⟨b, hb⟩ := hl.mpr (.inr ⟨x, hx.1, ho, hi⟩)
            exact ⟨b, (hm p b).mpr ⟨hb, fun hc => hx.2 (h.inj x hx.1 e he p ho hc.1 hi hc.2)⟩⟩
    by_cases ho : e.2.owner = true
    · rcases h.typed e he ho with ⟨p, b, hp, hb, hkind⟩ | ⟨hn, hkind⟩
      · refine ⟨{ s with refs := s.refs.filter (fun x => x.1 ≠ e.1), mem := s.mem.set p none }, ?_, key _ fun q c => ?_, rfl, rfl, hk', ?_, ?_⟩
        · rw [hg]
          simp only [runFinalizer, ho, if_true, hp, release, ← hkind, access_block hb, Outcome.map, Outcome.bind_ok]
        · rw [at_set_none]; simp only [ho, true_and, hp, Ptr.block.injEq, ne_eq, eq_comm]
        · intro q c hc; exact (at_set_none.mp hc).1
        · intro q c hc hne
          exact at_set_none.mpr ⟨hc, fun hqp => hne e he hew ho (hqp ▸ hp)⟩
      · refine ⟨{ s with refs := s.refs.filter (fun x => x.1 ≠ e.1) }, ?_, key s.mem fun q c => ?_, rfl, rfl, hk', fun _ _ h => h, fun _ _ h _ => h⟩
        · rw [hg]
          simp only [runFinalizer, ho, if_true, hn, release, hkind, or_true, Outcome.map, Outcome.bind_ok]
        · simp [hn]
    · refine ⟨{ s with refs := s.refs.filter (fun x => x.1 ≠ e.1) }, ?_, key s.mem fun q c => ?_, rfl, rfl, hk', fun _ _ h => h, fun _ _ h _ => h⟩
      · rw [hg]; simp only [runFinalizer, if_neg ho]
      · simp [ho]

/-- Several local wrappers go. -/
theorem Inv.goneAll {s : State} {L P : List Nat} (ws : List Nat) (h : Inv s L P) (hw : ∀ w ∈ ws, w ∉ s.vars.flatten) :
    ∃ s', goneAll s ws = .ok s' ∧ Inv s' (L.filter fun w => w ∉ ws) P ∧ s'.vars = s.vars ∧ s'.next = s.next ∧
      (∀ e, e ∈ s'.refs ↔ e ∈ s.refs ∧ e.2.wrapper ∉ ws) ∧ (∀ p b, At s'.mem p b → At s.mem p b) := by
  induction ws generalizing s L with
  | nil => exact ⟨s, rfl, h.same (by simp), rfl, rfl, by simp, fun _ _ h => h⟩
  | cons w ws ih =>
    obtain ⟨s1, h1, i1, v1, n1, r1, m1, -⟩ := h.gone (hw w List.mem_cons_self)
    obtain ⟨s2, h2, i2, v2, n2, r2, m2⟩ := ih i1 (fun x hx => v1 ▸ hw x (List.mem_cons_of_mem _ hx))
    refine ⟨s2, ?_, i2.same ?_, v2.trans v1, n2.trans n1, ?_, fun p b hb => m1 p b (m2 p b hb)⟩
    · simp only [Life.goneAll, h1, Outcome.bind_ok, h2]
    · intro x; simp only [List.mem_filter, List.mem_cons, not_or, ne_eq, decide_not, Bool.not_eq_eq_eq_not, Bool.not_true, decide_eq_false_iff_not, Bool.and_eq_true, Bool.decide_and]
      tauto
    · intro e; rw [r2, r1]; simp only [List.mem_cons, not_or]; tauto

/-- A wrapper that is younger than `s` goes: what `s` has stays. -/
theorem Inv.gone_temp {s t : State} {L L' P P' : List Nat} (h : Inv s L P) (k : Keeps s t) (ht : Inv t L' P') (hP : ∀ p ∈ P, p ∈ P') {w : Nat} (hw : s.next ≤ w) :
    ∃ t', Life.gone t w = .ok t' ∧ Inv t' (L'.filter (· ≠ w)) P' ∧ Keeps s t' ∧ t'.next = t.next ∧ (∀ e, e ∈ t'.refs ↔ e ∈ t.refs ∧ e.2.wrapper ≠ w) := by
  have hwv : w ∉ t.vars.flatten := by
    rw [k.vars]; intro hv
    obtain ⟨e, he, hew⟩ := (h.known w).mpr (.inl hv)
    have := h.next e he; omega
  obtain ⟨t', h1, i1, v1, n1, r1, m1, m2⟩ := ht.gone hwv
  refine ⟨t', h1, i1, ⟨fun e he => (r1 e).mpr ⟨k.refs e he, ?_⟩, fun p b hb => m2 p b (k.mem p b hb) ?_, v1.trans k.vars, n1 ▸ k.next, ?_⟩, n1, r1⟩
  · have := h.next e he; omega
  · intro e he hew ho hi
    rcases (h.live p).mp ⟨b, hb⟩ with hp | ⟨x, hx, hxo, hxi⟩
    · exact ht.apart p (hP p hp) e he ho hi
    · have := ht.inj e he x (k.refs x hx) p ho hxo hi hxi
      subst this
      have := h.next e hx; omega
  · intro e he hl; exact k.old e ((r1 e).mp he).1 hl

theorem Inv.goneAll_temp {s t : State} {L L' P P' : List Nat} (ws : List Nat) (h : Inv s L P) (k : Keeps s t) (ht : Inv t L' P') (hP : ∀ p ∈ P, p ∈ P')
    (hw : ∀ w ∈ ws, s.next ≤ w) :
    ∃ t', Life.goneAll t ws = .ok t' ∧ Inv t' (L'.filter fun w => w ∉ ws) P' ∧ Keeps s t' ∧ (∀ e, e ∈ t'.refs ↔ e ∈ t.refs ∧ e.2.wrapper ∉ ws) := by
  induction ws generalizing t L' with
  | nil => exact ⟨t, rfl, ht.same (by simp), k, by simp⟩
  | cons w ws ih =>
    obtain ⟨s1, h1, i1, k1, -, r1⟩ := h.gone_temp k ht hP (hw w List.mem_cons_self)
    obtain ⟨s2, h2, i2, k2, r2⟩ := ih k1 i1 (fun x hx => hw x (List.mem_cons_of_mem _ hx))
    refine ⟨s2, ?_, i2.same ?_, k2, ?_⟩
    · simp only [Life.goneAll, h1, Outcome.bind_ok, h2]
    · intro x; simp only [List.mem_filter, List.mem_cons, not_or, ne_eq, decide_not, Bool.not_eq_eq_eq_not, Bool.not_true, decide_eq_false_iff_not, Bool.and_eq_true, Bool.decide_and]
      tauto
    · intro e; rw [r2, r1]; simp only [List.mem_cons, not_or]; tauto

theorem Inv.local_lt {s : State} {L P : List Nat} (h : Inv s L P) {w : Nat} (hw : w ∈ L) : w < s.next := by
  obtain ⟨e, he, hew⟩ := (h.known w).mpr (.inr hw)
  have := h.next e he; omega

/-- The wrapper refers to an object of the given kind, and owns it. -/
def Refers (s : State) (k : Kind) (w : Nat) : Prop := ∃ e ∈ s.refs, e.2.wrapper = w ∧ e.2.kind = k ∧ e.2.owner = true

theorem Refers.keeps {s t : State} {k : Kind} {w : Nat} (h : Refers s k w) (hk : Keeps s t) : Refers t k w := by
  obtain ⟨e, he, h⟩ := h
  exact ⟨e, hk.refs e he, h⟩

theorem Refers.block {s : State} {L P : List Nat} (h : Inv s L P) {k : Kind} {w : Nat} (hr : Refers s k w) (hk : k ≠ .objectList) :
    ∃ p b, reference s w = .ok (.block p) ∧ At s.mem p b ∧ b.kind = k := by
  obtain ⟨e, he, hew, hek, ho⟩ := hr
  rcases h.typed e he ho with ⟨p, b, hp, hb, hkind⟩ | ⟨-, hkind⟩
  · exact ⟨p, b, hp ▸ reference_item h he hew, hb, hkind.trans hek⟩
  · exact absurd (hek.symm.trans hkind) hk

theorem kind_image {b : Block} (h : b.kind = .image) : b = .image := by cases b <;> simp_all [Block.kind]
theorem kind_region {b : Block} (h : b.kind = .region) : b = .region := by cases b <;> simp_all [Block.kind]

theorem at_set {m : Memory} {p q : Nat} {b c d : Block} (h : At m p d) : At (m.set p (some b)) q c ↔ (q = p ∧ c = b) ∨ (q ≠ p ∧ At m q c) := by
  unfold At at *
  have hp : p < m.length := by
    rcases Nat.lt_or_ge p m.length with hp | hp
    · exact hp
    · rw [List.getElem?_eq_none hp] at h; cases h
  rw [List.getElem?_set]
  by_cases hpq : p = q
  · subst hpq; simp [hp, eq_comm]
  · simp only [hpq, if_false]
    exact ⟨fun h => .inr ⟨fun e => hpq e.symm, h⟩, fun h => h.elim (fun e => absurd e.1.symm hpq) (fun e => e.2)⟩

/-- A block is written. -/
theorem Inv.setBlock {s : State} {L P : List Nat} (h : Inv s L P) {p : Nat} {b c : Block} (hb : At s.mem p b) (hk : c.kind = b.kind) :
    Inv { s with mem := s.mem.set p (some c) } L P := by
  refine { h with typed := ?_, live := ?_ }
  · intro e he ho
    rcases h.typed e he ho with ⟨q, d, hq, hd, hkind⟩ | hn
    · by_cases hqp : q = p
      · subst hqp
        refine .inl ⟨q, c, hq, (at_set hb).mpr (.inl ⟨rfl, rfl⟩), ?_⟩
        unfold At at hb hd; rw [hb] at hd; cases hd
        rw [hk, hkind]
      · exact .inl ⟨q, d, hq, (at_set hb).mpr (.inr ⟨hqp, hd⟩), hkind⟩
    · exact .inr hn
  · intro q
    rw [← h.live q]
    constructor
    · rintro ⟨d, hd⟩
      rcases (at_set hb).mp hd with ⟨rfl, -⟩ | ⟨-, hd⟩
      · exact ⟨b, hb⟩
      · exact ⟨d, hd⟩
    · rintro ⟨d, hd⟩
      by_cases hqp : q = p
      · exact ⟨c, (at_set hb).mpr (.inl ⟨hqp, rfl⟩)⟩
      · exact ⟨d, (at_set hb).mpr (.inr ⟨hqp, hd⟩)⟩

/-- The wrapper of a list. -/
def Lists (s : State) (k : Kind) (w l : Nat) : Prop := ∃ id, (id, (⟨w, .block l, k, true⟩ : OwnerRef)) ∈ s.refs

theorem Lists.keeps {s t : State} {k : Kind} {w l : Nat} (h : Lists s k w l) (hk : Keeps s t) : Lists t k w l := by
  obtain ⟨id, h⟩ := h
  exact ⟨id, hk.refs _ h⟩

theorem Lists.reference {s : State} {L P : List Nat} (h : Inv s L P) {k : Kind} {w l : Nat} (hl : Lists s k w l) : reference s w = .ok (.block l) := by
  obtain ⟨id, hl⟩ := hl
  exact reference_item h hl rfl

/-! ### Image lists of the client -/

theorem wrapImagesLoop_ok {s : State} {L P : List Nat} (h : Inv s L P) {tl l : Nat} (hsl : ∀ b, ¬ At s.mem l b) (images : List (Option Nat))
    (himg : ∀ w, some w ∈ images → Refers s .image w) : ∀ (t : State) (i : Nat) (slots : List (Option Nat)), Keeps s t → Inv t (tl :: L) P →
      Lists t .imageList tl l → At t.mem l (.imageList slots) → (∀ p, some p ∈ slots → At t.mem p .image) →
      ∃ t' slots', wrapImagesLoop t tl images i = .ok t' ∧ Keeps s t' ∧ Inv t' (tl :: L) P ∧ Lists t' .imageList tl l ∧ t'.next = t.next ∧
        At t'.mem l (.imageList slots') ∧ (∀ p, some p ∈ slots' → At t'.mem p .image) := by
  induction images with
  | nil => intro t i slots k ht hl hb hs; exact ⟨t, slots, rfl, k, ht, hl, rfl, hb, hs⟩
  | cons x rest ih =>
    have ih := ih fun w hw => himg w (List.mem_cons_of_mem _ hw)
    intro t i slots k ht hl hb hs
    cases x with
    | none => exact ih t (i + 1) slots k ht hl hb hs
    | some w =>
      obtain ⟨p, b, hr, hpb, hk⟩ := ((himg w List.mem_cons_self).keeps k).block ht (by decide)
      have hb' := kind_image hk; subst hb'
      have hpl : p ≠ l := by
        rintro rfl; unfold At at hb hpb; rw [hb] at hpb; cases hpb
      let t1 : State := { t with mem := t.mem.set l (some (.imageList (slots.set i (some p)))) }
      have ht1 : Inv t1 (tl :: L) P := ht.setBlock hb rfl
      have k1 : Keeps s t1 := ⟨k.refs, fun q c hc => (at_set hb).mpr (.inr ⟨fun hq => hsl c (hq ▸ hc), k.mem q c hc⟩), k.vars, k.next, k.old⟩
      obtain ⟨t', slots', hrun, rest⟩ := ih t1 (i + 1) (slots.set i (some p)) k1 ht1 hl ((at_set hb).mpr (.inl ⟨rfl, rfl⟩)) (by
        intro q hq
        rcases List.mem_or_eq_of_mem_set hq with hq | hq
        · refine (at_set hb).mpr (.inr ⟨?_, hs q hq⟩)
          rintro rfl; have := hs q hq; unfold At at this hb; rw [hb] at this; cases this
        · cases hq; exact (at_set hb).mpr (.inr ⟨hpl, hpb⟩))
      refine ⟨t', slots', ?_, rest⟩
      simp only [wrapImagesLoop, hl.reference ht, hr, Outcome.bind_ok, imageListSet]
      rw [show Kind.imageList = (Block.imageList slots).kind from rfl, access_block hb]
      simpa only [Outcome.map, Outcome.bind_ok] using hrun

theorem wrapImages_ok (haddr : ∀ l, addr l ∉ l) {s : State} {L P : List Nat} (h : Inv s L P) (images : List (Option Nat))
    (himg : ∀ w, some w ∈ images → Refers s .image w) :
    ∃ t l slots, wrapImages addr s images = .ok (s.next, t) ∧ Keeps s t ∧ Inv t (s.next :: L) P ∧ s.next < t.next ∧ Lists t .imageList s.next l ∧
      At t.mem l (.imageList slots) ∧ (∀ p, some p ∈ slots → At t.mem p .image) := by
  obtain ⟨h1, k1, h2, h3, h4, -⟩ := h.new (addr := addr) haddr (.imageList (List.replicate 3 none))
  obtain ⟨t', slots', hrun, k, hi, hl, hn, hb, hs⟩ := wrapImagesLoop_ok h (tl := s.next) (l := s.mem.length) (fun b => not_at_length) images himg _ 0 _ k1 h1 h3 h4
    (by simp)
  refine ⟨t', _, slots', ?_, k, hi, ?_, hl, hb, hs⟩
  · simp only [wrapImages]
    rw [h2, hrun]; rfl
  · rw [hn]; exact Nat.lt_succ_self _

theorem imagesRead_ok {m : Memory} (slots : List (Option Nat)) (h : ∀ p, some p ∈ slots → At m p .image) : imagesRead m slots = .ok () := by
  induction slots with
  | nil => rfl
  | cons x rest ih =>
    have ih := ih fun p hp => h p (List.mem_cons_of_mem _ hp)
    cases x with
    | none => exact ih
    | some p =>
      have := access_block (h p List.mem_cons_self)
      simp only [imagesRead]
      rw [show Kind.image = Block.image.kind from rfl, this, Outcome.bind_ok, ih]

/-! ### Object lists that are sent -/

theorem wrapObjectsLoop_ok (haddr : ∀ l, addr l ∉ l) {tl l n : Nat} (objects : List (Nat × Bool)) : ∀ (s : State) (L P : List Nat) (i : Nat), Inv s L P →
    Lists s .objectList tl l → At s.mem l (.objectList n) → (∀ e ∈ objects, Refers s .region e.1) → i + objects.length ≤ n →
    ∃ r s', wrapObjectsLoop addr s tl objects i = .ok (r, s') ∧ Keeps s s' ∧ Inv s' L P := by
  induction objects with
  | nil => intro s L P i h _ _ _ _; exact ⟨_, s, rfl, Keeps.refl s, h⟩
  | cons x rest ih =>
    obtain ⟨region, encodes⟩ := x
    intro s L P i h hl hb hr hi
    obtain ⟨h1, k1, e1, l1, b1, -⟩ := h.new (addr := addr) haddr .properties
    obtain ⟨s2, g2, i2, k2, n2, -⟩ := h.gone_temp k1 h1 (fun _ hp => hp) (Nat.le_refl s.next)
    have i2 : Inv s2 L P := i2.same fun w => by
      simp only [List.mem_filter, List.mem_cons, ne_eq, decide_not, Bool.not_eq_eq_eq_not, Bool.not_true, decide_eq_false_iff_not]
      constructor
      · rintro ⟨rfl | hw, hne⟩
        · exact absurd rfl hne
        · exact hw
      · intro hw; have := h.local_lt hw; exact ⟨.inr hw, by omega⟩
    simp only [List.length_cons] at hi
    cases encodes with
    | false =>
      refine ⟨none, s2, ?_, k2, i2⟩
      simp only [wrapObjectsLoop, if_true]
      rw [e1, g2]; rfl
    | true =>
      obtain ⟨r, s', hrun, k3, i3⟩ := ih s2 L P (i + 1) i2 (hl.keeps k2) (k2.mem _ _ hb) (fun e he => (hr e (List.mem_cons_of_mem _ he)).keeps k2) (by omega)
      refine ⟨r, s', ?_, k2.trans k3, i3⟩
      obtain ⟨p, b, hp, hpb, hk⟩ := ((hr _ List.mem_cons_self).keeps k1).block h1 (by decide)
      have hb1 := k1.mem _ _ hb
      have hcount : objectListCount (newObject addr s .properties).2.mem (.block l) = .ok n := by
        simp only [objectListCount]
        rw [show Kind.objectList = (Block.objectList n).kind from rfl, access_block hb1]; rfl
      have hprops : objectListProperties (newObject addr s .properties).2.mem (.block l) i = .ok (.listProperties l i) := by
        simp only [objectListProperties, hcount, Outcome.map, Outcome.bind_ok]
        rw [if_pos (by omega)]
      have hacc : access (newObject addr s .properties).2.mem .properties (.listProperties l i) = .ok .properties := by
        simp only [access, show (newObject addr s .properties).2.mem[l]? = some (some (Block.objectList n)) from hb1]
        rw [if_pos ⟨trivial, by omega⟩]
      have hset : objectListSet (newObject addr s .properties).2.mem (.block l) i (.block p) = .ok () := by
        simp only [objectListSet, hcount, Outcome.bind_ok]
        rw [if_pos (by omega), ← hk, access_block hpb]; rfl
      have hself : reference (newObject addr s .properties).2 s.next = .ok (.block s.mem.length) := by
        obtain ⟨id, l1⟩ := l1
        exact reference_item h1 l1 rfl
      have hown : access (newObject addr s .properties).2.mem .properties (.block s.mem.length) = .ok .properties := access_block b1
      simp only [wrapObjectsLoop]
      rw [e1, if_neg (by decide), (hl.keeps k1).reference h1, Outcome.bind_ok, hp, Outcome.bind_ok, hset, Outcome.bind_ok, hself, Outcome.bind_ok, hown,
        Outcome.bind_ok, hprops, Outcome.bind_ok, hacc, Outcome.bind_ok, g2, Outcome.bind_ok]
      exact hrun

theorem wrapObjects_ok (haddr : ∀ l, addr l ∉ l) {s : State} {L P : List Nat} (h : Inv s L P) (objects : List (Nat × Bool))
    (hr : ∀ e ∈ objects, Refers s .region e.1) :
    ∃ r s', wrapObjects addr s objects = .ok (r, s') ∧ Keeps s s' ∧ ((r = none ∧ Inv s' L P) ∨
      (r = some s.next ∧ Inv s' (s.next :: L) P ∧ s.next < s'.next ∧ ∃ l, Lists s' .objectList s.next l ∧ At s'.mem l (.objectList objects.length))) := by
  obtain ⟨h1, k1, e1, l1, b1, -⟩ := h.new (addr := addr) haddr (.objectList objects.length)
  obtain ⟨r, s2, hrun, k2, i2⟩ := wrapObjectsLoop_ok haddr objects _ _ _ 0 h1 l1 b1 (fun e he => (hr e he).keeps k1) (by omega)
  cases r with
  | some u =>
    refine ⟨some s.next, s2, ?_, k1.trans k2, .inr ⟨rfl, i2, Nat.lt_of_lt_of_le (Nat.lt_succ_self _) k2.next, _, Lists.keeps l1 k2, k2.mem _ _ b1⟩⟩
    simp only [wrapObjects]
    rw [e1, hrun]; rfl
  | none =>
    obtain ⟨s3, g3, i3, k3, -, -⟩ := h.gone_temp (k1.trans k2) i2 (fun _ hp => hp) (Nat.le_refl s.next)
    refine ⟨none, s3, ?_, k3, .inl ⟨rfl, i3.same fun w => ?_⟩⟩
    · simp only [wrapObjects]
      rw [e1, hrun, Outcome.bind_ok]
      simp only [g3, Outcome.map, Outcome.bind_ok]
    · simp only [List.mem_filter, List.mem_cons, ne_eq, decide_not, Bool.not_eq_eq_eq_not, Bool.not_true, decide_eq_false_iff_not]
      constructor
      · rintro ⟨rfl | hw, hne⟩
        · exact absurd rfl hne
        · exact hw
      · intro hw; have := h.local_lt hw; exact ⟨.inr hw, by omega⟩

/-! ### Lists that arrive -/

theorem wrapImageListLoop_ok (haddr : ∀ l, addr l ∉ l) {l : Nat} {slots : List (Option Nat)} : ∀ (n : Nat) (s : State) (L P : List Nat) (i : Nat),
    Inv s L ((slots.drop i).filterMap id ++ P) → At s.mem l (.imageList slots) → (∀ p, some p ∈ slots → At s.mem p .image) → i + n = slots.length →
    ∃ ws s', wrapImageListLoop addr s (.block l) i n = .ok (ws, s') ∧ Keeps s s' ∧ Inv s' (ws ++ L) P ∧ (∀ w ∈ ws, s.next ≤ w ∧ Refers s' .image w) := by
  intro n
  induction n with
  | zero =>
    intro s L P i h hl hs hi
    refine ⟨[], s, rfl, Keeps.refl s, ?_, by simp⟩
    have : slots.drop i = [] := List.drop_eq_nil_of_le (by omega)
    rw [this] at h; exact h
  | succ n ih =>
    intro s L P i h hl hs hi
    have hlt : i < slots.length := by omega
    have hdrop : slots.drop i = slots[i] :: slots.drop (i + 1) := List.drop_eq_getElem_cons hlt
    have hget : imageListGet s.mem (.block l) i = (match slots[i] with | some p => .ok (.block p) | none => .ok .null) := by
      simp only [imageListGet]
      rw [show Kind.imageList = (Block.imageList slots).kind from rfl, access_block hl, Outcome.bind_ok]
      simp only [List.getElem?_eq_getElem hlt]
      cases slots[i] <;> rfl
    rw [hdrop] at h
    cases hx : slots[i] with
    | none =>
      rw [hx] at h hget
      obtain ⟨ws, s', hrun, hrest⟩ := ih s L P (i + 1) (by simpa using h) hl hs (by omega)
      refine ⟨ws, s', ?_, hrest⟩
      simp only [wrapImageListLoop, hget, Outcome.bind_ok, hrun]
    | some p =>
      rw [hx] at h hget
      have hp : At s.mem p .image := hs p (hx ▸ List.getElem_mem hlt)
      obtain ⟨h1, k1, l1⟩ := Inv.own (addr := addr) haddr (L := L) (P := (slots.drop (i + 1)).filterMap id ++ P) (b := .image) (by simpa using h) hp
      obtain ⟨ws, s', hrun, k2, i2, hw⟩ := ih _ _ P (i + 1) h1 (k1.mem _ _ hl) (fun q hq => k1.mem _ _ (hs q hq)) (by omega)
      refine ⟨s.next :: ws, s', ?_, k1.trans k2, i2.same (by simp; tauto), ?_⟩
      · simp only [wrapImageListLoop, hget, Outcome.bind_ok]
        change (wrapImageListLoop addr (newWrapper addr s (.block p) Block.image.kind true).2 (.block l) (i + 1) n).map _ = _
        rw [hrun]; rfl
      · intro w hw'
        rcases List.mem_cons.mp hw' with rfl | hw'
        · obtain ⟨id, l1⟩ := l1
          exact ⟨Nat.le_refl _, _, k2.refs _ l1, rfl, rfl, rfl⟩
        · have := hw w hw'
          exact ⟨Nat.le_trans k1.next this.1, this.2⟩

theorem wrapObjectListLoop_ok (haddr : ∀ l, addr l ∉ l) {l N : Nat} : ∀ (n : Nat) (s : State) (L P : List Nat) (i : Nat),
    Inv s L P → At s.mem l (.objectList N) → i + n = N →
    ∃ ws s', wrapObjectListLoop addr s (.block l) i n = .ok (ws, s') ∧ Keeps s s' ∧ Inv s' (ws ++ L) P ∧ (∀ w ∈ ws, s.next ≤ w ∧ Refers s' .region w) := by
  intro n
  induction n with
  | zero => intro s L P i h _ _; exact ⟨[], s, rfl, Keeps.refl s, h, by simp⟩
  | succ n ih =>
    intro s L P i h hl hi
    have hcount : objectListCount s.mem (.block l) = .ok N := by
      simp only [objectListCount]
      rw [show Kind.objectList = (Block.objectList N).kind from rfl, access_block hl]; rfl
    have hregion : objectListGet s.mem (.block l) i = .ok (.listRegion l i) := by
      simp only [objectListGet, hcount, Outcome.map, Outcome.bind_ok]; rw [if_pos (by omega)]
    have hprops : objectListProperties s.mem (.block l) i = .ok (.listProperties l i) := by
      simp only [objectListProperties, hcount, Outcome.map, Outcome.bind_ok]; rw [if_pos (by omega)]
    obtain ⟨h1, k1, l1⟩ := h.wrap (addr := addr) (P' := P) haddr (item := .listProperties l i) (k := .properties) (owner := false) (by simp) h.pend (by simp) (by simp)
    obtain ⟨s2, g2, i2, k2, n2, -⟩ := h.gone_temp k1 h1 (fun _ hp => hp) (Nat.le_refl s.next)
    have i2 : Inv s2 L P := i2.same fun w => by
      simp only [List.mem_filter, List.mem_cons, ne_eq, decide_not, Bool.not_eq_eq_eq_not, Bool.not_true, decide_eq_false_iff_not]
      constructor
      · rintro ⟨rfl | hw, hne⟩
        · exact absurd rfl hne
        · exact hw
      · intro hw; have := h.local_lt hw; exact ⟨.inr hw, by omega⟩
    have hacc : access (newWrapper addr s (.listProperties l i) .properties false).2.mem .properties (.listProperties l i) = .ok .properties := by
      simp only [access, show (newWrapper addr s (.listProperties l i) .properties false).2.mem[l]? = some (some (Block.objectList N)) from hl]
      rw [if_pos ⟨trivial, by omega⟩]
    have hself : reference (newWrapper addr s (.listProperties l i) .properties false).2 s.next = .ok (.listProperties l i) := by
      obtain ⟨id, l1⟩ := l1
      exact reference_item h1 l1 rfl
    obtain ⟨h3, k3, e3, l3, b3, m3⟩ := i2.new (addr := addr) haddr .region
    obtain ⟨ws, s', hrun, k4, i4, hw⟩ := ih _ _ P (i + 1) h3 (k3.mem _ _ (k2.mem _ _ hl)) (by omega)
    have hclone : regionClone s2.mem (.listRegion l i) = .ok (.block (alloc s2.mem .region).1, (alloc s2.mem .region).2) := by
      have : access s2.mem .region (.listRegion l i) = .ok .region := by
        simp only [access, show s2.mem[l]? = some (some (Block.objectList N)) from k2.mem _ _ hl]
        rw [if_pos ⟨trivial, by omega⟩]
      simp only [regionClone, this, Outcome.map, Outcome.bind_ok]
    refine ⟨s2.next :: ws, s', ?_, (k2.trans k3).trans k4, i4.same (by simp; tauto), ?_⟩
    · simp only [wrapObjectListLoop, hregion, hprops, Outcome.bind_ok]
      change (reference (newWrapper addr s (.listProperties l i) .properties false).2 s.next).bind _ = _
      rw [hself, Outcome.bind_ok, hacc, Outcome.bind_ok]
      change (Life.gone (newWrapper addr s (.listProperties l i) .properties false).2 s.next).bind _ = _
      rw [g2, Outcome.bind_ok, hclone, Outcome.bind_ok]
      change (wrapObjectListLoop addr (newObject addr s2 .region).2 (.block l) (i + 1) n).map _ = _
      rw [hrun]; rfl
    · intro w hw'
      rcases List.mem_cons.mp hw' with rfl | hw'
      · obtain ⟨id, l3⟩ := l3
        exact ⟨k2.next, _, k4.refs _ l3, rfl, rfl, rfl⟩
      · have := hw w hw'
        exact ⟨Nat.le_trans k2.next (Nat.le_trans k3.next this.1), this.2⟩

theorem wrapObjectList_ok (haddr : ∀ l, addr l ∉ l) {l N : Nat} {s : State} {L P : List Nat} (h : Inv s L P) (hl : At s.mem l (.objectList N)) :
    ∃ ws s', wrapObjectList addr s (.block l) = .ok (ws, s') ∧ Keeps s s' ∧ Inv s' (ws ++ L) P ∧ (∀ w ∈ ws, s.next ≤ w ∧ Refers s' .region w) := by
  obtain ⟨ws, s', hrun, hrest⟩ := wrapObjectListLoop_ok (addr := addr) haddr N s L P 0 h hl (by omega)
  refine ⟨ws, s', ?_, hrest⟩
  have hcount : objectListCount s.mem (.block l) = .ok N := by
    simp only [objectListCount]
    rw [show Kind.objectList = (Block.objectList N).kind from rfl, access_block hl]; rfl
  simp only [wrapObjectList, hcount, Outcome.bind_ok, hrun]

/-- A block that belongs to no wrapper is released. -/
theorem Inv.release {s : State} {L P : List Nat} {p : Nat} {b : Block} (h : Inv s L (p :: P)) (hb : At s.mem p b) :
    Life.release s.mem b.kind (.block p) = .ok (s.mem.set p none) ∧ Inv { s with mem := s.mem.set p none } L P := by
  have hnd := List.nodup_cons.mp h.pend
  refine ⟨by simp only [Life.release, access_block hb, Outcome.map, Outcome.bind_ok], { h with typed := ?_, pend := hnd.2, apart := ?_, live := ?_ }⟩
  · intro e he ho
    rcases h.typed e he ho with ⟨q, c, hq, hc, hk⟩ | hn
    · exact .inl ⟨q, c, hq, at_set_none.mpr ⟨hc, fun hqp => h.apart p List.mem_cons_self e he ho (hqp ▸ hq)⟩, hk⟩
    · exact .inr hn
  · intro q hq; exact h.apart q (List.mem_cons_of_mem _ hq)
  · intro q
    constructor
    · rintro ⟨c, hc⟩
      obtain ⟨hc, hne⟩ := at_set_none.mp hc
      rcases (h.live q).mp ⟨c, hc⟩ with hq | hq
      · rcases List.mem_cons.mp hq with hq | hq
        · exact absurd hq hne
        · exact .inl hq
      · exact .inr hq
    · rintro (hq | ⟨e, he, ho, hi⟩)
      · obtain ⟨c, hc⟩ := (h.live q).mpr (.inl (List.mem_cons_of_mem _ hq))
        exact ⟨c, at_set_none.mpr ⟨hc, fun hqp => hnd.1 (hqp ▸ hq)⟩⟩
      · obtain ⟨c, hc⟩ := (h.live q).mpr (.inr ⟨e, he, ho, hi⟩)
        exact ⟨c, at_set_none.mpr ⟨hc, fun hqp => h.apart p List.mem_cons_self e he ho (hqp ▸ hi)⟩⟩

theorem allocImages_ok (l : List Bool) : ∀ (s : State) (L P : List Nat), Inv s L P →
    Inv { s with mem := (allocImages s.mem l).2 } L ((allocImages s.mem l).1.filterMap id ++ P) ∧ Keeps s { s with mem := (allocImages s.mem l).2 } ∧
      (allocImages s.mem l).1.length = l.length ∧ (∀ p, some p ∈ (allocImages s.mem l).1 → At (allocImages s.mem l).2 p .image) := by
  induction l with
  | nil => intro s L P h; exact ⟨h, Keeps.refl s, rfl, by simp [allocImages]⟩
  | cons x rest ih =>
    intro s L P h
    cases x with
    | false =>
      obtain ⟨h1, k1, e1, a1⟩ := ih s L P h
      exact ⟨by simpa [allocImages] using h1, k1, by simp [allocImages, e1], by simpa [allocImages] using a1⟩
    | true =>
      obtain ⟨h0, k0⟩ := h.alloc .image
      obtain ⟨h1, k1, e1, a1⟩ := ih _ L _ h0
      refine ⟨?_, k0.trans k1, by simpa [allocImages] using e1, ?_⟩
      · have := h1.perm (List.perm_middle)
        simpa [allocImages] using this
      · intro p hp
        simp only [allocImages, List.mem_cons, Option.some.injEq] at hp
        rcases hp with rfl | hp
        · exact k1.mem _ _ (at_alloc_new _ _)
        · exact a1 p hp

/-- A result is stored in a variable of the program. -/
theorem Inv.keep {s : State} {L P ws : List Nat} (h : Inv s (ws ++ L) P) (hL : ∀ w ∈ L, w ∉ ws)
    (hw : ∀ w ∈ ws, Refers s .image w ∨ Refers s .region w ∨ Refers s .properties w) : Inv { s with vars := s.vars ++ [ws] } L P := by
  refine { h with known := ?_, sep := ?_, simple := ?_ }
  · intro w; rw [h.known w]; simp only [List.flatten_append, List.flatten_cons, List.flatten_nil, List.append_nil, List.mem_append]; tauto
  · intro w hwL hv
    simp only [List.flatten_append, List.flatten_cons, List.flatten_nil, List.append_nil, List.mem_append] at hv
    rcases hv with hv | hv
    · exact h.sep w (List.mem_append_right _ hwL) hv
    · exact hL w hwL hv
  · intro e he hv
    simp only [List.flatten_append, List.flatten_cons, List.flatten_nil, List.append_nil, List.mem_append] at hv
    rcases hv with hv | hv
    · exact h.simple e he hv
    · rcases hw _ hv with ⟨x, hx, hxw, hxk, hxo⟩ | ⟨x, hx, hxw, hxk, hxo⟩ | ⟨x, hx, hxw, hxk, hxo⟩ <;>
        (have := names_inj h he hx hxw; subst this; simp [hxk, hxo])

end Trax.Py.Life
