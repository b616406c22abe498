import Verif.Lemmas.Wrapper
import Verif.Lemmas.Properties
import Verif.Lemmas.RegionApi
import Verif.Spec.Values

/-!
# Lemmas about the values of C++ objects
-/

namespace Trax.Cpp

open Trax.Cpp.Spec (Ref Val Values)

variable {α β : Type}

/-! ## Contents -/

/-- The objects of `m` that are still there in `m'` are unchanged. -/
def Older (m m' : Mem α) : Prop :=
  ∀ n : Nat, n < m.objects.length → ∀ a, m'.objects[n]? = some (some a) → m.objects[n]? = some (some a)

theorem Older.refl (m : Mem α) : Older m m := fun _ _ _ h => h

theorem Older.of_eq {m m' : Mem α} (h : m'.objects = m.objects) : Older m m' := fun n _ a h' => by rw [h] at h'; exact h'

theorem Older.trans {m m' m'' : Mem α} (h : Older m m') (h' : Older m' m'') (hl : m.objects.length ≤ m'.objects.length) :
    Older m m'' := fun n hn a ha => h n hn a (h' n (by omega) a ha)

theorem acquire_objects {m m' : Mem α} {x : Nat} (h : m.acquire x = .ok m') : m'.objects = m.objects := by
  unfold Mem.acquire at h
  cases hv : m.var x with
  | ok w =>
    rw [hv] at h
    simp only [Outcome.bind_ok] at h
    split at h
    · cases h; rfl
    · next c _ =>
      cases hc : m.counter c with
      | ok n => rw [hc] at h; cases h; rfl
      | abort => rw [hc] at h; cases h
      | ub => rw [hc] at h; cases h
  | abort => rw [hv] at h; cases h
  | ub => rw [hv] at h; cases h

theorem setPtr_objects {m m' : Mem α} {x : Nat} {p : Ptr} (h : m.setPtr x p = .ok m') : m'.objects = m.objects := by
  unfold Mem.setPtr at h
  cases hv : m.var x with
  | ok w => rw [hv] at h; cases h; rfl
  | abort => rw [hv] at h; cases h
  | ub => rw [hv] at h; cases h

theorem dropCounter_objects {m m' : Mem α} {x : Nat} (h : m.dropCounter x = .ok m') : m'.objects = m.objects := by
  unfold Mem.dropCounter at h
  cases hv : m.var x with
  | ok w => rw [hv] at h; cases h; rfl
  | abort => rw [hv] at h; cases h
  | ub => rw [hv] at h; cases h

theorem getElem?_set_none {l : List (Option α)} {k n : Nat} {a : α} (h : (l.set k none)[n]? = some (some a)) :
    l[n]? = some (some a) := by
  by_cases e : k = n
  · subst e
    rcases Nat.lt_or_ge k l.length with h' | h'
    · rw [List.getElem?_set_self h'] at h; cases h
    · rw [List.getElem?_eq_none (by simpa using h')] at h; cases h
  · rw [List.getElem?_set_ne e] at h; exact h

theorem cleanup_older {m m' : Mem α} {x : Nat} (h : m.cleanup x = .ok m') : Older m m' := by
  unfold Mem.cleanup at h
  cases hv : m.var x with
  | ok w =>
    rw [hv] at h
    simp only [Outcome.bind_ok] at h
    split at h
    · cases h; exact Older.refl _
    · next n hn =>
      cases ho : m.object w.ptr with
      | ok a =>
        rw [ho] at h; cases h
        intro j _ b hb
        exact getElem?_set_none hb
      | abort => rw [ho] at h; cases h
      | ub => rw [ho] at h; cases h
    · cases h
  | abort => rw [hv] at h; cases h
  | ub => rw [hv] at h; cases h

theorem release_older {m m' : Mem α} {x : Nat} (h : m.release x = .ok m') : Older m m' := by
  unfold Mem.release at h
  cases hv : m.var x with
  | ok w =>
    rw [hv] at h
    simp only [Outcome.bind_ok] at h
    split at h
    · cases h; exact Older.refl _
    · next c hc =>
      cases ho : m.counter c with
      | ok n =>
        rw [ho] at h
        simp only [Outcome.bind_ok] at h
        split at h
        · cases hcl : Mem.cleanup ({ m with counters := m.counters.set c (some (n - 1)) } : Mem α) x with
          | ok m1 =>
            rw [hcl] at h
            simp only [Outcome.bind_ok] at h
            have h1 := cleanup_older hcl
            have h2 := dropCounter_objects h
            intro j hj a ha
            rw [h2] at ha
            exact h1 j hj a ha
          | abort => rw [hcl] at h; cases h
          | ub => rw [hcl] at h; cases h
        · have h2 := dropCounter_objects h
          intro j hj a ha
          rw [h2] at ha
          exact ha
      | abort => rw [ho] at h; cases h
      | ub => rw [ho] at h; cases h
  | abort => rw [hv] at h; cases h
  | ub => rw [hv] at h; cases h

/-- `wrap` keeps the other objects and makes the new one. -/
theorem wrapNew_older {m m' : Mem α} {x : Nat} {a : α} (h : m.wrapNew x a = .ok m') :
    Older m m' ∧ ∀ b, m'.objects[m.objects.length]? = some (some b) → b = a := by
  unfold Mem.wrapNew at h
  dsimp only at h
  cases h1 : (m.newObject a).2.release x with
  | ok m1 =>
    rw [h1] at h
    simp only [Outcome.bind_ok] at h
    cases h2 : m1.acquire x with
    | ok m2 =>
      rw [h2] at h
      simp only [Outcome.bind_ok] at h
      have e : m'.objects = m1.objects := by rw [setPtr_objects h, acquire_objects h2]
      have ho := release_older h1
      constructor
      · intro n hn b hb
        rw [e] at hb
        have := ho n (by simp [Mem.newObject]; omega) b hb
        simp only [Mem.newObject] at this
        rwa [List.getElem?_append_left hn] at this
      · intro b hb
        rw [e] at hb
        have := ho _ (by simp [Mem.newObject]) b hb
        simp [Mem.newObject] at this
        exact this.symm
    | abort => rw [h2] at h; cases h
    | ub => rw [h2] at h; cases h
  | abort => rw [h1] at h; cases h
  | ub => rw [h1] at h; cases h

/-! ## Counting -/

/-- `claims` tells whether another variable stands for the same object. -/
theorem Inv.claims {m : Mem α} {v pend} (h : Inv m v pend) {x r} (hx : v x = some r) :
    ∃ k : Int, m.claims x = .ok k ∧
      ∀ n, r = .to n → 1 ≤ k ∧ (1 < k ↔ ∃ y, y ≠ x ∧ v y = some (.to n)) := by
  obtain ⟨w, hw⟩ := h.alive hx
  unfold Mem.claims Mem.var
  rw [hw]
  simp only [Outcome.bind_ok]
  cases hc : w.pn with
  | none =>
    refine ⟨0, rfl, ?_⟩
    rintro n rfl
    exact absurd hc (h.stands x w _ hw hx).2.1
  | some c =>
    obtain ⟨k, hk⟩ := h.held x w c hw hc
    refine ⟨k, by simp only [Mem.counter, hk], ?_⟩
    rintro n rfl
    obtain ⟨l, ⟨l1, l2⟩, l3, l4⟩ := h.count c k hk
    have hxl : x ∈ l := (l2 x).mpr ⟨w, hw, hc⟩
    have hpos := List.length_pos_iff.mpr l3
    refine ⟨by omega, ?_, ?_⟩
    · intro h1
      have hlen : l.length ≥ 2 := by omega
      obtain ⟨z, hz, hzx⟩ : ∃ z ∈ l, z ≠ x := by
        match l, l1, hlen with
        | a :: b :: _, hnd, _ =>
          by_cases e : a = x
          · refine ⟨b, by simp, ?_⟩
            rintro rfl
            subst e
            simp at hnd
          · exact ⟨a, by simp, e⟩
      obtain ⟨wz, hwz, hcz⟩ := (l2 z).mp hz
      exact ⟨z, hzx, by rw [h.shared z x wz w c hwz hw hcz hc, hx]⟩
    · rintro ⟨y, hyx, hy⟩
      obtain ⟨wy, hwy⟩ := h.alive hy
      have := h.same x y w wy n hw hwy hx hy
      have hyl : y ∈ l := (l2 y).mpr ⟨wy, hwy, this ▸ hc⟩
      match l, l1, hxl, hyl, l4 with
      | [a], _, h1, h2, _ =>
        rw [List.mem_singleton] at h1 h2
        exact absurd (h2.trans h1.symm) hyx
      | a :: b :: t, _, _, _, l4 => simp at l4; omega

/-! ## Values -/

/-- What the variable stands for in memory has the value that the specification says. -/
def Matches (R : Option α → β → Prop) (m : Mem α) : Option Ref → Option (Val β) → Prop
  | none, none => True
  | some .moved, some .moved => True
  | some .nothing, some (.val _ b) => R none b
  | some (.to n), some (.val _ b) => ∃ a, m.objects[n]? = some (some a) ∧ R (some a) b
  | _, _ => False

structure VInv (R : Option α → β → Prop) (m : Mem α) (s : Values β) (v : Nat → Option Ref) : Prop where
  inv : Inv m v fun _ => False
  val : ∀ x, Matches R m (v x) (s.vars x)
  tag : ∀ x y n t t' b b', v x = some (.to n) → v y = some (.to n) → s.vars x = some (.val t b) → s.vars y = some (.val t' b') → t = t'
  bound : ∀ x t b, s.vars x = some (.val t b) → t < s.next

theorem Matches.mono {R : Option α → β → Prop} {m m' : Mem α} {r : Option Ref} {sv : Option (Val β)} (h : Matches R m r sv)
    (hm : ∀ n, r = some (.to n) → m'.objects[n]? = m.objects[n]?) : Matches R m' r sv := by
  match r, sv, h with
  | none, none, h => exact h
  | some .moved, some .moved, h => exact h
  | some .nothing, some (.val _ b), h => exact h
  | some (.to n), some (.val _ b), ⟨a, h1, h2⟩ => exact ⟨a, by rw [hm n rfl]; exact h1, h2⟩

theorem Inv.lt {m : Mem α} {v pend} (h : Inv m v pend) {x n} (hx : v x = some (.to n)) : n < m.objects.length := by
  obtain ⟨w, hw⟩ := h.alive hx
  obtain ⟨-, -, a, ha⟩ := h.stands x w _ hw hx
  rcases Nat.lt_or_ge n m.objects.length with h' | h'
  · exact h'
  · rw [List.getElem?_eq_none h'] at ha; cases ha

theorem Inv.same_content {m m' : Mem α} {v v' pend pend'} (h : Inv m v pend) (h' : Inv m' v' pend') (ho : Older m m') {x y n}
    (hx : v x = some (.to n)) (hy : v' y = some (.to n)) : m'.objects[n]? = m.objects[n]? := by
  obtain ⟨w, hw⟩ := h'.alive hy
  obtain ⟨-, -, a, ha⟩ := h'.stands y w _ hw hy
  rw [ha, ho n (h.lt hx) a ha]

/-- A step in which every variable keeps its value, takes that of another one, or gets one of its own. -/
theorem VInv.evolve {R : Option α → β → Prop} {m m' : Mem α} {s s' : Values β} {v v' : Nat → Option Ref} (h : VInv R m s v)
    (hI : Inv m' v' fun _ => False) (ho : Older m m') (hn : s.next ≤ s'.next)
    (hz : ∀ z, (∃ z₀, v' z = v z₀ ∧ s'.vars z = s.vars z₀) ∨
      (Matches R m' (v' z) (s'.vars z) ∧ (∀ t b, s'.vars z = some (.val t b) → t < s'.next) ∧
        ∀ n, v' z = some (.to n) → ∀ y, y ≠ z → v' y ≠ some (.to n))) :
    VInv R m' s' v' := by
  refine ⟨hI, ?_, ?_, ?_⟩
  · intro z
    rcases hz z with ⟨z₀, e1, e2⟩ | ⟨h1, -⟩
    · rw [e1, e2]
      exact (h.val z₀).mono fun n hn => h.inv.same_content hI ho hn (by rw [e1]; exact hn)
    · exact h1
  · intro x y n t t' b b' hx hy hsx hsy
    by_cases e : y = x
    · subst e; rw [hsx] at hsy; cases hsy; rfl
    rcases hz x with ⟨x₀, e1, e2⟩ | ⟨-, -, h1⟩
    · rcases hz y with ⟨y₀, e3, e4⟩ | ⟨-, -, h1⟩
      · exact h.tag x₀ y₀ n t t' b b' (e1 ▸ hx) (e3 ▸ hy) (e2 ▸ hsx) (e4 ▸ hsy)
      · exact absurd hx (h1 n hy x (Ne.symm e))
    · exact absurd hy (h1 n hx y e)
  · intro x t b hx
    rcases hz x with ⟨x₀, e1, e2⟩ | ⟨-, h1, -⟩
    · rw [e2] at hx
      exact Nat.lt_of_lt_of_le (h.bound x₀ t b hx) hn
    · exact h1 t b hx

theorem own_vars (s : Values β) (x : Nat) (b : β) (z : Nat) :
    (s.own x b).vars z = if z = x then some (.val s.next b) else s.vars z := rfl

theorem VInv.alive {R : Option α → β → Prop} {m : Mem α} {s : Values β} {v : Nat → Option Ref} (h : VInv R m s v) {x w}
    (hx : s.vars x = some w) : ∃ r, v x = some r := by
  have := h.val x
  rw [hx] at this
  cases e : v x with
  | none => rw [e] at this; cases w <;> exact this.elim
  | some r => exact ⟨r, rfl⟩

theorem VInv.dead {R : Option α → β → Prop} {m : Mem α} {s : Values β} {v : Nat → Option Ref} (h : VInv R m s v) {x}
    (hx : s.vars x = none) : v x = none := by
  have := h.val x
  rw [hx] at this
  cases e : v x with
  | none => rfl
  | some r => rw [e] at this; cases r <;> exact this.elim

theorem VInv.notMoved {R : Option α → β → Prop} {m : Mem α} {s : Values β} {v : Nat → Option Ref} (h : VInv R m s v) {x w}
    (hx : s.vars x = some w) (hm : w ≠ .moved) : ∃ r, v x = some r ∧ r ≠ .moved := by
  obtain ⟨r, hr⟩ := h.alive hx
  refine ⟨r, hr, ?_⟩
  rintro rfl
  have := h.val x
  rw [hx, hr] at this
  cases w with
  | moved => exact hm rfl
  | val t b => exact this

theorem VInv.construct {R : Option α → β → Prop} {m : Mem α} {s : Values β} {v : Nat → Option Ref} (h : VInv R m s v) {x}
    (hx : s.vars x = none) (b : β) (hR : R none b) : VInv R (m.construct x) (s.own x b) (upd v x (some .nothing)) := by
  have hvx := h.dead hx
  have hI := h.inv.setFree x .null .nothing (fun w hw => by rw [(h.inv.dom x).mpr hvx] at hw; cases hw) (.inr ⟨rfl, rfl⟩)
    (fun n hn => by rw [hvx] at hn; cases hn)
  refine h.evolve hI (Older.of_eq rfl) (by simp [Values.own]) fun z => ?_
  by_cases e : z = x
  · subst e
    right
    rw [own_vars, if_pos rfl, upd_same]
    refine ⟨hR, ?_, fun n hn => by cases hn⟩
    intro t b' hb; cases hb; simp [Values.own]
  · left
    exact ⟨z, upd_ne _ _ e, by rw [own_vars, if_neg e]⟩

theorem VInv.wrapNew {R : Option α → β → Prop} {m : Mem α} {s : Values β} {v : Nat → Option Ref} (h : VInv R m s v) {x w}
    (hx : s.vars x = some w) (a : α) (b : β) (hR : R (some a) b) :
    ∃ m' v', m.wrapNew x a = .ok m' ∧ VInv R m' (s.own x b) v' ∧ v' x = some (.to m.objects.length) ∧
      (∀ z, z ≠ x → v' z = v z) ∧ m'.objects[m.objects.length]? = some (some a) ∧ Older m m' := by
  obtain ⟨r, hr⟩ := h.alive hx
  obtain ⟨m', e, hI, hl⟩ := h.inv.wrapNew hr a
  obtain ⟨ho, hc⟩ := wrapNew_older e
  have hobj : m'.objects[m.objects.length]? = some (some a) := by
    rcases hI.obj m.objects.length (by omega) with ⟨⟨a', h1⟩, -⟩ | ⟨-, -, h3, -⟩
    · rw [h1, hc a' h1]
    · exact absurd ⟨x, upd_same _ _ _⟩ h3
  refine ⟨m', _, e, h.evolve hI ho (by simp [Values.own]) fun z => ?_, upd_same _ _ _, fun z hz => upd_ne _ _ hz, hobj, ho⟩
  by_cases e : z = x
  · subst e
    right
    rw [own_vars, if_pos rfl, upd_same]
    refine ⟨⟨a, hobj, hR⟩, ?_, ?_⟩
    · intro t b' hb; cases hb; simp [Values.own]
    · intro n hn y hy hvy
      cases hn
      rw [upd_ne _ _ hy] at hvy
      exact absurd (h.inv.lt hvy) (Nat.lt_irrefl _)
  · left
    exact ⟨z, upd_ne _ _ e, by rw [own_vars, if_neg e]⟩

theorem VInv.copy {R : Option α → β → Prop} {m : Mem α} {s s' : Values β} {v : Nat → Option Ref} (h : VInv R m s v) {x y}
    (hs : s.copy x y = some s') (hm : ¬ s.Moved y) : ∃ m' v', m.copyConstruct x y = .ok m' ∧ VInv R m' s' v' := by
  unfold Values.copy at hs
  split at hs
  · next w hx hy =>
    cases hs
    have hvx := h.dead hx
    obtain ⟨r, hr, hrm⟩ := h.notMoved hy (by rintro rfl; exact hm hy)
    obtain ⟨m', e, hI, hl⟩ := Inv.step (s := ⟨v, m.objects.length⟩) .region (.copy x y) h.inv rfl
      (show v y ≠ some .moved by rw [hr]; intro e; exact hrm (Option.some.inj e))
      (show Spec.State.step _ _ = some _ by simp only [Spec.State.step, hvx, hr]; rfl)
    refine ⟨m', _, e, h.evolve hI ?_ (by simp [Values.put]) fun z => .inl ?_⟩
    · simp only [step, Mem.copyConstruct] at e
      cases h1 : m.var y with
      | ok o =>
        rw [h1] at e
        simp only [Outcome.bind_ok] at e
        cases h2 : (m.setVar x (some ⟨o.pn, .wild⟩)).acquire x with
        | ok m1 =>
          rw [h2] at e
          simp only [Outcome.bind_ok] at e
          exact Older.of_eq (by rw [setPtr_objects e, acquire_objects h2]; rfl)
        | abort => rw [h2] at e; cases e
        | ub => rw [h2] at e; cases e
      | abort => rw [h1] at e; cases e
      | ub => rw [h1] at e; cases e
    · by_cases e : z = x
      · subst e; exact ⟨y, by simp [Spec.State.set, hr], by simp [Values.put, hy]⟩
      · exact ⟨z, by simp [Spec.State.set, e], by simp [Values.put, e]⟩
  · cases hs

theorem VInv.move {R : Option α → β → Prop} {m : Mem α} {s s' : Values β} {v : Nat → Option Ref} (k : Kind) (h : VInv R m s v) {x y}
    (hs : s.move x y = some s') : ∃ m' v', m.moveConstruct k x y = .ok m' ∧ VInv R m' s' v' := by
  unfold Values.move at hs
  split at hs
  · next w hx hy =>
    cases hs
    have hvx := h.dead hx
    obtain ⟨r, hr⟩ := h.alive hy
    have hxy : y ≠ x := by rintro rfl; rw [hx] at hy; cases hy
    obtain ⟨m', e, hI, hl⟩ := Inv.step (s := ⟨v, m.objects.length⟩) k (.move x y) h.inv rfl trivial
      (show Spec.State.step _ _ = some _ by simp only [Spec.State.step, hvx, hr]; rfl)
    refine ⟨m', _, e, h.evolve hI ?_ (by simp [Values.put]) fun z => ?_⟩
    · simp only [step, Mem.moveConstruct] at e
      cases h1 : m.var y with
      | ok o => rw [h1] at e; cases e; exact Older.of_eq rfl
      | abort => rw [h1] at e; cases e
      | ub => rw [h1] at e; cases e
    · by_cases e1 : z = x
      · subst e1; exact .inl ⟨y, by simp [Spec.State.set, hr], by simp [Values.put, hy]⟩
      · by_cases e' : z = y
        · subst e'
          right
          simp only [Spec.State.set, Values.put, if_neg e1, if_true]
          refine ⟨trivial, ?_, ?_⟩
          · intro t b hb; cases hb
          · intro n hn; cases hn
        · exact .inl ⟨z, by simp [Spec.State.set, e1, e'], by simp [Values.put, e1, e']⟩
  · cases hs

theorem assign_older {m m' : Mem α} {x y : Nat} (h : m.assign x y = .ok m') : Older m m' := by
  unfold Mem.assign at h
  cases h1 : m.release x with
  | ok m1 =>
    rw [h1] at h
    simp only [Outcome.bind_ok] at h
    cases h2 : m1.var y with
    | ok o =>
      rw [h2] at h
      simp only [Outcome.bind_ok] at h
      cases h3 : m1.var x with
      | ok w =>
        rw [h3] at h
        simp only [Outcome.bind_ok] at h
        cases h4 : (m1.setVar x (some { w with pn := o.pn })).acquire x with
        | ok m2 =>
          rw [h4] at h
          simp only [Outcome.bind_ok] at h
          cases h5 : m2.var y with
          | ok o' =>
            rw [h5] at h
            simp only [Outcome.bind_ok] at h
            have e : m'.objects = m1.objects := by rw [setPtr_objects h, acquire_objects h4]; rfl
            intro n hn a ha
            rw [e] at ha
            exact release_older h1 n hn a ha
          | abort => rw [h5] at h; cases h
          | ub => rw [h5] at h; cases h
        | abort => rw [h4] at h; cases h
        | ub => rw [h4] at h; cases h
      | abort => rw [h3] at h; cases h
      | ub => rw [h3] at h; cases h
    | abort => rw [h2] at h; cases h
    | ub => rw [h2] at h; cases h
  | abort => rw [h1] at h; cases h
  | ub => rw [h1] at h; cases h

theorem VInv.assign {R : Option α → β → Prop} {m : Mem α} {s s' : Values β} {v : Nat → Option Ref} (h : VInv R m s v) {x y}
    (hs : s.assign x y = some s') (hxy : x ≠ y) (hm : ¬ s.Moved y) : ∃ m' v', m.assign x y = .ok m' ∧ VInv R m' s' v' := by
  unfold Values.assign at hs
  split at hs
  · next w' w hx hy =>
    cases hs
    obtain ⟨q, hq⟩ := h.alive hx
    obtain ⟨r, hr, hrm⟩ := h.notMoved hy (by rintro rfl; exact hm hy)
    obtain ⟨m', e, hI, hl⟩ := Inv.step (s := ⟨v, m.objects.length⟩) .region (.assign x y) h.inv rfl
      (show x ≠ y ∧ v y ≠ some .moved by refine ⟨hxy, ?_⟩; rw [hr]; intro e; exact hrm (Option.some.inj e))
      (show Spec.State.step _ _ = some _ by simp only [Spec.State.step, hq, hr]; rfl)
    refine ⟨m', _, e, h.evolve hI (assign_older e) (by simp [Values.put]) fun z => .inl ?_⟩
    by_cases e : z = x
    · subst e; exact ⟨y, by simp [Spec.State.set, hr], by simp [Values.put, hy]⟩
    · exact ⟨z, by simp [Spec.State.set, e], by simp [Values.put, e]⟩
  · cases hs

theorem VInv.moveAssign {R : Option α → β → Prop} {m : Mem α} {s s' : Values β} {v : Nat → Option Ref} (h : VInv R m s v) {x y}
    (hs : s.moveAssign x y = some s') : ∃ m' v', m.moveAssign x y = .ok m' ∧ VInv R m' s' v' := by
  unfold Values.moveAssign at hs
  split at hs
  · next w' w hx hy =>
    cases hs
    obtain ⟨q, hq⟩ := h.alive hx
    obtain ⟨r, hr⟩ := h.alive hy
    obtain ⟨m', e, hI, hl⟩ := Inv.step (s := ⟨v, m.objects.length⟩) .region (.moveAssign x y) h.inv rfl trivial
      (show Spec.State.step _ _ = some _ by simp only [Spec.State.step, hq, hr]; rfl)
    refine ⟨m', _, e, h.evolve hI ?_ (by simp [Values.put]) fun z => .inl ?_⟩
    · simp only [step, Mem.moveAssign] at e
      cases h1 : m.var x with
      | ok o =>
        rw [h1] at e
        simp only [Outcome.bind_ok] at e
        cases h2 : m.var y with
        | ok o => rw [h2] at e; cases e; exact Older.of_eq rfl
        | abort => rw [h2] at e; cases e
        | ub => rw [h2] at e; cases e
      | abort => rw [h1] at e; cases e
      | ub => rw [h1] at e; cases e
    · by_cases e' : z = y
      · subst e'; exact ⟨x, by simp [Spec.State.set, hq], by simp [Values.put, hx]⟩
      · by_cases e : z = x
        · subst e; exact ⟨y, by simp [Spec.State.set, hr, e'], by simp [Values.put, hy, e']⟩
        · exact ⟨z, by simp [Spec.State.set, e, e'], by simp [Values.put, e, e']⟩
  · cases hs

theorem VInv.destroy {R : Option α → β → Prop} {m : Mem α} {s s' : Values β} {v : Nat → Option Ref} (h : VInv R m s v) {x}
    (hs : s.destroy x = some s') : ∃ m' v', m.destroy x = .ok m' ∧ VInv R m' s' v' := by
  unfold Values.destroy at hs
  split at hs
  · next w hx =>
    cases hs
    obtain ⟨q, hq⟩ := h.alive hx
    obtain ⟨m', e, hI, hl⟩ := Inv.step (s := ⟨v, m.objects.length⟩) .region (.destroy x) h.inv rfl trivial
      (show Spec.State.step _ _ = some _ by simp only [Spec.State.step, hq]; rfl)
    refine ⟨m', _, e, h.evolve hI ?_ (by simp [Values.put]) fun z => ?_⟩
    · simp only [step, Mem.destroy] at e
      cases h1 : m.release x with
      | ok m1 =>
        rw [h1] at e; cases e
        intro n hn a ha
        exact release_older h1 n hn a ha
      | abort => rw [h1] at e; cases e
      | ub => rw [h1] at e; cases e
    · by_cases e : z = x
      · subst e
        right
        simp only [Spec.State.set, Values.put, if_true]
        refine ⟨trivial, ?_, ?_⟩
        · intro t b hb; cases hb
        · intro n hn; cases hn
      · exact .inl ⟨z, by simp [Spec.State.set, e], by simp [Values.put, e]⟩
  · cases hs

/-- An object that only one variable stands for is changed in place. -/
theorem VInv.inplace {R : Option α → β → Prop} {m : Mem α} {s : Values β} {v : Nat → Option Ref} (h : VInv R m s v) {x n : Nat} {a : α}
    (hx : v x = some (.to n)) (ha : m.objects[n]? = some (some a)) (hu : ∀ y, y ≠ x → v y ≠ some (.to n)) (a' : α) (b' : β)
    (hR : R (some a') b') :
    ∃ m', m.setObject (.obj n) a' = .ok m' ∧ VInv R m' (s.own x b') v := by
  have hlt := h.inv.lt hx
  refine ⟨{ m with objects := m.objects.set n (some a') }, by simp only [Mem.setObject, Mem.object, ha, Outcome.map, Outcome.bind_ok], ?_, ?_, ?_, ?_⟩
  · have hal : ∀ k : Nat, (∃ b, m.objects[k]? = some (some b)) → ∃ b, (m.objects.set n (some a'))[k]? = some (some b) := by
      rintro k ⟨b, hb⟩
      by_cases e : n = k
      · subst e; exact ⟨a', List.getElem?_set_self hlt⟩
      · exact ⟨b, by rw [List.getElem?_set_ne e]; exact hb⟩
    refine ⟨h.inv.dom, ?_, h.inv.held, h.inv.count, h.inv.shared, h.inv.same, ?_, ?_, h.inv.pending⟩
    · intro z w r hw hz
      have := h.inv.stands z w r hw hz
      cases r with
      | nothing => exact this
      | moved => exact this
      | «to» k => exact ⟨this.1, this.2.1, hal k this.2.2⟩
    · intro k hk
      simp only [List.length_set] at hk
      rcases h.inv.obj k hk with ⟨h1, h2, h3⟩ | ⟨h1, h2, h3, h4⟩
      · exact .inl ⟨hal k h1, h2, h3⟩
      · right
        refine ⟨?_, h2, h3, h4⟩
        have e : n ≠ k := by rintro rfl; rw [ha] at h1; cases h1
        dsimp only
        rw [List.getElem?_set_ne e]; exact h1
    · intro k hk
      simp only [List.length_set]
      exact h.inv.rel k hk
  · intro z
    rw [own_vars]
    by_cases e : z = x
    · subst e
      rw [if_pos rfl, hx]
      exact ⟨a', List.getElem?_set_self hlt, hR⟩
    · rw [if_neg e]
      refine (h.val z).mono fun k hk => ?_
      have : n ≠ k := by rintro rfl; exact hu z e hk
      exact List.getElem?_set_ne this
  · intro y z k t t' b c hy hz hsy hsz
    rw [own_vars] at hsy hsz
    by_cases e1 : y = x <;> by_cases e2 : z = x
    · subst e1; subst e2; rw [if_pos rfl] at hsy hsz; rw [hsy] at hsz; cases hsz; rfl
    · subst e1; rw [hx] at hy; cases hy; exact absurd hz (hu z e2)
    · subst e2; rw [hx] at hz; cases hz; exact absurd hy (hu y e1)
    · rw [if_neg e1] at hsy; rw [if_neg e2] at hsz
      exact h.tag y z k t t' b c hy hz hsy hsz
  · intro z t b hz
    rw [own_vars] at hz
    show t < s.next + 1
    by_cases e : z = x
    · rw [if_pos e] at hz; cases hz; omega
    · rw [if_neg e] at hz
      exact Nat.lt_succ_of_lt (h.bound z t b hz)

/-- A variable with a value: what its pointer is. -/
theorem VInv.cases {R : Option α → β → Prop} {m : Mem α} {s : Values β} {v : Nat → Option Ref} (h : VInv R m s v) {x t b}
    (hx : s.vars x = some (.val t b)) :
    ∃ w, m.vars x = some w ∧
      ((v x = some .nothing ∧ w.ptr = .null ∧ R none b) ∨
        ∃ n a, v x = some (.to n) ∧ w.ptr = .obj n ∧ m.objects[n]? = some (some a) ∧ R (some a) b) := by
  obtain ⟨r, hr, hrm⟩ := h.notMoved hx (by rintro ⟨⟩)
  obtain ⟨w, hw⟩ := h.inv.alive hr
  have hst := h.inv.stands x w r hw hr
  have hv := h.val x
  rw [hx, hr] at hv
  refine ⟨w, hw, ?_⟩
  cases r with
  | moved => exact absurd rfl hrm
  | nothing => exact .inl ⟨hr, hst, hv⟩
  | «to» n =>
    obtain ⟨a, h1, h2⟩ := hv
    exact .inr ⟨n, a, hr, hst.1, h1, h2⟩

theorem VInv.start {R : Option α → β → Prop} : VInv R (Mem.start : Mem α) Values.start (fun _ => none) where
  inv := Inv.start
  val := fun _ => trivial
  tag := by intro x y n t t' b b' h; cases h
  bound := by intro x t b h; cases h

/-- If only `x` has its tag, no other variable stands for its object. -/
theorem VInv.unshared {R : Option α → β → Prop} {m : Mem α} {s : Values β} {v : Nat → Option Ref} (h : VInv R m s v) {x n t b}
    (hx : s.vars x = some (.val t b)) (hv : v x = some (.to n)) (hs : ¬ s.Shared x) : ∀ y, y ≠ x → v y ≠ some (.to n) := by
  intro y hy hvy
  have := h.val y
  rw [hvy] at this
  cases e : s.vars y with
  | none => rw [e] at this; exact this
  | some u =>
    rw [e] at this
    cases u with
    | moved => exact this
    | val t' b' =>
      have := h.tag x y n t t' b b' hv hvy hx e
      subst this
      exact hs ⟨y, t, b, b', hy, hx, e⟩


/-- Two values of its own one after the other are as good as one. -/
theorem VInv.own_own {R : Option α → β → Prop} {m : Mem α} {s : Values β} {v : Nat → Option Ref} {x : Nat} {b b' : β}
    (hb : ∀ z t c, s.vars z = some (.val t c) → t < s.next) (h : VInv R m ((s.own x b).own x b') v) : VInv R m (s.own x b') v := by
  have hv : ∀ z, z ≠ x → ((s.own x b).own x b').vars z = s.vars z := by
    intro z hz; rw [own_vars, if_neg hz, own_vars, if_neg hz]
  refine ⟨h.inv, ?_, ?_, ?_⟩
  · intro z
    have := h.val z
    rw [own_vars]
    by_cases e : z = x
    · subst e
      rw [own_vars, if_pos rfl] at this
      rw [if_pos rfl]
      cases hr : v z with
      | none => rw [hr] at this; exact this
      | some r => rw [hr] at this; cases r <;> exact this
    · rw [if_neg e]
      rwa [hv z e] at this
  · intro y z n t t' c c' hy hz hsy hsz
    rw [own_vars] at hsy hsz
    by_cases e1 : y = x <;> by_cases e2 : z = x
    · subst e1; subst e2; rw [if_pos rfl] at hsy hsz; rw [hsy] at hsz; cases hsz; rfl
    · subst e1
      rw [if_neg e2] at hsz
      have h1 := h.tag y z n (s.next + 1) t' b' c' hy hz (by rw [own_vars, if_pos rfl]; rfl) (by rw [hv z e2]; exact hsz)
      have h2 := hb z t' c' hsz
      omega
    · subst e2
      rw [if_neg e1] at hsy
      have h1 := h.tag y z n t (s.next + 1) c b' hy hz (by rw [hv y e1]; exact hsy) (by rw [own_vars, if_pos rfl]; rfl)
      have h2 := hb y t c hsy
      omega
    · rw [if_neg e1] at hsy; rw [if_neg e2] at hsz
      exact h.tag y z n t t' c c' hy hz (by rw [hv y e1]; exact hsy) (by rw [hv z e2]; exact hsz)
  · intro z t c hz
    rw [own_vars] at hz
    show t < s.next + 1
    by_cases e : z = x
    · rw [if_pos e] at hz; cases hz; omega
    · rw [if_neg e] at hz
      exact Nat.lt_succ_of_lt (hb z t c hz)

theorem VInv.var {R : Option α → β → Prop} {m : Mem α} {s : Values β} {v : Nat → Option Ref} (h : VInv R m s v) {x n}
    (hx : v x = some (.to n)) : ∃ w, m.vars x = some w ∧ w.ptr = .obj n := by
  obtain ⟨w, hw⟩ := h.inv.alive hx
  exact ⟨w, hw, (h.inv.stands x w _ hw hx).1⟩

/-! ## `Properties` -/

/-- An empty pointer stands for the empty map. -/
def PropsVal : Option Properties → Trax.Spec.AMap → Prop
  | none, b => b = Trax.Spec.AMap.empty
  | some p, b => PropRep p b

theorem propRep_set {p : Properties} {a : Trax.Spec.AMap} (hp : PropRep p a) {k u : Str} (hk : NoNul k) (hu : NoNul u) :
    PropRep (p.set k u) (Trax.Spec.AMap.set a k u) := by
  refine ⟨Properties.wf_set hp.1 _ _, fun k' hk' => ?_⟩
  rw [Properties.get_set hp.1, cstr_of_noNul hk, cstr_of_noNul hk', cstr_of_noNul hu, hp.2 k' hk']
  simp only [Trax.Spec.AMap.set]
  by_cases hkk : k = k'
  · simp [hkk]
  · rw [if_neg hkk, if_neg (fun e => hkk e.symm)]

/-- `ensure_unique`: afterwards the variable has the same value in an object of its own. -/
theorem VInv.ensureUnique {m : Mem Properties} {s : Values Trax.Spec.AMap} {v : Nat → Option Ref} (h : VInv PropsVal m s v) {x t b}
    (hx : s.vars x = some (.val t b)) :
    ∃ m' v' n p, m.ensureUnique x = .ok m' ∧ VInv PropsVal m' (s.own x b) v' ∧ v' x = some (.to n) ∧
      m'.objects[n]? = some (some p) ∧ PropRep p b ∧ ∀ y, y ≠ x → v' y ≠ some (.to n) := by
  obtain ⟨w, hw, hc⟩ := h.cases hx
  unfold Mem.ensureUnique
  rw [show m.var x = .ok w by simp only [Mem.var, hw]]
  simp only [Outcome.bind_ok]
  rcases hc with ⟨hvx, hp, hR⟩ | ⟨n, p, hvx, hp, hobj, hR⟩
  · rw [hp]
    have hR' : b = Trax.Spec.AMap.empty := hR
    obtain ⟨m', v', e, h', hv', hne, ho, -⟩ := h.wrapNew hx Properties.create b (by rw [hR']; exact PropRep.create)
    refine ⟨m', v', _, _, e, h', hv', ho, by rw [hR']; exact PropRep.create, fun y hy hvy => ?_⟩
    rw [hne y hy] at hvy
    exact Nat.lt_irrefl _ (h.inv.lt hvy)
  · rw [hp]
    obtain ⟨k, hk, hk'⟩ := h.inv.claims hvx
    obtain ⟨hk1, hk2⟩ := hk' n rfl
    simp only [hk, Outcome.bind_ok]
    by_cases hsh : k > 1
    · rw [if_pos hsh]
      obtain ⟨y, hy, hvy⟩ := hk2.mp hsh
      obtain ⟨m1, v1, e1, h1, hv1, hne1, ho1, hold⟩ := h.wrapNew hx Properties.create Trax.Spec.AMap.empty PropRep.create
      rw [e1]
      simp only [Outcome.bind_ok]
      have hsame : m1.objects[n]? = some (some p) := by
        rw [← hobj]
        exact h.inv.same_content h1.inv hold hvy (by rw [hne1 y hy]; exact hvy)
      obtain ⟨w1, hw1, hp1⟩ := h1.var hv1
      rw [show m1.object (.obj n) = .ok p by simp only [Mem.object, hsame]]
      rw [show m1.var x = .ok w1 by simp only [Mem.var, hw1]]
      simp only [Outcome.bind_ok, hp1]
      rw [show m1.object (.obj m.objects.length) = .ok .create by simp only [Mem.object, ho1]]
      simp only [Outcome.bind_ok]
      have hu : ∀ z, z ≠ x → v1 z ≠ some (.to m.objects.length) := by
        intro z hz hvz
        rw [hne1 z hz] at hvz
        exact Nat.lt_irrefl _ (h.inv.lt hvz)
      have hq : p.enumerate.foldl Properties.copyOverwrite Properties.create = p := Properties.foldl_set_enumerate hR.1
      rw [hq]
      obtain ⟨m2, e2, h2⟩ := h1.inplace hv1 ho1 hu p b hR
      refine ⟨m2, v1, _, p, e2, h2.own_own h.bound, hv1, ?_, hR, hu⟩
      simp only [Mem.setObject, Mem.object, ho1, Outcome.map, Outcome.bind_ok, Outcome.ok.injEq] at e2
      subst e2
      exact List.getElem?_set_self (h1.inv.lt hv1)
    · rw [if_neg hsh]
      have hu : ∀ y, y ≠ x → v y ≠ some (.to n) := fun y hy hvy => hsh (hk2.mpr ⟨y, hy, hvy⟩)
      refine ⟨m, v, n, p, rfl, ?_, hvx, hobj, hR, hu⟩
      obtain ⟨m2, e2, h2⟩ := h.inplace hvx hobj hu p b hR
      have : m2 = m := by
        simp only [Mem.setObject, Mem.object, hobj, Outcome.map, Outcome.bind_ok, Outcome.ok.injEq] at e2
        rw [← e2]
        have : m.objects.set n (some p) = m.objects := by
          apply List.ext_getElem?
          intro i
          by_cases e : n = i
          · subst e; rw [List.getElem?_set_self (h.inv.lt hvx), hobj]
          · rw [List.getElem?_set_ne e]
        rw [this]
      rwa [this] at h2

theorem VInv.setProperty {m : Mem Properties} {s : Values Trax.Spec.AMap} {v : Nat → Option Ref} (h : VInv PropsVal m s v) {x t b}
    (hx : s.vars x = some (.val t b)) {k u : Str} (hk : NoNul k) (hu : NoNul u) :
    ∃ m' v', m.setProperty x k u = .ok m' ∧ VInv PropsVal m' (s.own x (Trax.Spec.AMap.set b k u)) v' := by
  obtain ⟨m1, v1, n, p, e1, h1, hv1, ho1, hR, hun⟩ := h.ensureUnique hx
  unfold Mem.setProperty
  rw [e1]
  simp only [Outcome.bind_ok]
  obtain ⟨w1, hw1, hp1⟩ := h1.var hv1
  rw [show m1.var x = .ok w1 by simp only [Mem.var, hw1]]
  simp only [Outcome.bind_ok, hp1]
  rw [show m1.object (.obj n) = .ok p by simp only [Mem.object, ho1]]
  simp only [Outcome.bind_ok]
  obtain ⟨m2, e2, h2⟩ := h1.inplace hv1 ho1 hun (p.set k u) (Trax.Spec.AMap.set b k u) (propRep_set hR hk hu)
  exact ⟨m2, v1, e2, h2.own_own h.bound⟩

theorem VInv.clearProperties {m : Mem Properties} {s : Values Trax.Spec.AMap} {v : Nat → Option Ref} (h : VInv PropsVal m s v) {x t b}
    (hx : s.vars x = some (.val t b)) (hsh : ¬ s.Shared x) :
    ∃ m' v', m.clearProperties x = .ok m' ∧ VInv PropsVal m' (s.own x Trax.Spec.AMap.empty) v' := by
  obtain ⟨w, hw, hc⟩ := h.cases hx
  unfold Mem.clearProperties
  rw [show m.var x = .ok w by simp only [Mem.var, hw]]
  simp only [Outcome.bind_ok]
  rcases hc with ⟨hvx, hp, hR⟩ | ⟨n, p, hvx, hp, hobj, hR⟩
  · rw [hp]
    refine ⟨m, v, rfl, h.evolve h.inv (Older.refl _) (by simp [Values.own]) fun z => ?_⟩
    by_cases e : z = x
    · subst e
      right
      rw [own_vars, if_pos rfl, hvx]
      refine ⟨rfl, ?_, fun n hn => by cases hn⟩
      intro t b' hb; cases hb; simp [Values.own]
    · exact .inl ⟨z, rfl, by rw [own_vars, if_neg e]⟩
  · rw [hp]
    obtain ⟨k, hk, hk'⟩ := h.inv.claims hvx
    have hun := h.unshared hx hvx hsh
    have hk1 : ¬ k > 1 := fun hgt => by
      obtain ⟨y, hy, hvy⟩ := (hk' n rfl).2.mp hgt
      exact hun y hy hvy
    simp only [hk, Outcome.bind_ok]
    rw [if_neg hk1, show m.object (.obj n) = .ok p by simp only [Mem.object, hobj]]
    simp only [Outcome.bind_ok]
    obtain ⟨m2, e2, h2⟩ := h.inplace hvx hobj hun p.clear Trax.Spec.AMap.empty PropRep.create
    exact ⟨m2, v, e2, h2⟩

theorem VInv.propsStep {m : Mem Properties} {s s' : Values Trax.Spec.AMap} {v : Nat → Option Ref} (h : VInv PropsVal m s v) (op : PropsOp)
    (hc : Cpp.Spec.PropsCareful s op) (hs : Cpp.Spec.propsStep s op = some s') :
    ∃ m' v', op.step m = .ok m' ∧ VInv PropsVal m' s' v' := by
  cases op with
  | construct x =>
    simp only [Spec.propsStep, Values.construct] at hs
    split at hs
    · next hx => cases hs; exact ⟨_, _, rfl, h.construct hx _ rfl⟩
    · cases hs
  | copy x y => exact h.copy hs hc
  | move x y => exact h.move _ hs
  | assign x y => exact h.assign hs hc.1 hc.2
  | destroy x => exact h.destroy hs
  | set x k u =>
    simp only [Spec.propsStep, Values.change] at hs
    split at hs
    · next t b hx => cases hs; exact h.setProperty hx hc.1 hc.2
    · cases hs
  | clear x =>
    simp only [Spec.propsStep, Values.change] at hs
    split at hs
    · next t b hx => cases hs; exact h.clearProperties hx hc
    · cases hs

theorem VInv.propsRun (ops : List PropsOp) {m : Mem Properties} {s s' : Values Trax.Spec.AMap} {v : Nat → Option Ref}
    (h : VInv PropsVal m s v) (hc : Cpp.Spec.PropsCarefulRun ops s) (hs : Cpp.Spec.propsRun ops s = some s') :
    ∃ m' v', runPropsOps ops m = .ok m' ∧ VInv PropsVal m' s' v' := by
  induction ops generalizing m s v with
  | nil => cases hs; exact ⟨m, v, rfl, h⟩
  | cons op ops ih =>
    obtain ⟨hc1, hc2⟩ := hc
    simp only [Spec.propsRun] at hs
    cases e : Cpp.Spec.propsStep s op with
    | none => rw [e] at hs; cases hs
    | some s1 =>
      rw [e] at hs
      obtain ⟨m1, v1, e1, h1⟩ := h.propsStep op hc1 e
      obtain ⟨m2, v2, e2, h2⟩ := ih h1 (hc2 s1 e) hs
      exact ⟨m2, v2, by simp only [runPropsOps, e1, Outcome.bind_ok]; exact e2, h2⟩

/-- What a variable reads. -/
theorem VInv.read {m : Mem Properties} {s : Values Trax.Spec.AMap} {v : Nat → Option Ref} (h : VInv PropsVal m s v) {x t b}
    (hx : s.vars x = some (.val t b)) (k : Str) (hk : NoNul k) : m.getProperty x k = .ok (b k) := by
  obtain ⟨w, hw, hc⟩ := h.cases hx
  unfold Mem.getProperty
  rw [show m.var x = .ok w by simp only [Mem.var, hw]]
  simp only [Outcome.bind_ok]
  rcases hc with ⟨-, hp, hR⟩ | ⟨n, p, -, hp, hobj, hR⟩
  · rw [hp, show b = Trax.Spec.AMap.empty from hR]; rfl
  · rw [hp]
    simp only [Mem.object, hobj, Outcome.map, Outcome.bind_ok]
    rw [hR.2 k hk]

theorem VInv.size {m : Mem Properties} {s : Values Trax.Spec.AMap} {v : Nat → Option Ref} (h : VInv PropsVal m s v) {x t b}
    (hx : s.vars x = some (.val t b)) :
    ∃ l : List Str, m.sizeProperties x = .ok l.length ∧ l.Nodup ∧ ∀ k, k ∈ l ↔ NoNul k ∧ (b k).isSome := by
  obtain ⟨w, hw, hc⟩ := h.cases hx
  unfold Mem.sizeProperties
  rw [show m.var x = .ok w by simp only [Mem.var, hw]]
  simp only [Outcome.bind_ok]
  rcases hc with ⟨-, hp, hR⟩ | ⟨n, p, -, hp, hobj, hR⟩
  · rw [hp, show b = Trax.Spec.AMap.empty from hR]
    exact ⟨[], rfl, List.nodup_nil, fun k => by simp [Trax.Spec.AMap.empty]⟩
  · rw [hp]
    refine ⟨p.enumerate.map Prod.fst, ?_, StrMap.enum_keys_nodup hR.1, fun k => ?_⟩
    · simp only [Mem.object, hobj, Outcome.map, Outcome.bind_ok, List.length_map]
      exact congrArg _ (StrMap.count_eq _)
    · rw [List.mem_map]
      constructor
      · rintro ⟨⟨k', u⟩, hm, rfl⟩
        obtain ⟨h1, h2⟩ := (Properties.mem_enumerate hR.1 k' u).mp hm
        exact ⟨h1, by rw [← hR.2 k' h1, h2]; rfl⟩
      · rintro ⟨h1, h2⟩
        obtain ⟨u, hu⟩ := Option.isSome_iff_exists.mp h2
        exact ⟨(k, u), (Properties.mem_enumerate hR.1 k u).mpr ⟨h1, by rw [hR.2 k h1]; exact hu⟩, rfl⟩

/-! ## `Region` -/

theorem VInv.regionStep {legacy : Bool} {fresh : Nat → List UInt8} {m : Mem Region} {s s' : Values (Option Region)} {v : Nat → Option Ref}
    (h : VInv Eq m s v) (op : RegionOp)
    (hc : Cpp.Spec.RegionCareful s op) (hs : Cpp.Spec.regionStep s op = some s') :
    ∃ m' v', op.step legacy fresh m = .ok m' ∧ VInv Eq m' s' v' := by
  cases op with
  | construct x =>
    simp only [Spec.regionStep, Values.construct] at hs
    split at hs
    · next hx => cases hs; exact ⟨_, _, rfl, h.construct hx _ rfl⟩
    · cases hs
  | create x r =>
    simp only [Spec.regionStep, Values.construct] at hs
    split at hs
    · next hx =>
      cases hs
      have h1 := h.construct hx none rfl
      obtain ⟨m2, v2, e2, h2, -⟩ := h1.wrapNew (x := x) (w := .val s.next none) (by rw [own_vars, if_pos rfl]) r (some r) rfl
      exact ⟨m2, v2, e2, h2.own_own h.bound⟩
    · cases hs
  | copy x y => exact h.copy hs hc
  | move x y => exact h.move _ hs
  | assign x y => exact h.assign hs hc.1 hc.2
  | moveAssign x y => exact h.moveAssign hs
  | destroy x => exact h.destroy hs
  | special x c =>
    simp only [Spec.regionStep, Values.change] at hs
    split at hs
    · next t b hx =>
      cases hs
      obtain ⟨w, hw, hcs⟩ := h.cases hx
      obtain ⟨r, hr⟩ := h.alive hx
      obtain ⟨k, hk, hk'⟩ := h.inv.claims hr
      simp only [RegionOp.step, Mem.setSpecial, Mem.regionType, Mem.var, hw, Outcome.bind_ok]
      by_cases hd : ∃ n c', v x = some (.to n) ∧ w.ptr = .obj n ∧ m.objects[n]? = some (some (.special c')) ∧ ¬ k > 1
      · obtain ⟨n, c', hvx, hp, hobj, hk1⟩ := hd
        rw [hp]
        simp only [Mem.object, hobj, Outcome.map, Outcome.bind_ok, hk]
        rw [if_neg (by rintro (h1 | h1); exact h1 rfl; exact hk1 h1)]
        simp only [Mem.changeRegion, Mem.var, hw, Outcome.bind_ok, hp, Mem.object, hobj, Region.setSpecial]
        have hrn : r = .to n := by rw [hvx] at hr; exact (Option.some.inj hr).symm
        obtain ⟨m2, e2, h2⟩ := h.inplace hvx hobj (fun y hy hvy => hk1 ((hk' n hrn).2.mpr ⟨y, hy, hvy⟩)) (.special c) (some (.special c)) rfl
        exact ⟨m2, v, e2, h2⟩
      · obtain ⟨m2, v2, e2, h2, -⟩ := h.wrapNew hx (.special c) (some (.special c)) rfl
        refine ⟨m2, v2, ?_, h2⟩
        rcases hcs with ⟨hvx, hp, hR⟩ | ⟨n, a, hvx, hp, hobj, hR⟩
        · rw [hp]
          simp only [Outcome.bind_ok, hk]
          rw [if_pos (.inl (by decide))]
          exact e2
        · rw [hp]
          simp only [Mem.object, hobj, Outcome.map, Outcome.bind_ok, hk]
          rw [if_pos]
          · exact e2
          · by_cases hk1 : k > 1
            · exact .inr hk1
            · left
              intro ht
              cases a with
              | special c' => exact hd ⟨n, c', hvx, hp, hobj, hk1⟩
              | rectangle => exact absurd (show (2 : UInt32) = 1 from ht) (by decide)
              | polygon => exact absurd (show (4 : UInt32) = 1 from ht) (by decide)
              | mask => exact absurd (show (8 : UInt32) = 1 from ht) (by decide)
    · cases hs
  | rectangle x l tp wd ht =>
    simp only [Spec.regionStep, Values.change] at hs
    split at hs
    · next t b hx =>
      cases hs
      obtain ⟨w, hw, hcs⟩ := h.cases hx
      obtain ⟨r, hr⟩ := h.alive hx
      obtain ⟨k, hk, hk'⟩ := h.inv.claims hr
      simp only [RegionOp.step, Mem.setRectangle, Mem.regionType, Mem.var, hw, Outcome.bind_ok]
      by_cases hd : ∃ n l' t' w' h', v x = some (.to n) ∧ w.ptr = .obj n ∧ m.objects[n]? = some (some (.rectangle l' t' w' h')) ∧ ¬ k > 1
      · obtain ⟨n, l', t', w', h', hvx, hp, hobj, hk1⟩ := hd
        rw [hp]
        simp only [Mem.object, hobj, Outcome.map, Outcome.bind_ok, hk]
        rw [if_neg (by rintro (h1 | h1); exact h1 rfl; exact hk1 h1)]
        simp only [Mem.changeRegion, Mem.var, hw, Outcome.bind_ok, hp, Mem.object, hobj, Region.setRectangle]
        have hrn : r = .to n := by rw [hvx] at hr; exact (Option.some.inj hr).symm
        obtain ⟨m2, e2, h2⟩ := h.inplace hvx hobj (fun y hy hvy => hk1 ((hk' n hrn).2.mpr ⟨y, hy, hvy⟩)) (.rectangle l tp wd ht)
          (some (.rectangle l tp wd ht)) rfl
        exact ⟨m2, v, e2, h2⟩
      · obtain ⟨m2, v2, e2, h2, -⟩ := h.wrapNew hx (.rectangle l tp wd ht) (some (.rectangle l tp wd ht)) rfl
        refine ⟨m2, v2, ?_, h2⟩
        rcases hcs with ⟨hvx, hp, hR⟩ | ⟨n, a, hvx, hp, hobj, hR⟩
        · rw [hp]
          simp only [Outcome.bind_ok, hk]
          rw [if_pos (.inl (by decide))]
          exact e2
        · rw [hp]
          simp only [Mem.object, hobj, Outcome.map, Outcome.bind_ok, hk]
          rw [if_pos]
          · exact e2
          · by_cases hk1 : k > 1
            · exact .inr hk1
            · left
              intro ht
              cases a with
              | rectangle l' t' w' h' => exact hd ⟨n, l', t', w', h', hvx, hp, hobj, hk1⟩
              | special => exact absurd (show (1 : UInt32) = 2 from ht) (by decide)
              | polygon => exact absurd (show (4 : UInt32) = 2 from ht) (by decide)
              | mask => exact absurd (show (8 : UInt32) = 2 from ht) (by decide)
    · cases hs
  | point x i px py =>
    simp only [Spec.regionStep, Values.change] at hs
    split at hs
    · next t b hx =>
      split at hs
      · next b' ps =>
        split at hs
        · next hi =>
          cases hs
          obtain ⟨w, hw, hcs⟩ := h.cases hx
          rcases hcs with ⟨hvx, hp, hR⟩ | ⟨n, a, hvx, hp, hobj, hR⟩
          · cases hR
          · cases hR
            obtain ⟨k, hk, hk'⟩ := h.inv.claims hvx
            obtain ⟨hk1, hk2⟩ := hk' n rfl
            have hset : (Region.polygon ps).setPolygonPoint i px py = .ok (.polygon (ps.set i.toNat (px, py))) := by
              simp only [Region.setPolygonPoint]
              rw [if_pos (.inl hi.1), if_pos hi]
            simp only [RegionOp.step, Mem.setPoint, hk, Outcome.bind_ok]
            by_cases hsh : k > 1
            · rw [if_pos hsh]
              simp only [Mem.readRegion, Mem.var, hw, Outcome.bind_ok, hp, Mem.object, hobj, Outcome.map, Region.apiConvert]
              rw [show Region.typeBack 4 = .polygon by decide]
              simp only [Region.convert, Outcome.bind_ok, Mem.wrapMaybe]
              obtain ⟨m1, v1, e1, h1, hv1, hne1, ho1, -⟩ := h.wrapNew hx (.polygon ps) (some (.polygon ps)) rfl
              rw [e1]
              obtain ⟨w1, hw1, hp1⟩ := h1.var hv1
              simp only [Mem.changeRegion, Mem.var, hw1, Outcome.bind_ok, hp1, Mem.object, ho1, hset]
              have hu : ∀ z, z ≠ x → v1 z ≠ some (.to m.objects.length) := by
                intro z hz hvz
                rw [hne1 z hz] at hvz
                exact Nat.lt_irrefl _ (h.inv.lt hvz)
              obtain ⟨m2, e2, h2⟩ := h1.inplace hv1 ho1 hu (.polygon (ps.set i.toNat (px, py))) (some (.polygon (ps.set i.toNat (px, py)))) rfl
              exact ⟨m2, v1, e2, h2.own_own h.bound⟩
            · rw [if_neg hsh]
              simp only [Mem.changeRegion, Mem.var, hw, Outcome.bind_ok, hp, Mem.object, hobj, hset]
              obtain ⟨m2, e2, h2⟩ := h.inplace hvx hobj (fun y hy hvy => hsh (hk2.mpr ⟨y, hy, hvy⟩)) (.polygon (ps.set i.toNat (px, py)))
                (some (.polygon (ps.set i.toNat (px, py)))) rfl
              exact ⟨m2, v, e2, h2⟩
        · cases hs
      · cases hs
    · cases hs
  | pixel x row j u =>
    simp only [Spec.regionStep, Values.change] at hs
    split at hs
    · next t b hx =>
      split at hs
      · next b' r0 =>
        split at hs
        · next r1 hr1 =>
          cases hs
          obtain ⟨w, hw, hcs⟩ := h.cases hx
          rcases hcs with ⟨hvx, hp, hR⟩ | ⟨n, a, hvx, hp, hobj, hR⟩
          · cases hR
          · cases hR
            simp only [RegionOp.step, Mem.writePixel, Mem.changeRegion, Mem.var, hw, Outcome.bind_ok, hp, Mem.object, hobj, hr1]
            obtain ⟨m2, e2, h2⟩ := h.inplace hvx hobj (h.unshared hx hvx hc) r1 (some r1) rfl
            exact ⟨m2, v, e2, h2⟩
        · cases hs
      · cases hs
    · cases hs
  | text x line =>
    simp only [Spec.regionStep] at hs
    simp only [RegionOp.step, Mem.readText]
    split at hs
    · next hd => cases hs; rw [hd]; exact ⟨m, v, rfl, h⟩
    · next r hd =>
      rw [hd]
      simp only [Values.change] at hs
      split at hs
      · next t b hx =>
        cases hs
        obtain ⟨m2, v2, e2, h2, -⟩ := h.wrapNew hx r (some r) rfl
        exact ⟨m2, v2, e2, h2⟩
      · cases hs
    · cases hs

theorem VInv.regionRun {legacy : Bool} {fresh : Nat → List UInt8} (ops : List RegionOp) {m : Mem Region} {s s' : Values (Option Region)}
    {v : Nat → Option Ref} (h : VInv Eq m s v) (hc : Cpp.Spec.RegionCarefulRun ops s) (hs : Cpp.Spec.regionRun ops s = some s') :
    ∃ m' v', runRegionOps legacy fresh ops m = .ok m' ∧ VInv Eq m' s' v' := by
  induction ops generalizing m s v with
  | nil => cases hs; exact ⟨m, v, rfl, h⟩
  | cons op ops ih =>
    obtain ⟨hc1, hc2⟩ := hc
    simp only [Spec.regionRun] at hs
    cases e : Cpp.Spec.regionStep s op with
    | none => rw [e] at hs; cases hs
    | some s1 =>
      rw [e] at hs
      obtain ⟨m1, v1, e1, h1⟩ := h.regionStep (legacy := legacy) (fresh := fresh) op hc1 e
      obtain ⟨m2, v2, e2, h2⟩ := ih h1 (hc2 s1 e) hs
      exact ⟨m2, v2, by simp only [runRegionOps, e1, Outcome.bind_ok]; exact e2, h2⟩

theorem VInv.readRegion {m : Mem Region} {s : Values (Option Region)} {v : Nat → Option Ref} (h : VInv Eq m s v) {x t b}
    (hx : s.vars x = some (.val t b)) : m.readRegion x = .ok b := by
  obtain ⟨w, hw, hc⟩ := h.cases hx
  unfold Mem.readRegion
  rw [show m.var x = .ok w by simp only [Mem.var, hw]]
  simp only [Outcome.bind_ok]
  rcases hc with ⟨-, hp, hR⟩ | ⟨n, p, -, hp, hobj, hR⟩
  · rw [hp, ← hR]
  · rw [hp, ← hR]
    simp only [Mem.object, hobj, Outcome.map, Outcome.bind_ok]

end Trax.Cpp
