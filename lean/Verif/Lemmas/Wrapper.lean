import Verif.Spec.Wrapper

/-!
# Lemmas about the reference counted wrappers
-/

namespace Trax.Cpp

open Spec (Ref)

variable {α : Type}

/-- Functions with one changed value. -/
def upd (f : Nat → Option β) (x : Nat) (b : Option β) : Nat → Option β := fun y => if y = x then b else f y

theorem upd_same (f : Nat → Option β) (x : Nat) (b : Option β) : upd f x b x = b := if_pos rfl
theorem upd_ne (f : Nat → Option β) {x y : Nat} (b : Option β) (h : y ≠ x) : upd f x b y = f y := if_neg h
theorem upd_upd (f : Nat → Option β) (x : Nat) (b c : Option β) : upd (upd f x b) x c = upd f x c := by
  funext y; unfold upd; split <;> rfl
theorem upd_self (f : Nat → Option β) (x : Nat) (b : Option β) (h : f x = b) : upd f x b = f := by
  funext y; unfold upd; split
  · next e => rw [e, h]
  · rfl
theorem upd_comm (f : Nat → Option β) {x y : Nat} (h : x ≠ y) (b c : Option β) :
    upd (upd f x b) y c = upd (upd f y c) x b := by
  funext z; unfold upd
  by_cases h1 : z = x <;> by_cases h2 : z = y
  · omega
  all_goals simp [h1, h2]
  all_goals intro e; omega

@[simp] theorem setVar_vars (m : Mem α) (x : Nat) (w : Option Wrapper) : (m.setVar x w).vars = upd m.vars x w := rfl
@[simp] theorem setVar_counters (m : Mem α) (x : Nat) (w : Option Wrapper) : (m.setVar x w).counters = m.counters := rfl
@[simp] theorem setVar_objects (m : Mem α) (x : Nat) (w : Option Wrapper) : (m.setVar x w).objects = m.objects := rfl
@[simp] theorem setVar_released (m : Mem α) (x : Nat) (w : Option Wrapper) : (m.setVar x w).released = m.released := rfl

/-- A wrapper stands for what the specification says. -/
def Stands (m : Mem α) (w : Wrapper) : Ref → Prop
  | .nothing => w.ptr = .null
  | .moved => w.pn = none
  | .to n => w.ptr = .obj n ∧ w.pn ≠ none ∧ ∃ a, m.objects[n]? = some (some a)

/-- The variables that hold counter `c`. -/
def Holders (vars : Nat → Option Wrapper) (c : Nat) (l : List Nat) : Prop :=
  l.Nodup ∧ ∀ x, x ∈ l ↔ ∃ w, vars x = some w ∧ w.pn = some c

/-- The invariant: the variables stand for `v`; the objects in `pend` are about to be wrapped. -/
structure Inv (m : Mem α) (v : Nat → Option Ref) (pend : Nat → Prop) : Prop where
  dom : ∀ x, m.vars x = none ↔ v x = none
  stands : ∀ x w r, m.vars x = some w → v x = some r → Stands m w r
  held : ∀ x w c, m.vars x = some w → w.pn = some c → ∃ n : Int, m.counters[c]? = some (some n)
  count : ∀ (c : Nat) (n : Int), m.counters[c]? = some (some n) → ∃ l, Holders m.vars c l ∧ l ≠ [] ∧ n = l.length
  shared : ∀ x y w w' c, m.vars x = some w → m.vars y = some w' → w.pn = some c → w'.pn = some c → v x = v y
  same : ∀ x y w w' n, m.vars x = some w → m.vars y = some w' → v x = some (.to n) → v y = some (.to n) → w.pn = w'.pn
  obj : ∀ n, n < m.objects.length →
    ((∃ a, m.objects[n]? = some (some a)) ∧ n ∉ m.released ∧ ((∃ x, v x = some (.to n)) ∨ pend n)) ∨
    (m.objects[n]? = some none ∧ m.released.count n = 1 ∧ (¬ ∃ x, v x = some (.to n)) ∧ ¬ pend n)
  rel : ∀ n ∈ m.released, n < m.objects.length
  pending : ∀ n, pend n → ¬ ∃ x, v x = some (.to n)

theorem Inv.alive {m : Mem α} {v pend} (h : Inv m v pend) {x r} (hr : v x = some r) : ∃ w, m.vars x = some w := by
  cases e : m.vars x with
  | none => rw [(h.dom x).mp e] at hr; cases hr
  | some w => exact ⟨w, rfl⟩

theorem Stands.mono {m m' : Mem α} {w : Wrapper} {r : Ref} (h : Stands m w r)
    (hm : ∀ n, r = .to n → m'.objects[n]? = m.objects[n]?) : Stands m' w r := by
  cases r with
  | nothing => exact h
  | moved => exact h
  | to n => exact ⟨h.1, h.2.1, by rw [hm n rfl]; exact h.2.2⟩

/-- A variable without a counter can be forgotten, or begin. -/
theorem Inv.setFree {m : Mem α} {v pend} (h : Inv m v pend) (x : Nat) (p : Ptr) (r : Ref)
    (hx : ∀ w, m.vars x = some w → w.pn = none) (hr : r = .moved ∨ (r = .nothing ∧ p = .null))
    (hv : ∀ n, v x ≠ some (.to n)) :
    Inv (m.setVar x (some ⟨none, p⟩)) (upd v x (some r)) pend := by
  have hrn : ∀ n, r ≠ .to n := by rintro n rfl; rcases hr with h | h; cases h; cases h.1
  have huse : ∀ n, (∃ y, upd v x (some r) y = some (.to n)) ↔ ∃ y, v y = some (.to n) := by
    intro n
    constructor
    · rintro ⟨y, hy⟩
      by_cases e : y = x
      · subst e; rw [upd_same] at hy; exact absurd (Option.some.inj hy) (hrn n)
      · rw [upd_ne _ _ e] at hy; exact ⟨y, hy⟩
    · rintro ⟨y, hy⟩
      have e : y ≠ x := by rintro rfl; exact hv n hy
      exact ⟨y, by rw [upd_ne _ _ e]; exact hy⟩
  have hpn : ∀ y w c, upd m.vars x (some ⟨none, p⟩) y = some w → w.pn = some c → y ≠ x ∧ m.vars y = some w := by
    intro y w c hy hc
    by_cases e : y = x
    · subst e; rw [upd_same] at hy; cases hy; cases hc
    · rw [upd_ne _ _ e] at hy; exact ⟨e, hy⟩
  refine ⟨?_, ?_, ?_, ?_, ?_, ?_, ?_, h.rel, ?_⟩
  · intro y
    rw [setVar_vars]
    by_cases e : y = x
    · subst e; rw [upd_same, upd_same]; simp
    · rw [upd_ne _ _ e, upd_ne _ _ e]; exact h.dom y
  · intro y w q hy hq
    rw [setVar_vars] at hy
    by_cases e : y = x
    · subst e; rw [upd_same] at hy hq; cases hy; cases hq
      rcases hr with rfl | ⟨rfl, rfl⟩
      · rfl
      · rfl
    · rw [upd_ne _ _ e] at hy hq
      exact (h.stands y w q hy hq).mono fun _ _ => rfl
  · intro y w c hy hc
    obtain ⟨-, h1⟩ := hpn y w c hy hc
    exact h.held y w c h1 hc
  · intro c n hn
    obtain ⟨l, ⟨l1, l2⟩, l3, l4⟩ := h.count c n hn
    refine ⟨l, ⟨l1, fun y => ?_⟩, l3, l4⟩
    rw [l2 y]
    constructor
    · rintro ⟨w, hw, hc⟩
      have e : y ≠ x := by rintro rfl; rw [hx w hw] at hc; cases hc
      exact ⟨w, by rw [setVar_vars, upd_ne _ _ e]; exact hw, hc⟩
    · rintro ⟨w, hw, hc⟩
      exact ⟨w, (hpn y w c hw hc).2, hc⟩
  · intro y z w w' c hy hz hc hc'
    obtain ⟨e1, h1⟩ := hpn y w c hy hc
    obtain ⟨e2, h2⟩ := hpn z w' c hz hc'
    rw [upd_ne _ _ e1, upd_ne _ _ e2]
    exact h.shared y z w w' c h1 h2 hc hc'
  · intro y z w w' n hy hz hn hn'
    have e1 : y ≠ x := by rintro rfl; rw [upd_same] at hn; exact hrn n (Option.some.inj hn)
    have e2 : z ≠ x := by rintro rfl; rw [upd_same] at hn'; exact hrn n (Option.some.inj hn')
    rw [upd_ne _ _ e1] at hn
    rw [upd_ne _ _ e2] at hn'
    rw [setVar_vars, upd_ne _ _ e1] at hy
    rw [setVar_vars, upd_ne _ _ e2] at hz
    exact h.same y z w w' n hy hz hn hn'
  · intro n hn
    have := h.obj n hn
    rw [← huse n] at this
    exact this
  · intro n hn
    rw [huse n]
    exact h.pending n hn

/-- `release`: the variable no longer stands for anything. -/
theorem Inv.release {m : Mem α} {v pend} (h : Inv m v pend) {x r} (hx : v x = some r) :
    ∃ m' p, m.release x = .ok m' ∧ Inv m' (upd v x (some .moved)) pend ∧ m'.vars x = some ⟨none, p⟩ ∧
      m'.objects.length = m.objects.length := by
  obtain ⟨w, hw⟩ := h.alive hx
  have hst := h.stands x w r hw hx
  unfold Mem.release Mem.var
  rw [hw]
  simp only [Outcome.bind_ok]
  cases hc : w.pn with
  | none =>
    have hr : ∀ n, r ≠ .to n := by rintro n rfl; exact hst.2.1 hc
    refine ⟨m, w.ptr, rfl, ?_, ?_, rfl⟩
    · have := h.setFree x w.ptr .moved (fun w' h' => by rw [hw] at h'; cases h'; exact hc) (.inl rfl) (fun n hn => by
        rw [hx] at hn; exact hr n (Option.some.inj hn))
      have e : m.setVar x (some ⟨none, w.ptr⟩) = m := by
        unfold Mem.setVar
        have : (fun y => if y = x then some (⟨none, w.ptr⟩ : Wrapper) else m.vars y) = m.vars := by
          apply upd_self
          rw [hw]; cases w; simp_all
        rw [this]
      rw [e] at this
      exact this
    · rw [hw]; cases w; simp_all
  | some c =>
    dsimp only
    obtain ⟨n, hn⟩ := h.held x w c hw hc
    obtain ⟨l, ⟨l1, l2⟩, l3, l4⟩ := h.count c n hn
    have hxl : x ∈ l := (l2 x).mpr ⟨w, hw, hc⟩
    have hclt : c < m.counters.length := by
      rcases Nat.lt_or_ge c m.counters.length with h' | h'
      · exact h'
      · rw [List.getElem?_eq_none h'] at hn; cases hn
    unfold Mem.counter
    rw [hn]
    simp only [Outcome.bind_ok]
    have hrm : r ≠ .moved := by
      rintro rfl
      have : w.pn = none := hst
      rw [hc] at this; cases this
    by_cases h1 : n - 1 = 0
    · rw [if_pos h1]
      have hlx : l = [x] := by
        have : l.length = 1 := by omega
        obtain ⟨a, rfl⟩ := List.length_eq_one_iff.mp this
        rw [List.mem_singleton.mp hxl]
      subst hlx
      have honly : ∀ y w', m.vars y = some w' → w'.pn = some c → y = x := fun y w' hy hc' =>
        List.mem_singleton.mp ((l2 y).mpr ⟨w', hy, hc'⟩)
      -- what remains after `cleanup`
      have key : ∀ (objs : List (Option α)) (rel : List Nat) (p : Ptr),
          (∀ y q k, y ≠ x → v y = some q → q = .to k → objs[k]? = m.objects[k]?) →
          objs.length = m.objects.length →
          (∀ k, k < objs.length →
            ((∃ a, objs[k]? = some (some a)) ∧ k ∉ rel ∧ ((∃ y, upd v x (some .moved) y = some (.to k)) ∨ pend k)) ∨
            (objs[k]? = some none ∧ rel.count k = 1 ∧ (¬ ∃ y, upd v x (some .moved) y = some (.to k)) ∧ ¬ pend k)) →
          (∀ k ∈ rel, k < objs.length) →
          Inv (⟨upd m.vars x (some ⟨none, p⟩), (m.counters.set c (some (n - 1))).set c none, objs, rel⟩ : Mem α)
            (upd v x (some .moved)) pend := by
        intro objs rel p ho hlen hobj hrel
        have hpn : ∀ y w' d, upd m.vars x (some ⟨none, p⟩) y = some w' → w'.pn = some d → y ≠ x ∧ m.vars y = some w' ∧ d ≠ c := by
          intro y w' d hy hd
          by_cases e : y = x
          · subst e; rw [upd_same] at hy; cases hy; cases hd
          · rw [upd_ne _ _ e] at hy
            refine ⟨e, hy, ?_⟩
            rintro rfl
            exact e (honly y w' hy hd)
        refine ⟨?_, ?_, ?_, ?_, ?_, ?_, hobj, hrel, ?_⟩
        · intro y
          dsimp only
          by_cases e : y = x
          · subst e; rw [upd_same, upd_same]; simp
          · rw [upd_ne _ _ e, upd_ne _ _ e]; exact h.dom y
        · intro y w' q hy hq
          dsimp only at hy
          by_cases e : y = x
          · subst e; rw [upd_same] at hy hq; cases hy; cases hq; rfl
          · rw [upd_ne _ _ e] at hy hq
            exact (h.stands y w' q hy hq).mono fun k hk => ho y q k e hq hk
        · intro y w' d hy hd
          obtain ⟨-, h2, h3⟩ := hpn y w' d hy hd
          dsimp only
          rw [List.getElem?_set_ne (Ne.symm h3), List.getElem?_set_ne (Ne.symm h3)]
          exact h.held y w' d h2 hd
        · intro d k hk
          dsimp only at hk
          have hdc : d ≠ c := by
            rintro rfl
            rw [List.getElem?_set_self (by simpa using hclt)] at hk
            cases hk
          rw [List.getElem?_set_ne (Ne.symm hdc), List.getElem?_set_ne (Ne.symm hdc)] at hk
          obtain ⟨l', ⟨a1, a2⟩, a3, a4⟩ := h.count d k hk
          refine ⟨l', ⟨a1, fun y => ?_⟩, a3, a4⟩
          rw [a2 y]
          constructor
          · rintro ⟨w', hw', hd⟩
            have e : y ≠ x := by rintro rfl; rw [hw] at hw'; cases hw'; rw [hc] at hd; exact hdc (Option.some.inj hd).symm
            exact ⟨w', by dsimp only; rw [upd_ne _ _ e]; exact hw', hd⟩
          · rintro ⟨w', hw', hd⟩
            exact ⟨w', (hpn y w' d hw' hd).2.1, hd⟩
        · intro y z w1 w2 d hy hz hd hd'
          obtain ⟨e1, h1, -⟩ := hpn y w1 d hy hd
          obtain ⟨e2, h2, -⟩ := hpn z w2 d hz hd'
          rw [upd_ne _ _ e1, upd_ne _ _ e2]
          exact h.shared y z w1 w2 d h1 h2 hd hd'
        · intro y z w1 w2 k hy hz hk hk'
          have e1 : y ≠ x := by rintro rfl; rw [upd_same] at hk; cases hk
          have e2 : z ≠ x := by rintro rfl; rw [upd_same] at hk'; cases hk'
          rw [upd_ne _ _ e1] at hk
          rw [upd_ne _ _ e2] at hk'
          dsimp only at hy hz
          rw [upd_ne _ _ e1] at hy
          rw [upd_ne _ _ e2] at hz
          exact h.same y z w1 w2 k hy hz hk hk'
        · intro k hk
          rintro ⟨y, hy⟩
          have e1 : y ≠ x := by rintro rfl; rw [upd_same] at hy; cases hy
          rw [upd_ne _ _ e1] at hy
          exact h.pending k hk ⟨y, hy⟩
      cases r with
      | moved => exact absurd rfl hrm
      | nothing =>
        have hp : w.ptr = .null := hst
        refine ⟨⟨upd m.vars x (some ⟨none, .null⟩), (m.counters.set c (some (n - 1))).set c none, m.objects, m.released⟩, .null, ?_, ?_, upd_same _ _ _, rfl⟩
        · simp only [Mem.cleanup, Mem.var, hw, Outcome.bind_ok, hp, Mem.dropCounter, Outcome.map, Mem.setVar]
          rfl
        · refine key _ _ _ (fun _ _ _ _ _ _ => rfl) rfl ?_ h.rel
          intro k hk
          have huse : (∃ y, upd v x (some .moved) y = some (.to k)) ↔ ∃ y, v y = some (.to k) := by
            constructor
            · rintro ⟨y, hy⟩
              have e1 : y ≠ x := by rintro rfl; rw [upd_same] at hy; cases hy
              rw [upd_ne _ _ e1] at hy
              exact ⟨y, hy⟩
            · rintro ⟨y, hy⟩
              have e1 : y ≠ x := by rintro rfl; rw [hx] at hy; cases hy
              exact ⟨y, by rw [upd_ne _ _ e1]; exact hy⟩
          rw [huse]
          exact h.obj k hk
      | to k =>
        obtain ⟨hp, -, a, ha⟩ := hst
        have hklt : k < m.objects.length := by
          rcases Nat.lt_or_ge k m.objects.length with h' | h'
          · exact h'
          · rw [List.getElem?_eq_none h'] at ha; cases ha
        have hkn : k ∉ m.released := by
          rcases h.obj k hklt with ⟨-, h2, -⟩ | ⟨h2, -⟩
          · exact h2
          · rw [ha] at h2; cases h2
        have huse : ∀ y, y ≠ x → v y ≠ some (.to k) := by
          intro y e hy
          obtain ⟨w', hw'⟩ := h.alive hy
          have := h.same x y w w' k hw hw' hx hy
          exact e (honly y w' hw' (this ▸ hc))
        refine ⟨⟨upd m.vars x (some ⟨none, .null⟩), (m.counters.set c (some (n - 1))).set c none, m.objects.set k none, k :: m.released⟩, .null,
          ?_, ?_, upd_same _ _ _, List.length_set ..⟩
        · simp only [Mem.cleanup, Mem.var, hw, Outcome.bind_ok, hp, Mem.object, ha, Mem.dropCounter, Outcome.map, Mem.setVar]
          simp
          funext y; unfold upd; split <;> simp_all
        · refine key _ _ _ ?_ (List.length_set ..) ?_ ?_
          · intro y q k' e hq hk'
            subst hk'
            have : k ≠ k' := by rintro rfl; exact huse y e hq
            rw [List.getElem?_set_ne this]
          · intro j hj
            rw [List.length_set] at hj
            by_cases e : j = k
            · subst e
              right
              refine ⟨List.getElem?_set_self hj, ?_, ?_, ?_⟩
              · rw [List.count_cons_self, List.count_eq_zero_of_not_mem hkn]
              · rintro ⟨y, hy⟩
                have e1 : y ≠ x := by rintro rfl; rw [upd_same] at hy; cases hy
                rw [upd_ne _ _ e1] at hy
                exact huse y e1 hy
              · intro hpd
                exact h.pending j hpd ⟨x, hx⟩
            · have huse' : (∃ y, upd v x (some .moved) y = some (.to j)) ↔ ∃ y, v y = some (.to j) := by
                constructor
                · rintro ⟨y, hy⟩
                  have e1 : y ≠ x := by rintro rfl; rw [upd_same] at hy; cases hy
                  rw [upd_ne _ _ e1] at hy
                  exact ⟨y, hy⟩
                · rintro ⟨y, hy⟩
                  have e1 : y ≠ x := by rintro rfl; rw [hx] at hy; cases hy; exact e rfl
                  exact ⟨y, by rw [upd_ne _ _ e1]; exact hy⟩
              rw [huse', List.getElem?_set_ne (Ne.symm e), List.count_cons_of_ne (Ne.symm e), List.mem_cons]
              simp only [e, false_or]
              exact h.obj j hj
          · intro j hj
            rw [List.length_set]
            rcases List.mem_cons.mp hj with rfl | hj
            · exact hklt
            · exact h.rel j hj
    · rw [if_neg h1]
      have hlen : l.length ≥ 2 := by
        have := List.length_pos_iff.mpr l3
        omega
      refine ⟨⟨upd m.vars x (some ⟨none, w.ptr⟩), m.counters.set c (some (n - 1)), m.objects, m.released⟩, w.ptr, ?_, ?_, upd_same _ _ _, rfl⟩
      · simp only [Mem.dropCounter, Mem.var, hw, Outcome.map, Outcome.bind_ok]; rfl
      · -- another holder
        obtain ⟨z, hz, hzx⟩ : ∃ z ∈ l, z ≠ x := by
          match l, l1, hlen with
          | a :: b :: _, hnd, _ =>
            by_cases e : a = x
            · refine ⟨b, by simp, ?_⟩
              rintro rfl
              subst e
              simp at hnd
            · exact ⟨a, by simp, e⟩
        obtain ⟨wz, hwz, hcz⟩ := (l2 z).mp hz
        have hvz : v z = some r := by rw [← hx]; exact h.shared z x wz w c hwz hw hcz hc
        have huse : ∀ k, (∃ y, upd v x (some .moved) y = some (.to k)) ↔ ∃ y, v y = some (.to k) := by
          intro k
          constructor
          · rintro ⟨y, hy⟩
            have e1 : y ≠ x := by rintro rfl; rw [upd_same] at hy; cases hy
            rw [upd_ne _ _ e1] at hy
            exact ⟨y, hy⟩
          · rintro ⟨y, hy⟩
            by_cases e1 : y = x
            · subst e1
              exact ⟨z, by rw [upd_ne _ _ hzx, hvz, ← hx, hy]⟩
            · exact ⟨y, by rw [upd_ne _ _ e1]; exact hy⟩
        have hpn : ∀ y w' d, upd m.vars x (some ⟨none, w.ptr⟩) y = some w' → w'.pn = some d → y ≠ x ∧ m.vars y = some w' := by
          intro y w' d hy hd
          by_cases e : y = x
          · subst e; rw [upd_same] at hy; cases hy; cases hd
          · rw [upd_ne _ _ e] at hy
            exact ⟨e, hy⟩
        refine ⟨?_, ?_, ?_, ?_, ?_, ?_, ?_, h.rel, ?_⟩
        · intro y
          dsimp only
          by_cases e : y = x
          · subst e; rw [upd_same, upd_same]; simp
          · rw [upd_ne _ _ e, upd_ne _ _ e]; exact h.dom y
        · intro y w' q hy hq
          dsimp only at hy
          by_cases e : y = x
          · subst e; rw [upd_same] at hy hq; cases hy; cases hq; rfl
          · rw [upd_ne _ _ e] at hy hq
            exact (h.stands y w' q hy hq).mono fun _ _ => rfl
        · intro y w' d hy hd
          obtain ⟨-, h2⟩ := hpn y w' d hy hd
          dsimp only
          by_cases e : d = c
          · subst e; exact ⟨_, List.getElem?_set_self hclt⟩
          · rw [List.getElem?_set_ne (Ne.symm e)]
            exact h.held y w' d h2 hd
        · intro d k hk
          dsimp only at hk
          by_cases e : d = c
          · subst e
            rw [List.getElem?_set_self hclt] at hk
            cases hk
            refine ⟨l.erase x, ⟨l1.erase x, fun y => ?_⟩, ?_, ?_⟩
            · rw [l1.mem_erase_iff, l2 y]
              constructor
              · rintro ⟨e, w', hw', hd⟩
                exact ⟨w', by dsimp only; rw [upd_ne _ _ e]; exact hw', hd⟩
              · rintro ⟨w', hw', hd⟩
                obtain ⟨e, h2⟩ := hpn y w' d hw' hd
                exact ⟨e, w', h2, hd⟩
            · intro he
              have := List.length_erase_of_mem hxl
              rw [he] at this
              simp at this
              omega
            · rw [List.length_erase_of_mem hxl]; omega
          · rw [List.getElem?_set_ne (Ne.symm e)] at hk
            obtain ⟨l', ⟨a1, a2⟩, a3, a4⟩ := h.count d k hk
            refine ⟨l', ⟨a1, fun y => ?_⟩, a3, a4⟩
            rw [a2 y]
            constructor
            · rintro ⟨w', hw', hd⟩
              have e : y ≠ x := by rintro rfl; rw [hw] at hw'; cases hw'; rw [hc] at hd; exact e (Option.some.inj hd).symm
              exact ⟨w', by dsimp only; rw [upd_ne _ _ e]; exact hw', hd⟩
            · rintro ⟨w', hw', hd⟩
              exact ⟨w', (hpn y w' d hw' hd).2, hd⟩
        · intro y z w1 w2 d hy hz hd hd'
          obtain ⟨e1, h1⟩ := hpn y w1 d hy hd
          obtain ⟨e2, h2⟩ := hpn z w2 d hz hd'
          rw [upd_ne _ _ e1, upd_ne _ _ e2]
          exact h.shared y z w1 w2 d h1 h2 hd hd'
        · intro y z w1 w2 k hy hz hk hk'
          have e1 : y ≠ x := by rintro rfl; rw [upd_same] at hk; cases hk
          have e2 : z ≠ x := by rintro rfl; rw [upd_same] at hk'; cases hk'
          rw [upd_ne _ _ e1] at hk
          rw [upd_ne _ _ e2] at hk'
          dsimp only at hy hz
          rw [upd_ne _ _ e1] at hy
          rw [upd_ne _ _ e2] at hz
          exact h.same y z w1 w2 k hy hz hk hk'
        · intro k hk
          rw [huse]
          exact h.obj k hk
        · intro k hk
          rw [huse]
          exact h.pending k hk

/-- A variable without a counter takes its share in what another one stands for. -/
theorem Inv.join {m : Mem α} {v pend} (h : Inv m v pend) {x y : Nat} {r : Ref} {o : Wrapper}
    (hx : ∀ w, m.vars x = some w → w.pn = none) (hvx : v x = none ∨ v x = some .moved)
    (ho : m.vars y = some o) (hy : v y = some r) (hr : r ≠ .moved) (hxy : x ≠ y) (p : Ptr) :
    ∃ m', ((m.setVar x (some ⟨o.pn, p⟩)).acquire x) = .ok m' ∧
      (∃ c, m'.vars x = some ⟨some c, p⟩) ∧ (∀ z, z ≠ x → m'.vars z = m.vars z) ∧ m'.objects = m.objects ∧
      Inv (m'.setVar x (some ⟨(m'.vars x).bind (·.pn), o.ptr⟩)) (upd v x (some r)) pend := by
  have hst := h.stands y o r ho hy
  have hvx' : ∀ k, v x ≠ some (.to k) := by rintro k hk; rcases hvx with e | e <;> rw [e] at hk <;> cases hk
  unfold Mem.acquire Mem.var
  simp only [setVar_vars, upd_same, Outcome.bind_ok]
  cases hc : o.pn with
  | none =>
    have hrn : r = .nothing := by
      cases r with
      | nothing => rfl
      | moved => exact absurd rfl hr
      | to k => exact absurd hc hst.2.1
    subst hrn
    have hnull : o.ptr = .null := hst
    dsimp only
    refine ⟨_, rfl, ⟨m.counters.length, upd_same _ _ _⟩, ?_, rfl, ?_⟩
    · intro z hz
      simp only [upd_ne _ _ hz]
    · have h' := h.setFree x .null .nothing hx (.inr ⟨rfl, rfl⟩) hvx'
      simp only [Mem.setVar, hnull]
      have hpn : ∀ z w c, upd m.vars x (some ⟨some m.counters.length, .null⟩) z = some w → w.pn = some c →
          (z = x ∧ c = m.counters.length) ∨ (z ≠ x ∧ m.vars z = some w ∧ c < m.counters.length) := by
        intro z w c hz hc
        by_cases e : z = x
        · subst e; rw [upd_same] at hz; cases hz; left; exact ⟨rfl, (Option.some.inj hc).symm⟩
        · rw [upd_ne _ _ e] at hz
          right
          obtain ⟨n, hn⟩ := h.held z w c hz hc
          refine ⟨e, hz, ?_⟩
          rcases Nat.lt_or_ge c m.counters.length with h' | h'
          · exact h'
          · rw [List.getElem?_eq_none h'] at hn; cases hn
      have hvars : (fun y => if y = x then some (⟨(upd (upd m.vars x (some ⟨none, p⟩)) x (some ⟨some m.counters.length, p⟩) x).bind fun x => x.pn, .null⟩ : Wrapper) else
          upd (upd m.vars x (some ⟨none, p⟩)) x (some ⟨some m.counters.length, p⟩) y) =
          upd m.vars x (some ⟨some m.counters.length, .null⟩) := by
        funext z; unfold upd; split <;> simp_all
      rw [hvars]
      refine ⟨?_, ?_, ?_, ?_, ?_, ?_, h'.obj, h'.rel, h'.pending⟩
      · intro z
        dsimp only
        by_cases e : z = x
        · subst e; rw [upd_same, upd_same]; simp
        · rw [upd_ne _ _ e, upd_ne _ _ e]; exact h.dom z
      · intro z w q hz hq
        dsimp only at hz
        by_cases e : z = x
        · subst e; rw [upd_same] at hz hq; cases hz; cases hq; rfl
        · rw [upd_ne _ _ e] at hz hq
          exact (h.stands z w q hz hq).mono fun _ _ => rfl
      · intro z w c hz hc
        dsimp only
        rcases hpn z w c hz hc with ⟨-, rfl⟩ | ⟨-, h2, h3⟩
        · exact ⟨1, by simp⟩
        · rw [List.getElem?_append_left h3]
          exact h.held z w c h2 hc
      · intro c n hn
        dsimp only at hn
        by_cases e : c = m.counters.length
        · subst e
          simp at hn
          subst hn
          refine ⟨[x], ⟨by simp, fun z => ?_⟩, by simp, rfl⟩
          rw [List.mem_singleton]
          constructor
          · rintro rfl
            exact ⟨_, upd_same _ _ _, rfl⟩
          · rintro ⟨w, hw, hc⟩
            rcases hpn z w _ hw hc with ⟨h, -⟩ | ⟨-, -, h3⟩
            · exact h
            · omega
        · have hlt : c < m.counters.length := by
            rcases Nat.lt_or_ge c (m.counters.length + 1) with h' | h'
            · omega
            · rw [List.getElem?_eq_none (by simpa using h')] at hn; cases hn
          rw [List.getElem?_append_left hlt] at hn
          obtain ⟨l', ⟨a1, a2⟩, a3, a4⟩ := h.count c n hn
          refine ⟨l', ⟨a1, fun z => ?_⟩, a3, a4⟩
          rw [a2 z]
          constructor
          · rintro ⟨w', hw', hd⟩
            have e : z ≠ x := by rintro rfl; rw [hx w' hw'] at hd; cases hd
            exact ⟨w', by dsimp only; rw [upd_ne _ _ e]; exact hw', hd⟩
          · rintro ⟨w', hw', hd⟩
            rcases hpn z w' _ hw' hd with ⟨-, h⟩ | ⟨-, h2, -⟩
            · omega
            · exact ⟨w', h2, hd⟩
      · intro z1 z2 w1 w2 d hy1 hz1 hd hd'
        rcases hpn z1 w1 d hy1 hd with ⟨e1, h1⟩ | ⟨e1, h1, h1'⟩ <;>
          rcases hpn z2 w2 d hz1 hd' with ⟨e2, h2⟩ | ⟨e2, h2, h2'⟩
        · rw [e1, e2]
        · omega
        · omega
        · rw [upd_ne _ _ e1, upd_ne _ _ e2]
          exact h.shared z1 z2 w1 w2 d h1 h2 hd hd'
      · intro z1 z2 w1 w2 k hy1 hz1 hk hk'
        have e1 : z1 ≠ x := by rintro rfl; rw [upd_same] at hk; cases hk
        have e2 : z2 ≠ x := by rintro rfl; rw [upd_same] at hk'; cases hk'
        rw [upd_ne _ _ e1] at hk
        rw [upd_ne _ _ e2] at hk'
        dsimp only at hy1 hz1
        rw [upd_ne _ _ e1] at hy1
        rw [upd_ne _ _ e2] at hz1
        exact h.same z1 z2 w1 w2 k hy1 hz1 hk hk'
  | some c =>
    dsimp only
    obtain ⟨n, hn⟩ := h.held y o c ho hc
    have hclt : c < m.counters.length := by
      rcases Nat.lt_or_ge c m.counters.length with h' | h'
      · exact h'
      · rw [List.getElem?_eq_none h'] at hn; cases hn
    simp only [Mem.counter, setVar_counters, hn, Outcome.map, Outcome.bind_ok]
    refine ⟨_, rfl, ⟨c, upd_same _ _ _⟩, ?_, rfl, ?_⟩
    · intro z hz
      simp only [upd_ne _ _ hz]
    · simp only [Mem.setVar]
      have hvars : (fun y => if y = x then some (⟨(upd m.vars x (some ⟨some c, p⟩) x).bind fun x => x.pn, o.ptr⟩ : Wrapper) else
          upd m.vars x (some ⟨some c, p⟩) y) = upd m.vars x (some ⟨some c, o.ptr⟩) := by
        funext z; unfold upd; split <;> simp_all
      rw [hvars]
      have huse : ∀ k, (∃ z, upd v x (some r) z = some (.to k)) ↔ ∃ z, v z = some (.to k) := by
        intro k
        constructor
        · rintro ⟨z, hz⟩
          by_cases e : z = x
          · subst e; rw [upd_same] at hz; exact ⟨y, by rw [hy, hz]⟩
          · rw [upd_ne _ _ e] at hz; exact ⟨z, hz⟩
        · rintro ⟨z, hz⟩
          have e : z ≠ x := by rintro rfl; exact hvx' k hz
          exact ⟨z, by rw [upd_ne _ _ e]; exact hz⟩
      have hpn : ∀ z w d, upd m.vars x (some ⟨some c, o.ptr⟩) z = some w → w.pn = some d →
          (z = x ∧ d = c) ∨ (z ≠ x ∧ m.vars z = some w) := by
        intro z w d hz hd
        by_cases e : z = x
        · subst e; rw [upd_same] at hz; cases hz; left; exact ⟨rfl, (Option.some.inj hd).symm⟩
        · rw [upd_ne _ _ e] at hz
          exact .inr ⟨e, hz⟩
      refine ⟨?_, ?_, ?_, ?_, ?_, ?_, ?_, h.rel, ?_⟩
      · intro z
        dsimp only
        by_cases e : z = x
        · subst e; rw [upd_same, upd_same]; simp
        · rw [upd_ne _ _ e, upd_ne _ _ e]; exact h.dom z
      · intro z w q hz hq
        dsimp only at hz
        by_cases e : z = x
        · subst e; rw [upd_same] at hz hq; cases hz; cases hq
          cases r with
          | nothing => exact hst
          | moved => exact absurd rfl hr
          | to k => exact ⟨hst.1, by simp, hst.2.2⟩
        · rw [upd_ne _ _ e] at hz hq
          exact (h.stands z w q hz hq).mono fun _ _ => rfl
      · intro z w d hz hd
        dsimp only
        by_cases e : d = c
        · subst e; exact ⟨_, List.getElem?_set_self hclt⟩
        · rw [List.getElem?_set_ne (Ne.symm e)]
          rcases hpn z w d hz hd with ⟨-, rfl⟩ | ⟨-, h2⟩
          · exact absurd rfl e
          · exact h.held z w d h2 hd
      · intro d k hk
        dsimp only at hk
        by_cases e : d = c
        · subst e
          rw [List.getElem?_set_self hclt] at hk
          cases hk
          obtain ⟨l', ⟨a1, a2⟩, a3, a4⟩ := h.count d n hn
          refine ⟨x :: l', ⟨List.nodup_cons.mpr ⟨?_, a1⟩, fun z => ?_⟩, by simp, by simp [a4]⟩
          · intro hxl
            obtain ⟨w, hw, hd⟩ := (a2 x).mp hxl
            rw [hx w hw] at hd; cases hd
          · rw [List.mem_cons, a2 z]
            constructor
            · rintro (rfl | ⟨w', hw', hd⟩)
              · exact ⟨_, upd_same _ _ _, rfl⟩
              · have e : z ≠ x := by rintro rfl; rw [hx w' hw'] at hd; cases hd
                exact ⟨w', by dsimp only; rw [upd_ne _ _ e]; exact hw', hd⟩
            · rintro ⟨w', hw', hd⟩
              rcases hpn z w' d hw' hd with ⟨h1, -⟩ | ⟨-, h2⟩
              · exact .inl h1
              · exact .inr ⟨w', h2, hd⟩
        · rw [List.getElem?_set_ne (Ne.symm e)] at hk
          obtain ⟨l', ⟨a1, a2⟩, a3, a4⟩ := h.count d k hk
          refine ⟨l', ⟨a1, fun z => ?_⟩, a3, a4⟩
          rw [a2 z]
          constructor
          · rintro ⟨w', hw', hd⟩
            have e : z ≠ x := by rintro rfl; rw [hx w' hw'] at hd; cases hd
            exact ⟨w', by dsimp only; rw [upd_ne _ _ e]; exact hw', hd⟩
          · rintro ⟨w', hw', hd⟩
            rcases hpn z w' d hw' hd with ⟨-, h⟩ | ⟨-, h2⟩
            · exact absurd h e
            · exact ⟨w', h2, hd⟩
      · intro z1 z2 w1 w2 d hy1 hz1 hd hd'
        rcases hpn z1 w1 d hy1 hd with ⟨e1, h1⟩ | ⟨e1, h1⟩ <;>
          rcases hpn z2 w2 d hz1 hd' with ⟨e2, h2⟩ | ⟨e2, h2⟩
        · rw [e1, e2]
        · rw [e1, upd_same, upd_ne _ _ e2, ← hy]
          exact h.shared y z2 o w2 d ho h2 (h1 ▸ hc) hd'
        · rw [e2, upd_same, upd_ne _ _ e1, ← hy]
          exact h.shared z1 y w1 o d h1 ho hd (h2 ▸ hc)
        · rw [upd_ne _ _ e1, upd_ne _ _ e2]
          exact h.shared z1 z2 w1 w2 d h1 h2 hd hd'
      · intro z1 z2 w1 w2 k hy1 hz1 hk hk'
        dsimp only at hy1 hz1
        -- the counter of a variable that stands for `k`
        have one : ∀ z w, upd m.vars x (some ⟨some c, o.ptr⟩) z = some w → upd v x (some r) z = some (.to k) →
            ∃ z' w', m.vars z' = some w' ∧ v z' = some (.to k) ∧ w'.pn = w.pn := by
          intro z w hz hv
          by_cases e : z = x
          · subst e; rw [upd_same] at hz hv; cases hz
            exact ⟨y, o, ho, by rw [hy, hv], hc⟩
          · rw [upd_ne _ _ e] at hz hv
            exact ⟨z, w, hz, hv, rfl⟩
        obtain ⟨a1, b1, c1, d1, e1⟩ := one z1 w1 hy1 hk
        obtain ⟨a2, b2, c2, d2, e2⟩ := one z2 w2 hz1 hk'
        rw [← e1, ← e2]
        exact h.same a1 a2 b1 b2 k c1 c2 d1 d2
      · intro k hk
        rw [huse]
        exact h.obj k hk
      · intro k hk
        rw [huse]
        exact h.pending k hk

/-- A variable without a counter becomes the only one that stands for a new object. -/
theorem Inv.adopt {m : Mem α} {v pend} (h : Inv m v pend) {x n : Nat}
    (hx : ∀ w, m.vars x = some w → w.pn = none) (hvx : v x = none ∨ v x = some .moved)
    (hp : pend n) (ha : ∃ a, m.objects[n]? = some (some a)) :
    Inv (⟨upd m.vars x (some ⟨some m.counters.length, .obj n⟩), m.counters ++ [some 1], m.objects, m.released⟩ : Mem α)
      (upd v x (some (.to n))) (fun k => pend k ∧ k ≠ n) := by
  have hvx' : ∀ k, v x ≠ some (.to k) := by rintro k hk; rcases hvx with e | e <;> rw [e] at hk <;> cases hk
  have hpn : ∀ z w c, upd m.vars x (some ⟨some m.counters.length, .obj n⟩) z = some w → w.pn = some c →
      (z = x ∧ c = m.counters.length) ∨ (z ≠ x ∧ m.vars z = some w ∧ c < m.counters.length) := by
    intro z w c hz hc
    by_cases e : z = x
    · subst e; rw [upd_same] at hz; cases hz; left; exact ⟨rfl, (Option.some.inj hc).symm⟩
    · rw [upd_ne _ _ e] at hz
      right
      obtain ⟨n, hn⟩ := h.held z w c hz hc
      refine ⟨e, hz, ?_⟩
      rcases Nat.lt_or_ge c m.counters.length with h' | h'
      · exact h'
      · rw [List.getElem?_eq_none h'] at hn; cases hn
  have huse : ∀ k, k ≠ n → ((∃ z, upd v x (some (.to n)) z = some (.to k)) ↔ ∃ z, v z = some (.to k)) := by
    intro k hk
    constructor
    · rintro ⟨z, hz⟩
      have e : z ≠ x := by rintro rfl; rw [upd_same] at hz; cases hz; exact hk rfl
      rw [upd_ne _ _ e] at hz; exact ⟨z, hz⟩
    · rintro ⟨z, hz⟩
      have e : z ≠ x := by rintro rfl; exact hvx' k hz
      exact ⟨z, by rw [upd_ne _ _ e]; exact hz⟩
  refine ⟨?_, ?_, ?_, ?_, ?_, ?_, ?_, h.rel, ?_⟩
  · intro z
    dsimp only
    by_cases e : z = x
    · subst e; rw [upd_same, upd_same]; simp
    · rw [upd_ne _ _ e, upd_ne _ _ e]; exact h.dom z
  · intro z w q hz hq
    dsimp only at hz
    by_cases e : z = x
    · subst e; rw [upd_same] at hz hq; cases hz; cases hq; exact ⟨rfl, by simp, ha⟩
    · rw [upd_ne _ _ e] at hz hq
      exact (h.stands z w q hz hq).mono fun _ _ => rfl
  · intro z w c hz hc
    dsimp only
    rcases hpn z w c hz hc with ⟨-, rfl⟩ | ⟨-, h2, h3⟩
    · exact ⟨1, by simp⟩
    · rw [List.getElem?_append_left h3]
      exact h.held z w c h2 hc
  · intro c n hn
    dsimp only at hn
    by_cases e : c = m.counters.length
    · subst e
      simp at hn
      subst hn
      refine ⟨[x], ⟨by simp, fun z => ?_⟩, by simp, rfl⟩
      rw [List.mem_singleton]
      constructor
      · rintro rfl
        exact ⟨_, upd_same _ _ _, rfl⟩
      · rintro ⟨w, hw, hc⟩
        rcases hpn z w _ hw hc with ⟨h, -⟩ | ⟨-, -, h3⟩
        · exact h
        · omega
    · have hlt : c < m.counters.length := by
        rcases Nat.lt_or_ge c (m.counters.length + 1) with h' | h'
        · omega
        · rw [List.getElem?_eq_none (by simpa using h')] at hn; cases hn
      rw [List.getElem?_append_left hlt] at hn
      obtain ⟨l', ⟨a1, a2⟩, a3, a4⟩ := h.count c n hn
      refine ⟨l', ⟨a1, fun z => ?_⟩, a3, a4⟩
      rw [a2 z]
      constructor
      · rintro ⟨w', hw', hd⟩
        have e : z ≠ x := by rintro rfl; rw [hx w' hw'] at hd; cases hd
        exact ⟨w', by dsimp only; rw [upd_ne _ _ e]; exact hw', hd⟩
      · rintro ⟨w', hw', hd⟩
        rcases hpn z w' _ hw' hd with ⟨-, h⟩ | ⟨-, h2, -⟩
        · omega
        · exact ⟨w', h2, hd⟩
  · intro z1 z2 w1 w2 d hy1 hz1 hd hd'
    rcases hpn z1 w1 d hy1 hd with ⟨e1, h1⟩ | ⟨e1, h1, h1'⟩ <;>
      rcases hpn z2 w2 d hz1 hd' with ⟨e2, h2⟩ | ⟨e2, h2, h2'⟩
    · rw [e1, e2]
    · omega
    · omega
    · rw [upd_ne _ _ e1, upd_ne _ _ e2]
      exact h.shared z1 z2 w1 w2 d h1 h2 hd hd'
  · intro z1 z2 w1 w2 k hy1 hz1 hk hk'
    dsimp only at hy1 hz1
    by_cases e1 : z1 = x <;> by_cases e2 : z2 = x
    · subst e1; subst e2; rw [upd_same] at hy1 hz1; rw [← Option.some.inj hy1, ← Option.some.inj hz1]
    · subst e1
      rw [upd_same] at hk; rw [upd_ne _ _ e2] at hk'
      cases hk
      exact absurd ⟨z2, hk'⟩ (h.pending n hp)
    · subst e2
      rw [upd_same] at hk'; rw [upd_ne _ _ e1] at hk
      cases hk'
      exact absurd ⟨z1, hk⟩ (h.pending n hp)
    · rw [upd_ne _ _ e1] at hk hy1
      rw [upd_ne _ _ e2] at hk' hz1
      exact h.same z1 z2 w1 w2 k hy1 hz1 hk hk'
  · intro k hk
    dsimp only at hk ⊢
    by_cases e : k = n
    · subst e
      left
      refine ⟨ha, ?_, .inl ⟨x, upd_same _ _ _⟩⟩
      rcases h.obj k hk with ⟨-, h2, -⟩ | ⟨-, -, -, h2⟩
      · exact h2
      · exact absurd hp h2
    · rw [huse k e]
      rcases h.obj k hk with ⟨h1, h2, h3⟩ | ⟨h1, h2, h3, h4⟩
      · exact .inl ⟨h1, h2, h3.imp_right fun h => ⟨h, e⟩⟩
      · exact .inr ⟨h1, h2, h3, fun h => h4 h.1⟩
  · rintro k ⟨hk, e⟩
    rw [huse k e]
    exact h.pending k hk

/-- A new object is about to be wrapped. -/
theorem Inv.newObject {m : Mem α} {v} (h : Inv m v fun _ => False) (a : α) :
    Inv (m.newObject a).2 v (· = m.objects.length) := by
  have hnone : ¬ ∃ z, v z = some (.to m.objects.length) := by
    rintro ⟨z, hz⟩
    obtain ⟨w, hw⟩ := h.alive hz
    obtain ⟨-, -, b, hb⟩ := h.stands z w _ hw hz
    simp at hb
  refine ⟨h.dom, ?_, h.held, h.count, h.shared, h.same, ?_, ?_, ?_⟩
  · intro z w r hw hz
    refine (h.stands z w r hw hz).mono ?_
    rintro n rfl
    obtain ⟨-, -, b, hb⟩ := h.stands z w _ hw hz
    have : n < m.objects.length := by
      rcases Nat.lt_or_ge n m.objects.length with h' | h'
      · exact h'
      · rw [List.getElem?_eq_none h'] at hb; cases hb
    exact List.getElem?_append_left this
  · intro n hn
    simp only [Mem.newObject, List.length_append, List.length_cons, List.length_nil, Nat.zero_add] at hn ⊢
    by_cases e : n = m.objects.length
    · subst e
      left
      exact ⟨⟨a, by simp⟩, fun hm => absurd (h.rel _ hm) (Nat.lt_irrefl _), .inr rfl⟩
    · have : n < m.objects.length := by omega
      rw [List.getElem?_append_left this]
      rcases h.obj n this with ⟨h1, h2, h3⟩ | ⟨h1, h2, h3, h4⟩
      · exact .inl ⟨h1, h2, .inl (h3.resolve_right id)⟩
      · exact .inr ⟨h1, h2, h3, e⟩
  · intro n hn
    have := h.rel n hn
    simp only [Mem.newObject, List.length_append, List.length_cons, List.length_nil]
    omega
  · rintro n rfl
    exact hnone

theorem Inv.pend_congr {m : Mem α} {v p q} (h : Inv m v p) (e : ∀ n, p n ↔ q n) : Inv m v q := by
  have : p = q := funext fun n => propext (e n)
  exact this ▸ h

/-- `wrap`. -/
theorem Inv.wrapNew {m : Mem α} {v} (h : Inv m v fun _ => False) {x r} (hx : v x = some r) (a : α) :
    ∃ m', m.wrapNew x a = .ok m' ∧ Inv m' (upd v x (some (.to m.objects.length))) (fun _ => False) ∧
      m'.objects.length = m.objects.length + 1 := by
  have h1 := h.newObject a
  obtain ⟨m2, p, e2, h2, hv2, hl2⟩ := h1.release (x := x) (r := r) hx
  have hl : m2.objects.length = m.objects.length + 1 := by rw [hl2]; simp [Mem.newObject]
  have halive : ∃ a, m2.objects[m.objects.length]? = some (some a) := by
    rcases h2.obj m.objects.length (by omega) with ⟨h3, -⟩ | ⟨-, -, -, h3⟩
    · exact h3
    · exact absurd rfl h3
  have h3 := h2.adopt (x := x) (n := m.objects.length) (fun w hw => by rw [hv2] at hw; cases hw; rfl)
    (.inr (upd_same _ _ _)) rfl halive
  rw [upd_upd] at h3
  refine ⟨_, ?_, h3.pend_congr (by intro n; simp), hl⟩
  unfold Mem.wrapNew
  simp only [e2, Outcome.bind_ok, Mem.acquire, Mem.var, hv2, Mem.newObject] at e2 ⊢
  simp only [hv2, Mem.setPtr, Mem.var, Outcome.map, Mem.setVar]
  congr 1
  simp
  funext z; unfold upd; split <;> simp_all

/-- Renaming variables. -/
theorem Inv.rename {m : Mem α} {v pend} (h : Inv m v pend) (σ : Nat → Nat) (hσ : ∀ x, σ (σ x) = x) :
    Inv (⟨fun x => m.vars (σ x), m.counters, m.objects, m.released⟩ : Mem α) (fun x => v (σ x)) pend := by
  have huse : ∀ k, (∃ z, v (σ z) = some (.to k)) ↔ ∃ z, v z = some (.to k) := fun k =>
    ⟨fun ⟨z, hz⟩ => ⟨σ z, hz⟩, fun ⟨z, hz⟩ => ⟨σ z, by rw [hσ]; exact hz⟩⟩
  refine ⟨fun x => h.dom _, fun x w r hw hv => (h.stands _ w r hw hv).mono fun _ _ => rfl,
    fun x w c hw hc => h.held _ w c hw hc, ?_, fun x y w w' c h1 h2 => h.shared _ _ w w' c h1 h2,
    fun x y w w' n h1 h2 => h.same _ _ w w' n h1 h2, ?_, h.rel, ?_⟩
  · intro c n hn
    obtain ⟨l, ⟨l1, l2⟩, l3, l4⟩ := h.count c n hn
    refine ⟨l.map σ, ⟨?_, fun x => ?_⟩, by simpa using l3, by simpa using l4⟩
    · rw [List.Nodup, List.pairwise_map]
      exact l1.imp fun {a b} hab e => hab (by rw [← hσ a, ← hσ b, e])
    · rw [List.mem_map]
      constructor
      · rintro ⟨z, hz, rfl⟩
        obtain ⟨w, hw, hc⟩ := (l2 z).mp hz
        exact ⟨w, by dsimp only; rw [hσ]; exact hw, hc⟩
      · rintro ⟨w, hw, hc⟩
        exact ⟨σ x, (l2 _).mpr ⟨w, hw, hc⟩, hσ x⟩
  · intro n hn
    rw [huse]
    exact h.obj n hn
  · intro n hn
    rw [huse]
    exact h.pending n hn

theorem swap_eq (f : Nat → Option β) (x y : Nat) :
    (fun z => f (if z = x then y else if z = y then x else z)) = upd (upd f x (f y)) y (f x) := by
  funext z
  unfold upd
  by_cases h1 : z = x <;> by_cases h2 : z = y <;> simp_all

/-- Two variables are swapped. -/
theorem Inv.swap {m : Mem α} {v pend} (h : Inv m v pend) (x y : Nat) :
    Inv ((m.setVar x (m.vars y)).setVar y (m.vars x)) (upd (upd v x (v y)) y (v x)) pend := by
  have := h.rename (fun z => if z = x then y else if z = y then x else z) (by
    intro z
    by_cases h1 : z = x <;> by_cases h2 : z = y <;> simp_all)
  rw [swap_eq v, swap_eq m.vars] at this
  exact this

/-- The end of a variable without a counter. -/
theorem Inv.forget {m : Mem α} {v pend} (h : Inv m v pend) {x : Nat} {p : Ptr} (hx : m.vars x = some ⟨none, p⟩)
    (hv : v x = some .moved) : Inv (m.setVar x none) (upd v x none) pend := by
  have huse : ∀ k, (∃ z, upd v x none z = some (.to k)) ↔ ∃ z, v z = some (.to k) := by
    intro k
    constructor
    · rintro ⟨z, hz⟩
      have e : z ≠ x := by rintro rfl; rw [upd_same] at hz; cases hz
      rw [upd_ne _ _ e] at hz; exact ⟨z, hz⟩
    · rintro ⟨z, hz⟩
      have e : z ≠ x := by rintro rfl; rw [hv] at hz; cases hz
      exact ⟨z, by rw [upd_ne _ _ e]; exact hz⟩
  have hne : ∀ z w, upd m.vars x none z = some w → z ≠ x ∧ m.vars z = some w := by
    intro z w hz
    have e : z ≠ x := by rintro rfl; rw [upd_same] at hz; cases hz
    rw [upd_ne _ _ e] at hz; exact ⟨e, hz⟩
  refine ⟨?_, ?_, ?_, ?_, ?_, ?_, ?_, h.rel, ?_⟩
  · intro z
    rw [setVar_vars]
    by_cases e : z = x
    · subst e; rw [upd_same, upd_same]; simp
    · rw [upd_ne _ _ e, upd_ne _ _ e]; exact h.dom z
  · intro z w r hw hz
    obtain ⟨e, hw⟩ := hne z w hw
    rw [upd_ne _ _ e] at hz
    exact (h.stands z w r hw hz).mono fun _ _ => rfl
  · intro z w c hw hc
    exact h.held z w c (hne z w hw).2 hc
  · intro c n hn
    obtain ⟨l, ⟨l1, l2⟩, l3, l4⟩ := h.count c n hn
    refine ⟨l, ⟨l1, fun z => ?_⟩, l3, l4⟩
    rw [l2 z]
    constructor
    · rintro ⟨w, hw, hc⟩
      have e : z ≠ x := by rintro rfl; rw [hx] at hw; cases hw; cases hc
      exact ⟨w, by rw [setVar_vars, upd_ne _ _ e]; exact hw, hc⟩
    · rintro ⟨w, hw, hc⟩
      exact ⟨w, (hne z w hw).2, hc⟩
  · intro y z w w' c hy hz hc hc'
    obtain ⟨e1, h1⟩ := hne y w hy
    obtain ⟨e2, h2⟩ := hne z w' hz
    rw [upd_ne _ _ e1, upd_ne _ _ e2]
    exact h.shared y z w w' c h1 h2 hc hc'
  · intro y z w w' n hy hz hn hn'
    obtain ⟨e1, h1⟩ := hne y w hy
    obtain ⟨e2, h2⟩ := hne z w' hz
    rw [upd_ne _ _ e1] at hn
    rw [upd_ne _ _ e2] at hn'
    exact h.same y z w w' n h1 h2 hn hn'
  · intro n hn
    rw [huse]
    exact h.obj n hn
  · intro n hn
    rw [huse]
    exact h.pending n hn

/-- Every careful step keeps the invariant. -/
theorem Inv.step {m : Mem α} {s s' : Spec.State} (k : Kind) (op : Op α) (h : Inv m s.vars fun _ => False)
    (hl : m.objects.length = s.created) (hc : s.Careful op) (hs : s.step op = some s') :
    ∃ m', step k m op = .ok m' ∧ Inv m' s'.vars (fun _ => False) ∧ m'.objects.length = s'.created := by
  cases op with
  | construct x =>
    simp only [Spec.State.step] at hs
    split at hs
    · next hx =>
      cases hs
      exact ⟨_, rfl, h.setFree x .null .nothing (fun w hw => by rw [(h.dom x).mpr hx] at hw; cases hw) (.inr ⟨rfl, rfl⟩)
        (fun n hn => by rw [hx] at hn; cases hn), hl⟩
    · cases hs
  | createList x a => exact hc.elim
  | create x a =>
    simp only [Spec.State.step] at hs
    split at hs
    · next hx =>
      cases hs
      have h1 := h.setFree x .null .nothing (fun w hw => by rw [(h.dom x).mpr hx] at hw; cases hw) (.inr ⟨rfl, rfl⟩)
        (fun n hn => by rw [hx] at hn; cases hn)
      obtain ⟨m', e, h2, h3⟩ := h1.wrapNew (x := x) (upd_same _ _ _) a
      refine ⟨m', e, ?_, ?_⟩
      · rw [upd_upd] at h2
        simp only [setVar_objects, hl] at h2
        exact h2
      · rw [h3]; simp [hl]
    · cases hs
  | wrap x a =>
    simp only [Spec.State.step] at hs
    split at hs
    · next r hx =>
      cases hs
      obtain ⟨m', e, h2, h3⟩ := h.wrapNew (x := x) hx a
      refine ⟨m', e, ?_, ?_⟩
      · simp only [hl] at h2
        exact h2
      · rw [h3, hl]
    · cases hs
  | copy x y =>
    simp only [Spec.State.step] at hs
    split at hs
    · next r hx hy =>
      cases hs
      obtain ⟨o, ho⟩ := h.alive hy
      have hxy : x ≠ y := by rintro rfl; rw [hx] at hy; cases hy
      have hr : r ≠ .moved := by rintro rfl; exact hc hy
      obtain ⟨m', e, ⟨c, ec⟩, e1, e2, h2⟩ := h.join (x := x) (fun w hw => by rw [(h.dom x).mpr hx] at hw; cases hw) (.inl hx) ho hy hr hxy .wild
      refine ⟨_, ?_, h2, ?_⟩
      · simp only [Cpp.step, Mem.copyConstruct, Mem.var, ho, Outcome.bind_ok, e, Mem.setPtr, ec, Outcome.map, Option.bind_some]
      · simpa [e2, Spec.State.set] using hl
    · cases hs
  | move x y =>
    simp only [Spec.State.step] at hs
    split at hs
    · next r hx hy =>
      cases hs
      obtain ⟨o, ho⟩ := h.alive hy
      have hxy : x ≠ y := by rintro rfl; rw [hx] at hy; cases hy
      have h1 := h.setFree x (if k.moveKeeps then o.ptr else .wild) .moved (fun w hw => by rw [(h.dom x).mpr hx] at hw; cases hw) (.inl rfl)
        (fun n hn => by rw [hx] at hn; cases hn)
      have h2 := h1.swap y x
      refine ⟨(m.setVar y (some ⟨none, if k.moveKeeps then o.ptr else .wild⟩)).setVar x (some o), ?_, ?_, ?_⟩
      · simp only [Cpp.step, Mem.moveConstruct, Mem.var, ho, Outcome.map, Outcome.bind_ok]
      · simp only [setVar_vars, upd_same, upd_ne _ _ (Ne.symm hxy), ho, hy] at h2
        have ev : ∀ {β : Type} (f : Nat → Option β) (a b c : Option β),
            upd (upd (upd f x a) y b) x c = upd (upd f y b) x c := by
          intro β f a b c
          rw [upd_comm _ hxy, upd_upd]
        simp only [Mem.setVar] at h2 ⊢
        have e1 := ev m.vars (some ⟨none, if k.moveKeeps then o.ptr else .wild⟩) (some ⟨none, if k.moveKeeps then o.ptr else .wild⟩) (some o)
        have e2 := ev s.vars (some .moved) (some .moved) (some r)
        unfold upd at h2 e1 e2
        rw [e1, e2] at h2
        exact h2
      · simpa [Spec.State.set] using hl
    · cases hs
  | assign x y =>
    simp only [Spec.State.step] at hs
    split at hs
    · next q r hx hy =>
      cases hs
      obtain ⟨hxy, hr⟩ := hc
      have hr : r ≠ .moved := by rintro rfl; exact hr hy
      obtain ⟨m1, p, e1, h1, hv1, hl1⟩ := h.release hx
      have hy1 : upd s.vars x (some .moved) y = some r := by rw [upd_ne _ _ (Ne.symm hxy)]; exact hy
      obtain ⟨o, ho⟩ := h1.alive hy1
      obtain ⟨m', e, ⟨c, ec⟩, e2, e3, h2⟩ := h1.join (x := x) (fun w hw => by rw [hv1] at hw; cases hw; rfl) (.inr (upd_same _ _ _)) ho hy1 hr hxy p
      rw [upd_upd] at h2
      refine ⟨_, ?_, h2, ?_⟩
      · simp only [Cpp.step, Mem.assign, e1, Outcome.bind_ok, Mem.var, ho, hv1, e, e2 y (Ne.symm hxy), Mem.setPtr, ec, Outcome.map, Option.bind_some]
      · simpa [e3, hl1, Spec.State.set] using hl
    · cases hs
  | moveAssign x y =>
    simp only [Spec.State.step] at hs
    split at hs
    · next q r hx hy =>
      cases hs
      obtain ⟨o, ho⟩ := h.alive hy
      obtain ⟨w, hw⟩ := h.alive hx
      have h2 := h.swap x y
      refine ⟨(m.setVar x (some o)).setVar y (some w), ?_, ?_, ?_⟩
      · simp only [Cpp.step, Mem.moveAssign, Mem.var, ho, hw, Outcome.map, Outcome.bind_ok]
      · rw [ho, hw, hx, hy] at h2
        exact h2
      · simpa [Spec.State.set] using hl
    · cases hs
  | destroy x =>
    simp only [Spec.State.step] at hs
    split at hs
    · next r hx =>
      cases hs
      obtain ⟨m1, p, e1, h1, hv1, hl1⟩ := h.release hx
      have h2 := h1.forget hv1 (upd_same _ _ _)
      rw [upd_upd] at h2
      refine ⟨_, ?_, h2, ?_⟩
      · simp only [Cpp.step, Mem.destroy, e1, Outcome.map, Outcome.bind_ok]
      · simpa [hl1, Spec.State.set] using hl
    · cases hs

theorem Inv.start : Inv (Mem.start : Mem α) Spec.State.start.vars fun _ => False where
  dom := fun _ => ⟨fun _ => rfl, fun _ => rfl⟩
  stands := by intro x w r h; cases h
  held := by intro x w r h; cases h
  count := by intro c n h; simp [Mem.start] at h
  shared := by intro x y w w' c h; cases h
  same := by intro x y w w' c h; cases h
  obj := by intro n h; simp [Mem.start] at h
  rel := by intro n h; simp [Mem.start] at h
  pending := by intro n h; exact h.elim

theorem Inv.run (k : Kind) (ops : List (Op α)) {m : Mem α} {s s' : Spec.State} (h : Inv m s.vars fun _ => False)
    (hl : m.objects.length = s.created) (hc : Spec.CarefulRun ops s) (hs : Spec.State.run ops s = some s') :
    ∃ m', run k ops m = .ok m' ∧ Inv m' s'.vars (fun _ => False) ∧ m'.objects.length = s'.created := by
  induction ops generalizing m s with
  | nil => cases hs; exact ⟨m, rfl, h, hl⟩
  | cons op ops ih =>
    obtain ⟨c1, c2⟩ := hc
    simp only [Spec.State.run] at hs
    cases e : s.step op with
    | none => rw [e] at hs; cases hs
    | some s1 =>
      rw [e] at hs
      obtain ⟨m1, e1, h1, hl1⟩ := h.step k op hl c1 e
      obtain ⟨m2, e2, h2⟩ := ih h1 hl1 (c2 s1 e) hs
      exact ⟨m2, by simp only [Cpp.run, e1, Outcome.bind_ok, e2], h2⟩

end Trax.Cpp
