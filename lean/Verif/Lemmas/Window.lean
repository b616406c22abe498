import Verif.Lemmas.RasterNodes

/-!
# Lemmas about windows of masks
-/

namespace Trax
open Region

theorem idx_inj {a b i i' w : Nat} (ha : a < w) (hb : b < w) (h : a + i * w = b + i' * w) : i = i' ∧ a = b := by
  have hi : i = i' := by
    rcases Nat.lt_trichotomy i i' with hc | hc | hc
    · have : (i + 1) * w ≤ i' * w := Nat.mul_le_mul_right _ hc
      rw [Nat.add_mul, Nat.one_mul] at this; omega
    · exact hc
    · have : (i' + 1) * w ≤ i * w := Nat.mul_le_mul_right _ hc
      rw [Nat.add_mul, Nat.one_mul] at this; omega
  subst hi
  exact ⟨rfl, by omega⟩

theorem idx_lt {a i w h : Nat} (ha : a < w) (hi : i < h) : a + i * w < w * h := by
  have : (i + 1) * w ≤ w * h := by rw [Nat.mul_comm w h]; exact Nat.mul_le_mul_right _ hi
  rw [Nat.add_mul, Nat.one_mul] at this; omega

theorem readAt_ok (data : List UInt8) (i : Nat) (h : i < data.length) : readAt data i = .ok (data.getD i 0) := by
  unfold readAt
  rw [if_pos (by omega), Int.toNat_natCast, List.getElem?_eq_getElem h]
  simp [List.getD_eq_getElem?_getD, h]

theorem chk32_ok {n : Int} (h : InInt32 n) : chk32 n = .ok n := by
  unfold chk32; rw [if_pos h]

/-- The copy loops with checked offsets. -/
theorem copyLoops (data buf : List UInt8) (mw mh w h ox oy gx gy tw th : Nat) (hlen : data.length = mw * mh)
    (hms : mw * mh < 2 ^ 31) (hbl : w * h ≤ buf.length) (hsz : w * h < 2 ^ 31) 
    (hin : 0 < tw → 0 < th → ox + tw ≤ w ∧ oy + th ≤ h ∧ gx + tw ≤ mw ∧ gy + th ≤ mh) :
    ∃ out, Outcome.forN (fun (i : Nat) buf => Outcome.forN (fun (j : Nat) buf =>
        (chk32 ((j : Int) + gx + (i + gy) * mw)).bind fun src => (chk32 ((j : Int) + ox + (i + oy) * w)).bind fun dst =>
        (readAt data src).bind fun v => writeAt buf dst v) tw buf) th buf = .ok out ∧
      out.length = buf.length ∧ (∀ i j, i < th → j < tw → out.getD (j + ox + (i + oy) * w) 0 = data.getD (j + gx + (i + gy) * mw) 0) ∧
      ∀ k, (∀ i j, i < th → j < tw → k ≠ j + ox + (i + oy) * w) → out.getD k 0 = buf.getD k 0 := by
  have h31 : (2 : Nat) ^ 31 = 2147483648 := by norm_num
  obtain ⟨out, p1, p2⟩ := forN_inv (fun (i : Nat) buf => Outcome.forN (fun (j : Nat) buf =>
        (chk32 ((j : Int) + gx + (i + gy) * mw)).bind fun src => (chk32 ((j : Int) + ox + (i + oy) * w)).bind fun dst =>
        (readAt data src).bind fun v => writeAt buf dst v) tw buf)
    (fun n out => out.length = buf.length ∧
      (∀ i j, i < n → j < tw → out.getD (j + ox + (i + oy) * w) 0 = data.getD (j + gx + (i + gy) * mw) 0) ∧
      ∀ k, (∀ i j, i < n → j < tw → k ≠ j + ox + (i + oy) * w) → out.getD k 0 = buf.getD k 0) th buf
    ⟨rfl, fun i j hi => by omega, fun k _ => rfl⟩
    (by
      intro r s hr ⟨q1, q2, q3⟩
      obtain ⟨out, o1, o2, o3, o4⟩ := forN_inv (fun (j : Nat) buf =>
          (chk32 ((j : Int) + gx + (r + gy) * mw)).bind fun src => (chk32 ((j : Int) + ox + (r + oy) * w)).bind fun dst =>
          (readAt data src).bind fun v => writeAt buf dst v)
        (fun n out => out.length = s.length ∧
          (∀ j, j < n → out.getD (j + ox + (r + oy) * w) 0 = data.getD (j + gx + (r + gy) * mw) 0) ∧
          ∀ k, (∀ j, j < n → k ≠ j + ox + (r + oy) * w) → out.getD k 0 = s.getD k 0) tw s
        ⟨rfl, fun j hj => by omega, fun k _ => rfl⟩
        (by
          intro c t hc ⟨t1, t2, t3⟩
          obtain ⟨i1, i2, i3, i4⟩ := hin (by omega) (by omega)
          have hsrc : c + gx + (r + gy) * mw < mw * mh := idx_lt (by omega) (by omega)
          have hdst : c + ox + (r + oy) * w < w * h := idx_lt (by omega) (by omega)
          have e1 : (c : Int) + gx + ((r : Int) + gy) * mw = ((c + gx + (r + gy) * mw : Nat) : Int) := by push_cast; rfl
          have e2 : (c : Int) + ox + ((r : Int) + oy) * w = ((c + ox + (r + oy) * w : Nat) : Int) := by push_cast; rfl
          have hdl : c + ox + (r + oy) * w < t.length := by rw [t1, q1]; omega
          refine ⟨t.set (c + ox + (r + oy) * w) (data.getD (c + gx + (r + gy) * mw) 0), ?_, by simp [t1], ?_, ?_⟩
          · rw [e1, chk32_ok (by unfold InInt32; omega), Outcome.bind_ok, e2, chk32_ok (by unfold InInt32; omega), Outcome.bind_ok,
              readAt_ok data _ (by omega), Outcome.bind_ok, writeAt_ok _ _ _ hdl]
          · intro j hj
            rw [getD_set _ _ _ _ hdl]
            by_cases hjc : j = c
            · subst hjc; rw [if_pos rfl]
            · rw [if_neg (by omega)]; exact t2 j (by omega)
          · intro k hk
            rw [getD_set _ _ _ _ hdl, if_neg (hk c (by omega))]
            exact t3 k fun j hj => hk j (by omega))
      refine ⟨out, o1, o2.trans q1, ?_, ?_⟩
      · intro i j hi hj
        rcases Nat.lt_or_ge i r with hlt | hge
        · rw [o4 _ (fun j' hj' he => ?_)]
          · exact q2 i j hlt hj
          · obtain ⟨i1, i2, i3, i4⟩ := hin (by omega) (by omega)
            have := (idx_inj (by omega) (by omega) he).1
            omega
        · have : i = r := by omega
          subst this
          exact o3 j hj
      · intro k hk
        rw [o4 k fun j hj => hk r j (by omega) hj]
        exact q3 k fun i j hi hj => hk i j (by omega) hj)
  exact ⟨out, p1, p2⟩

end Trax
