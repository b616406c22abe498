import Verif.Spec.PyValues
import Verif.Lemmas.Python
import Verif.Lemmas.Raster
import Verif.Lemmas.Matlab
import Mathlib.Tactic.Ring

/-!
# Lemmas about arrays of NumPy
-/

namespace Trax.Py
open Spec

/-- The byte at an offset of a block. -/
def byteOf (mem : List UInt8) (p : Int) : Option UInt8 := if 0 ≤ p then mem[p.toNat]? else none

/-- The number of an element in the order of `gather`. -/
def flat : List Nat → List Nat → Nat
  | _ :: shape, i :: idx => i * shape.prod + flat shape idx
  | _, _ => 0

theorem flat_lt : ∀ {shape idx : List Nat}, List.Forall₂ (· < ·) idx shape → flat shape idx < shape.prod
  | [], [], _ => by simp [flat]
  | n :: shape, i :: idx, h => by
    obtain ⟨h1, h2⟩ := List.forall₂_cons.1 h
    have := flat_lt h2
    have h3 := Nat.mul_le_mul_right shape.prod (Nat.succ_le_of_lt h1)
    simp only [flat, List.prod_cons]
    rw [Nat.succ_mul] at h3
    omega

theorem getElem?_block {d : List UInt8} {n k : Nat} (off : Nat) (h : k < n) : ((d.drop off).take n)[k]? = d[off + k]? := by
  rw [List.getElem?_take, if_pos h, List.getElem?_drop]

theorem readBlock_ok {mem : List UInt8} {off : Int} {n : Nat} (h : ∀ b < n, (byteOf mem (off + b)).isSome = true) :
    ∃ out, readBlock mem off n = .ok out ∧ out.length = n ∧ ∀ b < n, out[b]? = byteOf mem (off + b) := by
  unfold readBlock
  by_cases hn : n = 0
  · subst hn; exact ⟨[], rfl, rfl, fun b hb => absurd hb (by omega)⟩
  · have h0 := h 0 (by omega)
    have h1 := h (n - 1) (by omega)
    unfold byteOf at h0 h1
    have hoff : 0 ≤ off := by
      by_contra hc
      rw [if_neg (by omega)] at h0
      cases h0
    rw [if_pos (by omega)] at h1
    have hlen : (off + (n - 1 : Nat)).toNat < mem.length := by
      by_contra hc
      rw [List.getElem?_eq_none (by omega)] at h1
      cases h1
    rw [if_neg hn, if_pos (by omega)]
    refine ⟨_, rfl, by rw [List.length_take, List.length_drop]; omega, fun b hb => ?_⟩
    rw [getElem?_block _ hb]
    unfold byteOf
    rw [if_pos (by omega)]
    congr 1
    omega

theorem forN_append {f : Nat → Outcome (List UInt8)} {d : Nat → List UInt8} {L n : Nat} (h : ∀ i < n, f i = .ok (d i) ∧ (d i).length = L) :
    ∃ out, Outcome.forN (fun i out => (f i).map (out ++ ·)) n [] = .ok out ∧ out.length = n * L ∧ ∀ i < n, ∀ k < L, out[i * L + k]? = (d i)[k]? := by
  obtain ⟨out, h1, h2, h3⟩ := forN_inv (fun i out => (f i).map (out ++ ·))
    (fun m out => out.length = m * L ∧ ∀ i < m, ∀ k < L, out[i * L + k]? = (d i)[k]?) n []
    ⟨by simp, fun i hi => absurd hi (by omega)⟩ (by
      rintro m out hm ⟨hl, hk⟩
      refine ⟨out ++ d m, by rw [(h m hm).1]; rfl, by rw [List.length_append, hl, (h m hm).2, Nat.succ_mul], fun i hi k hkL => ?_⟩
      by_cases him : i = m
      · subst him
        rw [List.getElem?_append_right (by omega), hl, Nat.add_sub_cancel_left]
      · have h4 := Nat.mul_le_mul_right L (show i + 1 ≤ m by omega)
        rw [Nat.succ_mul] at h4
        rw [List.getElem?_append_left (by omega), hk i (by omega) k hkL])
  exact ⟨out, h1, h2, h3⟩

/-- The bytes that `gather` collects. -/
theorem gather_ok (mem : List UInt8) (size : Nat) : ∀ (shape : List Nat) (strides : List Int) (off : Int), strides.length = shape.length →
    (∀ idx, List.Forall₂ (· < ·) idx shape → ∀ b < size, (byteOf mem (off + (List.zipWith (fun (i : Nat) (s : Int) => i * s) idx strides).sum + b)).isSome = true) →
    ∃ out, gather mem size shape strides off = .ok out ∧ out.length = size * shape.prod ∧
      ∀ idx, List.Forall₂ (· < ·) idx shape → ∀ b < size, out[size * flat shape idx + b]? = byteOf mem (off + (List.zipWith (fun (i : Nat) (s : Int) => i * s) idx strides).sum + b)
  | [], strides, off, _, h => by
    obtain ⟨out, h1, h2, h3⟩ := readBlock_ok (mem := mem) (off := off) (n := size) (fun b hb => by
      have := h [] .nil b hb
      simpa using this)
    refine ⟨out, h1, by simpa using h2, fun idx hidx b hb => ?_⟩
    cases hidx
    simpa [flat] using h3 b hb
  | n :: shape, [], off, hl, _ => by simp at hl
  | n :: shape, s :: strides, off, hl, h => by
    have ih : ∀ i < n, ∃ out, gather mem size shape strides (off + i * s) = .ok out ∧ out.length = size * shape.prod ∧
        ∀ idx, List.Forall₂ (· < ·) idx shape → ∀ b < size, out[size * flat shape idx + b]? =
          byteOf mem (off + i * s + (List.zipWith (fun (i : Nat) (s : Int) => i * s) idx strides).sum + b) := by
      intro i hi
      refine gather_ok mem size shape strides _ (by simpa using hl) fun idx hidx b hb => ?_
      have := h (i :: idx) (.cons hi hidx) b hb
      rwa [List.zipWith_cons_cons, List.sum_cons, ← Int.add_assoc] at this
    have hd : ∃ d : Nat → List UInt8, ∀ i < n, gather mem size shape strides (off + i * s) = .ok (d i) ∧ (d i).length = size * shape.prod ∧
        ∀ idx, List.Forall₂ (· < ·) idx shape → ∀ b < size, (d i)[size * flat shape idx + b]? =
          byteOf mem (off + i * s + (List.zipWith (fun (i : Nat) (s : Int) => i * s) idx strides).sum + b) := by
      refine ⟨fun i => if hi : i < n then (ih i hi).choose else [], fun i hi => ?_⟩
      simp only [hi, dite_true]
      exact (ih i hi).choose_spec
    obtain ⟨d, hd⟩ := hd
    obtain ⟨out, h1, h2, h3⟩ := forN_append (f := fun i => gather mem size shape strides (off + i * s)) (d := d) (n := n)
      fun i hi => ⟨(hd i hi).1, (hd i hi).2.1⟩
    refine ⟨out, h1, by rw [h2, List.prod_cons]; ring, fun idx hidx b hb => ?_⟩
    cases hidx with
    | @cons i _ idx _ hi hidx =>
      have hf := flat_lt hidx
      have hlt : size * flat shape idx + b < size * shape.prod := by
        have := Nat.mul_le_mul_left size (Nat.succ_le_of_lt hf)
        rw [Nat.mul_succ] at this
        omega
      rw [flat, show size * (i * shape.prod + flat shape idx) + b = i * (size * shape.prod) + (size * flat shape idx + b) by ring,
        h3 i hi _ hlt, (hd i hi).2.2 idx hidx b hb, List.zipWith_cons_cons, List.sum_cons, ← Int.add_assoc]

theorem byteAt_eq (a : NdArray) (idx : List Nat) (b : Nat) :
    byteAt a idx b = byteOf a.mem (a.base + (List.zipWith (fun (i : Nat) (s : Int) => i * s) idx a.strides).sum + b) := rfl

theorem ascontiguous_ok {a : NdArray} (h : Readable a) (hs : a.shape ≠ []) :
    ∃ data, ascontiguous a = .ok ⟨a.dtype, a.shape, packed a.dtype.size a.shape, 0, data⟩ ∧ data.length = a.nbytes ∧
      ∀ idx, Within a idx → ∀ b < a.dtype.size, data[a.dtype.size * flat a.shape idx + b]? = byteAt a idx b := by
  obtain ⟨data, h1, h2, h3⟩ := gather_ok a.mem a.dtype.size a.shape a.strides a.base h.strides h.elements
  refine ⟨data, ?_, h2, h3⟩
  simp only [ascontiguous, h1, Outcome.map, if_neg hs, Outcome.bind_ok]

/-- The elements of an array without gaps. -/
theorem zipWith_packed (size : Nat) : ∀ (shape idx : List Nat), idx.length = shape.length →
    (List.zipWith (fun (i : Nat) (s : Int) => i * s) idx (packed size shape)).sum = (size * flat shape idx : Nat)
  | [], [], _ => by simp [packed, flat]
  | n :: shape, i :: idx, h => by
    rw [packed, List.zipWith_cons_cons, List.sum_cons, zipWith_packed size shape idx (by simpa using h), flat]
    push_cast
    ring

theorem byteAt_new (dtype : DType) (shape : List Nat) (m : List UInt8) {idx : List Nat} (h : idx.length = shape.length) (b : Nat) :
    byteAt (newArray dtype shape m) idx b = m[dtype.size * flat shape idx + b]? := by
  have e := zipWith_packed dtype.size shape idx h
  unfold byteAt position newArray
  simp only [e]
  rw [if_pos (by positivity)]
  congr 1
  omega

theorem packed_length (size : Nat) : ∀ shape : List Nat, (packed size shape).length = shape.length
  | [] => rfl
  | _ :: shape => by rw [packed, List.length_cons, List.length_cons, packed_length size shape]

theorem readable_new {dtype : DType} {shape : List Nat} {m : List UInt8} (h : m.length = dtype.size * shape.prod) : Readable (newArray dtype shape m) := by
  refine ⟨packed_length _ _, fun idx hidx b hb => ?_⟩
  have hidx : List.Forall₂ (· < ·) idx shape := hidx
  have hb : b < dtype.size := hb
  rw [byteAt_new _ _ _ hidx.length_eq, List.getElem?_eq_getElem]
  · rfl
  · have := flat_lt hidx
    have h2 := Nat.mul_le_mul_left dtype.size (Nat.succ_le_of_lt this)
    rw [Nat.mul_succ] at h2
    omega

theorem readBlock_all {mem : List UInt8} {n : Nat} (h : n ≤ mem.length) : readBlock mem 0 n = .ok (mem.take n) := by
  unfold readBlock
  by_cases hn : n = 0
  · subst hn; simp
  · rw [if_neg hn, if_pos (by omega)]; rfl

theorem writeBlock_all {mem data : List UInt8} (h : data.length = mem.length) : writeBlock mem data = .ok data := by
  unfold writeBlock
  rw [if_pos (by omega), List.drop_eq_nil_of_le (by omega), List.append_nil]

theorem wrap32_nat {n : Nat} (h : n < 2147483648) : wrap32 n = n := by unfold wrap32; omega

theorem wrap32_int {n : Int} (h : InInt32 n) : wrap32 n = n := by unfold InInt32 at h; unfold wrap32; omega

end Trax.Py
