import Verif.Spec.Matlab
import Verif.Lemmas.OpenCv
import Verif.Lemmas.Image
import Verif.Lemmas.FloatOps
import Mathlib.Tactic.Ring

/-!
# Lemmas about the MATLAB helpers
-/

namespace Trax.Mex
open Spec Ocv

/-- `out` is `buf` with the bytes `g p` at the places `S`. -/
def Fills (g : Nat → UInt8) (S : Nat → Prop) (buf out : List UInt8) : Prop :=
  out.length = buf.length ∧ (∀ p, S p → out[p]? = some (g p)) ∧ ∀ p, ¬ S p → out[p]? = buf[p]?

theorem Fills.refl (g : Nat → UInt8) (buf : List UInt8) : Fills g (fun _ => False) buf buf :=
  ⟨rfl, fun _ h => h.elim, fun _ _ => rfl⟩

theorem Fills.trans {g : Nat → UInt8} {S T : Nat → Prop} {a b c : List UInt8} (h1 : Fills g S a b) (h2 : Fills g T b c) :
    Fills g (fun p => S p ∨ T p) a c := by
  refine ⟨h2.1.trans h1.1, ?_, ?_⟩
  · intro p hp
    by_cases ht : T p
    · exact h2.2.1 p ht
    · rw [h2.2.2 p ht]; exact h1.2.1 p (hp.resolve_right ht)
  · intro p hp
    rw [h2.2.2 p fun h => hp (.inr h), h1.2.2 p fun h => hp (.inl h)]

theorem Fills.congr {g : Nat → UInt8} {S T : Nat → Prop} {a b : List UInt8} (h : Fills g S a b) (e : ∀ p, S p ↔ T p) : Fills g T a b :=
  ⟨h.1, fun p hp => h.2.1 p ((e p).mpr hp), fun p hp => h.2.2 p fun hs => hp ((e p).mp hs)⟩

theorem fills_forN {g : Nat → UInt8} {L : Nat} {f : Nat → List UInt8 → Outcome (List UInt8)} {S : Nat → Nat → Prop} {n : Nat}
    (h : ∀ i buf, i < n → buf.length = L → ∃ out, f i buf = .ok out ∧ Fills g (S i) buf out) {buf : List UInt8} (hb : buf.length = L) :
    ∃ out, Outcome.forN f n buf = .ok out ∧ Fills g (fun p => ∃ i, i < n ∧ S i p) buf out := by
  induction n with
  | zero => exact ⟨buf, rfl, (Fills.refl g buf).congr fun p => ⟨fun h => h.elim, fun ⟨i, h, _⟩ => absurd h (by omega)⟩⟩
  | succ n ih =>
    obtain ⟨b, h1, h2⟩ := ih fun i buf hi => h i buf (by omega)
    obtain ⟨c, h3, h4⟩ := h n b (by omega) (h2.1.trans hb)
    refine ⟨c, by rw [Outcome.forN, h1, Outcome.bind_ok, h3], (h2.trans h4).congr fun p => ⟨?_, ?_⟩⟩
    · rintro (⟨i, hi, hs⟩ | hs)
      · exact ⟨i, by omega, hs⟩
      · exact ⟨n, by omega, hs⟩
    · rintro ⟨i, hi, hs⟩
      by_cases hin : i = n
      · subst hin; exact .inr hs
      · exact .inl ⟨i, by omega, hs⟩

theorem chk32_nat {n : Nat} (h : n < 2 ^ 31) : chk32 (n : Int) = .ok (n : Int) := by
  have h2 : (2 : Nat) ^ 31 = 2147483648 := by norm_num
  unfold chk32
  rw [if_pos (by unfold InInt32; omega)]

theorem writeAt_nat {l : List UInt8} {p : Nat} {v : UInt8} (h : p < l.length) : writeAt l (p : Int) v = .ok (l.set p v) := by
  unfold writeAt
  rw [if_pos (by omega), Int.toNat_natCast]

theorem copyElement_fills {g : Nat → UInt8} {n s d L : Nat} {src buf : List UInt8} (hb : buf.length = L) (hs : s < 2 ^ 31) (hd : d < 2 ^ 31)
    (hL : n * d + n ≤ L) (hg : ∀ k, k < n → src[n * s + k]? = some (g (n * d + k))) :
    ∃ out, copyElement n src s d buf = .ok out ∧ Fills g (fun p => ∃ k, k < n ∧ p = n * d + k) buf out := by
  unfold copyElement
  rw [chk32_nat hs, Outcome.bind_ok, chk32_nat hd, Outcome.bind_ok]
  refine fills_forN (L := L) ?_ hb
  intro k buf hk hl
  have hsrc := hg k hk
  have e1 : (n : Int) * (s : Int) + (k : Int) = ((n * s + k : Nat) : Int) := by push_cast; rfl
  have e2 : (n : Int) * (d : Int) + (k : Int) = ((n * d + k : Nat) : Int) := by push_cast; rfl
  have hlt : n * s + k < src.length := by
    by_contra hc
    rw [List.getElem?_eq_none (by omega)] at hsrc
    cases hsrc
  rw [e1, e2, readAt_nat hlt, hsrc, Outcome.bind_ok, Option.getD_some, writeAt_nat (by omega)]
  refine ⟨_, rfl, by rw [List.length_set], ?_, ?_⟩
  · rintro p rfl
    rw [List.getElem?_set, if_pos rfl, if_pos (by omega)]
  · intro p hp
    rw [List.getElem?_set, if_neg fun h => hp h.symm]

/-- Two nested loops over all pairs. -/
theorem fills2 {g : Nat → UInt8} {n A B L : Nat} {src : List UInt8} (s d : Nat → Nat → Nat)
    (hs : ∀ a b, a < A → b < B → s a b < 2 ^ 31) (hd : ∀ a b, a < A → b < B → d a b < 2 ^ 31 ∧ n * d a b + n ≤ L)
    (hg : ∀ a b k, a < A → b < B → k < n → src[n * s a b + k]? = some (g (n * d a b + k)))
    (f : Nat → Nat → List UInt8 → Outcome (List UInt8)) (hf : ∀ a b buf, f a b buf = copyElement n src (s a b : Nat) (d a b : Nat) buf)
    {buf : List UInt8} (hb : buf.length = L) :
    ∃ out, Outcome.forN (fun a buf => Outcome.forN (f a) B buf) A buf = .ok out ∧ out.length = L ∧
      (∀ a b k, a < A → b < B → k < n → out[n * d a b + k]? = src[n * s a b + k]?) := by
  obtain ⟨out, h1, h2⟩ := fills_forN (g := g) (L := L) (f := fun a buf => Outcome.forN (f a) B buf) (n := A)
    (S := fun a p => ∃ b, b < B ∧ ∃ k, k < n ∧ p = n * d a b + k) (by
      intro a buf ha hl
      refine fills_forN (L := L) ?_ hl
      intro b buf hb hl
      rw [hf]
      exact copyElement_fills hl (hs a b ha hb) (hd a b ha hb).1 (hd a b ha hb).2 fun k hk => hg a b k ha hb hk) hb
  refine ⟨out, h1, h2.1.trans hb, ?_⟩
  intro a b k ha hb hk
  rw [hg a b k ha hb hk]
  exact h2.2.1 _ ⟨a, ha, b, hb, k, hk, rfl⟩

/-- Three nested loops, for single bytes. -/
theorem fills3 {g : Nat → UInt8} {A B C L : Nat} {src : List UInt8} (s d : Nat → Nat → Nat → Nat)
    (hs : ∀ a b c, a < A → b < B → c < C → s a b c < 2 ^ 31) (hd : ∀ a b c, a < A → b < B → c < C → d a b c < 2 ^ 31 ∧ d a b c < L)
    (hg : ∀ a b c, a < A → b < B → c < C → src[s a b c]? = some (g (d a b c)))
    (f : Nat → Nat → Nat → List UInt8 → Outcome (List UInt8))
    (hf : ∀ a b c buf, f a b c buf = copyElement 1 src (s a b c : Nat) (d a b c : Nat) buf)
    {buf : List UInt8} (hb : buf.length = L) :
    ∃ out, Outcome.forN (fun a buf => Outcome.forN (fun b buf => Outcome.forN (f a b) C buf) B buf) A buf = .ok out ∧ out.length = L ∧
      (∀ a b c, a < A → b < B → c < C → out[d a b c]? = src[s a b c]?) := by
  obtain ⟨out, h1, h2⟩ := fills_forN (g := g) (L := L) (f := fun a buf => Outcome.forN (fun b buf => Outcome.forN (f a b) C buf) B buf) (n := A)
    (S := fun a p => ∃ b, b < B ∧ ∃ c, c < C ∧ ∃ k, k < 1 ∧ p = 1 * d a b c + k) (by
      intro a buf ha hl
      refine fills_forN (L := L) ?_ hl
      intro b buf hb hl
      refine fills_forN (L := L) ?_ hl
      intro c buf hc hl
      rw [hf]
      refine copyElement_fills hl (hs a b c ha hb hc) (hd a b c ha hb hc).1 (by have := (hd a b c ha hb hc).2; omega) ?_
      intro k hk
      obtain rfl : k = 0 := by omega
      rw [Nat.one_mul, Nat.one_mul, Nat.add_zero, Nat.add_zero]
      exact hg a b c ha hb hc) hb
  refine ⟨out, h1, h2.1.trans hb, ?_⟩
  intro a b c ha hb hc
  rw [hg a b c ha hb hc]
  exact h2.2.1 _ ⟨a, ha, b, hb, c, hc, 0, by omega, by omega⟩

/-- Positions in a table with `A` columns and `B` rows. -/
theorem pair_lt {A B a b : Nat} (ha : a < A) (hb : b < B) : a + A * b < A * B := by
  have := Nat.mul_le_mul_left A (Nat.succ_le_of_lt hb)
  rw [Nat.mul_succ] at this
  omega

theorem pair_div {A a : Nat} (b : Nat) (ha : a < A) : (a + A * b) / A = b ∧ (a + A * b) % A = a := by
  have h0 : 0 < A := by omega
  refine ⟨?_, ?_⟩
  · rw [Nat.add_mul_div_left _ _ h0, Nat.div_eq_of_lt ha, Nat.zero_add]
  · rw [Nat.add_mul_mod_self_left, Nat.mod_eq_of_lt ha]

theorem elem_div {n k : Nat} (q : Nat) (hk : k < n) : (n * q + k) / n = q ∧ (n * q + k) % n = k := by
  have := pair_div (A := n) (a := k) q hk
  rwa [Nat.add_comm] at this

theorem elem_le {n q Q : Nat} (h : q < Q) : n * q + n ≤ n * Q := by
  have := Nat.mul_le_mul_left n (Nat.succ_le_of_lt h)
  rwa [Nat.mul_succ] at this

theorem getD_of {l : List UInt8} {p : Nat} (h : p < l.length) : l[p]? = some (l[p]?.getD 0) := (getD_some h).symm

/-- The transposition of a table of elements of `n` bytes: both kinds of grey loops. -/
theorem transpose_loop {n A B : Nat} {src buf : List UInt8} (hn : 1 ≤ n) (hsrc : src.length = n * (A * B)) (hf : n * (A * B) < 2 ^ 31)
    (hb : buf.length = n * (A * B)) :
    ∃ out, Outcome.forN (fun (a : Nat) buf => Outcome.forN (fun (b : Nat) buf =>
        copyElement n src (a + b * A) (b + B * a) buf) B buf) A buf = .ok out ∧ out.length = n * (A * B) ∧
      ∀ a b k, a < A → b < B → k < n → out[n * (b + B * a) + k]? = src[n * (a + A * b) + k]? := by
  have hle : A * B ≤ n * (A * B) := Nat.le_mul_of_pos_left _ (by omega)
  refine fills2 (g := fun p => src[n * (p / n / B + A * (p / n % B)) + p % n]?.getD 0) (fun a b => a + A * b) (fun a b => b + B * a)
    (fun a b ha hb => ?_) (fun a b ha hb => ?_) (fun a b k ha hb hk => ?_) _ (fun a b buf => ?_) hb
  · have := pair_lt ha hb; omega
  · have h1 := pair_lt hb ha
    rw [Nat.mul_comm B A] at h1
    exact ⟨by omega, elem_le h1⟩
  · rw [(elem_div (b + B * a) hk).1, (elem_div (b + B * a) hk).2, (pair_div a hb).1, (pair_div a hb).2]
    apply getD_of
    have := elem_le (n := n) (pair_lt ha hb)
    omega
  · push_cast
    rw [Int.mul_comm (b : Int) (A : Int)]

theorem transpose_loop' {n A B : Nat} {src buf : List UInt8} (hn : 1 ≤ n) (hsrc : src.length = n * (A * B)) (hf : n * (A * B) < 2 ^ 31)
    (hb : buf.length = n * (A * B)) :
    ∃ out, Outcome.forN (fun (a : Nat) buf => Outcome.forN (fun (b : Nat) buf =>
        copyElement n src (b + B * a) (a + b * A) buf) B buf) A buf = .ok out ∧ out.length = n * (A * B) ∧
      ∀ a b k, a < A → b < B → k < n → out[n * (a + A * b) + k]? = src[n * (b + B * a) + k]? := by
  have hle : A * B ≤ n * (A * B) := Nat.le_mul_of_pos_left _ (by omega)
  refine fills2 (g := fun p => src[n * (p / n / A + B * (p / n % A)) + p % n]?.getD 0) (fun a b => b + B * a) (fun a b => a + A * b)
    (fun a b ha hb => ?_) (fun a b ha hb => ?_) (fun a b k ha hb hk => ?_) _ (fun a b buf => ?_) hb
  · have h1 := pair_lt hb ha
    rw [Nat.mul_comm B A] at h1
    omega
  · have h1 := pair_lt ha hb
    exact ⟨by omega, elem_le h1⟩
  · rw [(elem_div (a + A * b) hk).1, (elem_div (a + A * b) hk).2, (pair_div b ha).1, (pair_div b ha).2]
    apply getD_of
    have h1 := pair_lt hb ha
    rw [Nat.mul_comm B A] at h1
    have := elem_le (n := n) h1
    omega
  · push_cast
    rw [Int.mul_comm (b : Int) (A : Int)]

theorem rgb_pos {w h i j k : Nat} (hi : i < w) (hj : j < h) (hk : k < 3) :
    3 * (i + w * j) + k < 3 * (h * w) ∧ j + h * (i + w * k) < 3 * (h * w) ∧ i + w * k < w * 3 := by
  have h1 := pair_lt hi hj
  rw [Nat.mul_comm w h] at h1
  have h2 := pair_lt hi hk
  have h3 := pair_lt hj h2
  have e : h * (w * 3) = 3 * (h * w) := by ring
  exact ⟨by omega, by omega, h2⟩

theorem rgbToArray_ok {w h : Nat} {src buf : List UInt8} (hsrc : src.length = 3 * (h * w)) (hf : 3 * (h * w) < 2 ^ 31)
    (hb : buf.length = 3 * (h * w)) :
    ∃ out, rgbToArray w h src buf = .ok out ∧ out.length = 3 * (h * w) ∧
      ∀ i j k, i < w → j < h → k < 3 → out[j + h * (i + w * k)]? = src[3 * (i + w * j) + k]? := by
  refine fills3 (g := fun p => src[3 * (p / h % w + w * (p % h)) + p / h / w]?.getD 0) (fun i j k => 3 * (i + w * j) + k)
    (fun i j k => j + h * (i + w * k)) (fun i j k hi hj hk => ?_) (fun i j k hi hj hk => ?_) (fun i j k hi hj hk => ?_) _
    (fun i j k buf => ?_) hb
  · have := (rgb_pos hi hj hk).1; omega
  · have := (rgb_pos hi hj hk).2.1; omega
  · rw [(pair_div (i + w * k) hj).1, (pair_div (i + w * k) hj).2, (pair_div k hi).1, (pair_div k hi).2]
    apply getD_of
    have := (rgb_pos hi hj hk).1; omega
  · push_cast
    rw [Int.mul_comm (j : Int) (w : Int), Int.mul_comm (k : Int) (w : Int)]

theorem rgbToImage_ok {w h : Nat} {src buf : List UInt8} (hsrc : src.length = 3 * (h * w)) (hf : 3 * (h * w) < 2 ^ 31)
    (hb : buf.length = 3 * (h * w)) :
    ∃ out, rgbToImage w h src buf = .ok out ∧ out.length = 3 * (h * w) ∧
      ∀ i j k, i < w → j < h → k < 3 → out[3 * (i + w * j) + k]? = src[j + h * (i + w * k)]? := by
  refine fills3 (g := fun p => src[p / 3 / w + h * (p / 3 % w + w * (p % 3))]?.getD 0) (fun i j k => j + h * (i + w * k))
    (fun i j k => 3 * (i + w * j) + k) (fun i j k hi hj hk => ?_) (fun i j k hi hj hk => ?_) (fun i j k hi hj hk => ?_) _
    (fun i j k buf => ?_) hb
  · have := (rgb_pos hi hj hk).2.1; omega
  · have := (rgb_pos hi hj hk).1; omega
  · rw [(elem_div (i + w * j) hk).1, (elem_div (i + w * j) hk).2, (pair_div j hi).1, (pair_div j hi).2]
    apply getD_of
    have := (rgb_pos hi hj hk).2.1; omega
  · push_cast
    rw [Int.mul_comm (j : Int) (w : Int), Int.mul_comm (k : Int) (w : Int)]

theorem grayToArray_ok {n w h : Nat} {src buf : List UInt8} (hn : 1 ≤ n) (hsrc : src.length = n * (h * w)) (hf : n * (h * w) < 2 ^ 31)
    (hb : buf.length = n * (h * w)) :
    ∃ out, grayToArray n w h src buf = .ok out ∧ out.length = n * (h * w) ∧
      ∀ i j k, i < w → j < h → k < n → out[n * (j + h * i) + k]? = src[n * (i + w * j) + k]? := by
  rw [Nat.mul_comm h w] at *
  exact transpose_loop hn hsrc hf hb

theorem grayToImage_ok {n w h : Nat} {src buf : List UInt8} (hn : 1 ≤ n) (hsrc : src.length = n * (h * w)) (hf : n * (h * w) < 2 ^ 31)
    (hb : buf.length = n * (h * w)) :
    ∃ out, grayToImage n w h src buf = .ok out ∧ out.length = n * (h * w) ∧
      ∀ i j k, i < w → j < h → k < n → out[n * (i + w * j) + k]? = src[n * (j + h * i) + k]? := by
  rw [Nat.mul_comm h w] at *
  exact transpose_loop' hn hsrc hf hb

/-- A list of this length is determined by its entries. -/
theorem ext_table {n A B : Nat} {l m : List UInt8} (hl : l.length = n * (A * B)) (hm : m.length = n * (A * B))
    (h : ∀ a b k, a < A → b < B → k < n → l[n * (a + A * b) + k]? = m[n * (a + A * b) + k]?) : l = m := by
  apply List.ext_getElem?
  intro p
  by_cases hp : p < n * (A * B)
  · have hn : 0 < n := by
      rcases Nat.eq_zero_or_pos n with h0 | h0
      · rw [h0] at hp; omega
      · exact h0
    have hA : 0 < A := by
      rcases Nat.eq_zero_or_pos A with h0 | h0
      · rw [h0, Nat.zero_mul, Nat.mul_zero] at hp; omega
      · exact h0
    have h1 : p / n < A * B := by rw [Nat.div_lt_iff_lt_mul hn, Nat.mul_comm]; exact hp
    have h2 : p / n / A < B := by rw [Nat.div_lt_iff_lt_mul hA, Nat.mul_comm]; exact h1
    have := h (p / n % A) (p / n / A) (p % n) (Nat.mod_lt _ hA) h2 (Nat.mod_lt _ hn)
    rwa [Nat.mod_add_div, Nat.div_add_mod] at this
  · rw [List.getElem?_eq_none (by omega), List.getElem?_eq_none (by omega)]

theorem createMemory_ok (fresh : Nat → UInt8) {f : Int} {n w h : Nat} (hf : f = 1 ∧ n = 1 ∨ f = 2 ∧ n = 2 ∨ f = 3 ∧ n = 3)
    (hs : n * (h * w) < 2 ^ 31) :
    Image.createMemory fresh w h f = .ok (.memory w h f ((List.range (n * (h * w))).map fresh)) := by
  have e : ((w : Int) * h) = ((h * w : Nat) : Int) := by push_cast; ring
  have h2 : (2 : Nat) ^ 31 = 2147483648 := by norm_num
  have hle : h * w < 2147483648 := by
    rcases hf with ⟨_, rfl⟩ | ⟨_, rfl⟩ | ⟨_, rfl⟩ <;> omega
  have m1 : mul32 w h = .ok ((h * w : Nat) : Int) := by
    unfold mul32; rw [e, if_pos (by unfold InInt32; omega)]
  have m (a b : Nat) (hab : a * b < 2147483648) : mul32 (a : Int) (b : Int) = .ok ((a * b : Nat) : Int) := by
    unfold mul32; rw [if_pos (by unfold InInt32; push_cast at *; omega)]; push_cast; rfl
  unfold Image.createMemory Image.memorySize
  rw [if_pos (by rcases hf with ⟨rfl, _⟩ | ⟨rfl, _⟩ | ⟨rfl, _⟩ <;> simp), m1, Outcome.bind_ok]
  rcases hf with ⟨rfl, rfl⟩ | ⟨rfl, rfl⟩ | ⟨rfl, rfl⟩
  · rw [show Image.depth 1 = ((1 : Nat) : Int) from rfl, show Image.channels 1 = ((1 : Nat) : Int) from rfl,
      m _ _ (by omega), Outcome.bind_ok, m _ _ (by omega)]
    dsimp only [Outcome.map]
    rw [Outcome.bind_ok, Int.toNat_natCast, show h * w * 1 * 1 = 1 * (h * w) by ring]
  · rw [show Image.depth 2 = ((2 : Nat) : Int) from rfl, show Image.channels 2 = ((1 : Nat) : Int) from rfl,
      m _ _ (by omega), Outcome.bind_ok, m _ _ (by omega)]
    dsimp only [Outcome.map]
    rw [Outcome.bind_ok, Int.toNat_natCast, show h * w * 2 * 1 = 2 * (h * w) by ring]
  · rw [show Image.depth 3 = ((1 : Nat) : Int) from rfl, show Image.channels 3 = ((3 : Nat) : Int) from rfl,
      m _ _ (by omega), Outcome.bind_ok, m _ _ (by omega)]
    dsimp only [Outcome.map]
    rw [Outcome.bind_ok, Int.toNat_natCast, show h * w * 1 * 3 = 3 * (h * w) by ring]

theorem filled_ok (fresh : Nat → UInt8) {f : Int} {n w h : Nat} (hf : f = 1 ∧ n = 1 ∨ f = 2 ∧ n = 2 ∨ f = 3 ∧ n = 3)
    (hh : 1 ≤ h) (hs : n * (h * w) < 2 ^ 31) {loops : List UInt8 → Outcome (List UInt8)} {P : List UInt8 → Prop}
    (hl : ∀ dest, dest.length = n * (h * w) → ∃ out, loops dest = .ok out ∧ P out) :
    ∃ out, filled fresh w h f loops = .ok (some (.memory w h f out)) ∧ P out := by
  obtain ⟨out, h1, h2⟩ := hl ((List.range (n * (h * w))).map fresh) (by rw [List.length_map, List.length_range])
  refine ⟨out, ?_, h2⟩
  unfold filled
  rw [createMemory_ok fresh hf hs, Outcome.bind_ok]
  unfold Image.rowOffset
  dsimp only
  rw [if_pos (by omega), Outcome.bind_ok, h1]
  rfl

/-! ## Regions -/

theorem sameNumber_widen (x : Flt) : SameNumber x x.widen := by
  cases x with
  | nan => rfl
  | inf s => rfl
  | fin s m =>
    refine ⟨trivial, ?_⟩
    unfold doubleValue Flt.widen Flt.value
    dsimp only
    have e : (2 : ℚ) ^ 1074 = 2 ^ 925 * 2 ^ 149 := by rw [← pow_add]
    have h0 : (2 : ℚ) ^ 925 ≠ 0 := pow_ne_zero _ (by norm_num)
    have c : ((m * 2 ^ 925 : Nat) : ℚ) = m * 2 ^ 925 := by rw [Nat.cast_mul, Nat.cast_pow]; rfl
    rw [e, c]
    generalize (2 : ℚ) ^ 925 = V at *
    generalize (2 : ℚ) ^ 149 = U at *
    cases s
    · simp only [Bool.false_eq_true, if_false]
      rw [mul_comm (m : ℚ) V, mul_div_mul_left _ _ h0]
    · simp only [if_true]
      rw [show -((m : ℚ) * V) = V * (-m) by ring, mul_div_mul_left _ _ h0]

theorem widen_toFloat {x : Flt} (h : x.IsFloat) : x.widen.toFloat = x := by
  cases x with
  | nan => rfl
  | inf s => rfl
  | fin s m =>
    unfold Flt.widen Flt.toFloat
    exact Flt.mkFloat_exact (Nat.two_pow_pos _) h

theorem doubleValue_abs (s : Bool) (m : Nat) : |doubleValue (.fin s m)| = (m : ℚ) / 2 ^ 1074 ∧
    doubleValue (.fin s m) = (if s then -1 else 1) * ((m : ℚ) / 2 ^ 1074) := by
  have h0 : (0 : ℚ) < 2 ^ 1074 := pow_pos (by norm_num) _
  have hm : (0 : ℚ) ≤ m := Nat.cast_nonneg m
  unfold doubleValue
  dsimp only
  generalize (2 : ℚ) ^ 1074 = V at *
  have hd : 0 ≤ (m : ℚ) / V := div_nonneg hm h0.le
  cases s
  · simp only [Bool.false_eq_true, if_false]
    exact ⟨abs_of_nonneg hd, by ring⟩
  · simp only [if_true]
    rw [neg_div, abs_neg]
    exact ⟨abs_of_nonneg hd, by ring⟩

theorem nextFloat_toFloat (x : Flt) : NextFloat x x.toFloat := by
  cases x with
  | nan => rfl
  | inf s => rfl
  | fin s m =>
    intro hb
    obtain ⟨h1, h2⟩ := doubleValue_abs s m
    rw [h1] at hb
    rw [h2]
    unfold Flt.toFloat
    have e : (2 : ℚ) ^ 1074 = ((2 ^ 925 : Nat) : ℚ) * 2 ^ 149 := by rw [Nat.cast_pow, Nat.cast_ofNat, ← pow_add]
    rw [e]
    refine Flt.mkFloat_nearest (Nat.two_pow_pos _) ?_
    have h0 : (0 : ℚ) < 2 ^ 1074 := pow_pos (by norm_num) _
    rw [div_le_iff₀ h0] at hb
    have e2 : (2 ^ 24 - 1 : ℚ) * 2 ^ 104 * 2 ^ 1074 = (((2 ^ 24 - 1) * 2 ^ 253 * 2 ^ 925 : Nat) : ℚ) := by
      rw [Nat.cast_mul, Nat.cast_mul, Nat.cast_pow, Nat.cast_pow, Nat.cast_ofNat, mul_assoc, mul_assoc, ← pow_add, ← pow_add]
      have : ((2 ^ 24 - 1 : Nat) : ℚ) = 2 ^ 24 - 1 := by norm_num
      rw [this]
    rw [e2] at hb
    exact Nat.cast_le.mp hb

/-- The points read from a row of numbers. -/
theorem points_loop {r : List Flt} {n : Nat} (hr : r.length = 2 * n) {ps : List (Flt × Flt)} (hl : ps.length = n) :
    ∃ qs, Outcome.forN (arrayToPoints r) n (.polygon ps) = .ok (.polygon qs) ∧ qs.length = n ∧
      ∀ k a b, k < n → r[2 * k]? = some a → r[2 * k + 1]? = some b → qs[k]? = some (a.toFloat, b.toFloat) := by
  obtain ⟨p, h1, qs, rfl, h2, h3⟩ := forN_inv (arrayToPoints r)
    (fun i p => ∃ qs, p = .polygon qs ∧ qs.length = n ∧ ∀ k a b, k < i → r[2 * k]? = some a → r[2 * k + 1]? = some b → qs[k]? = some (a.toFloat, b.toFloat))
    n (.polygon ps) ⟨ps, rfl, hl, fun k _ _ hk => absurd hk (by omega)⟩ (by
      rintro i _ hi ⟨qs, rfl, hq, hp⟩
      unfold arrayToPoints
      rw [List.getElem?_eq_getElem (by omega), List.getElem?_eq_getElem (by omega)]
      unfold Region.setPolygonPoint
      dsimp only
      rw [if_pos (by omega), if_pos (by omega)]
      refine ⟨_, rfl, _, rfl, by rw [List.length_set, hq], ?_⟩
      intro k a b hk ha hb
      rw [Int.toNat_natCast, List.getElem?_set]
      by_cases hki : i = k
      · subst hki
        rw [List.getElem?_eq_getElem (by omega)] at ha hb
        cases ha
        cases hb
        rw [if_pos rfl, if_pos (by omega)]
      · rw [if_neg hki]
        exact hp k a b (by omega) ha hb)
  exact ⟨qs, h1, h2, h3⟩

theorem flat_get {α β : Type} (f g : α → β) (l : List α) (k : Nat) :
    (l.flatMap fun p => [f p, g p])[2 * k]? = l[k]?.map f ∧ (l.flatMap fun p => [f p, g p])[2 * k + 1]? = l[k]?.map g ∧
      (l.flatMap fun p => [f p, g p]).length = 2 * l.length := by
  induction l generalizing k with
  | nil => simp
  | cons a l ih =>
    rw [List.flatMap_cons]
    refine ⟨?_, ?_, ?_⟩
    · cases k with
      | zero => rfl
      | succ k => exact (ih k).1
    · cases k with
      | zero => rfl
      | succ k => exact (ih k).2.1
    · rw [List.length_append, (ih 0).2.2, List.length_cons, List.length_cons, List.length_cons, List.length_nil]; omega

end Trax.Mex
