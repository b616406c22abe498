import Verif.Lemmas.Base64
import Verif.Lemmas.Decimal
import Verif.Lemmas.StrMap
import Verif.Model.Image
import Verif.Spec.Image

/-! Helper lemmas about images. -/

namespace Trax.Image

theorem parseUri_append (scheme rest : Str) (h : ∀ c ∈ scheme, schemeChar c = true) (hl : scheme.length < 16) :
    parseUri (scheme ++ ch%':' :: rest) = some (scheme, rest) := by
  obtain ⟨h1, _⟩ := takeWhile_append_stop schemeChar scheme (ch%':' :: rest) h
    (by intro c hc; simp at hc; subst hc; decide)
  simp [parseUri, h1, hl]

theorem strntok_append (token rest : Str) (q : UInt8) (limit : Nat) (h : q ∉ token) (hl : token.length < limit) :
    strntok (token ++ q :: rest) q limit = some (token, rest) := by
  obtain ⟨h1, _⟩ := takeWhile_append_stop (· != q) token (q :: rest)
    (by intro c hc; simp only [bne_iff_ne, ne_eq]; rintro rfl; exact h hc)
    (by intro c hc; simp at hc; subst hc; simp)
  simp [strntok, h1, hl]

theorem mul32_ok {a b n : Int} (h : mul32 a b = .ok n) : n = a * b ∧ InInt32 n := by
  unfold mul32 at h
  split at h
  · injection h with h; subst h; exact ⟨rfl, by assumption⟩
  · cases h

theorem memorySize_ok {w h f n : Int} (hs : memorySize w h f = .ok n) :
    n = w * h * depth f * channels f ∧ InInt32 n ∧ InInt32 (w * h) := by
  unfold memorySize at hs
  cases h1 : mul32 w h with
  | ok a =>
    rw [h1] at hs
    simp only [Outcome.bind_ok] at hs
    cases h2 : mul32 a (depth f) with
    | ok b =>
      rw [h2] at hs
      simp only [Outcome.bind_ok] at hs
      obtain ⟨e1, r1⟩ := mul32_ok h1
      obtain ⟨e2, _⟩ := mul32_ok h2
      obtain ⟨e3, r3⟩ := mul32_ok hs
      subst e1 e2 e3
      exact ⟨rfl, r3, r1⟩
    | abort => rw [h2] at hs; cases hs
    | ub => rw [h2] at hs; cases hs
  | abort => rw [h1] at hs; cases hs
  | ub => rw [h1] at hs; cases hs

theorem store_exact (fresh : Nat → UInt8) (written : List UInt8) :
    store fresh written.length written = (written, 0) := by
  simp [store]

theorem store_one_over (fresh : Nat → UInt8) (data : List UInt8) :
    store fresh data.length (data ++ [0]) = (data, 1) := by
  simp [store]

/-- Decoding the text of a memory image. -/
theorem decodeMemory_encoded (fresh : Nat → UInt8) (w h f n : Int) (name : Str) (data : List UInt8)
    (hw : 1 ≤ w) (hh : 1 ≤ h) (hname : memoryFormatName f = some name)
    (hs : memorySize w h f = .ok n) (hn : n = data.length) (hwi : InInt32 w) (hhi : InInt32 h) :
    decodeMemory fresh (fmtInt w ++ b!";" ++ fmtInt h ++ b!";" ++ name ++ b!";" ++ Base64.encode data) =
      .ok ⟨some (.memory w h f data), 1⟩ := by
  have hsemi : ∀ t : Str, ∀ c, (ch%';' :: t).head? = some c → isDigit c = false := by
    intro t c hc; simp at hc; subst hc; decide
  have hfmt : decodeMemoryFormat name = f ∧ ch%';' ∉ name ∧ name.length < 32 ∧ 0 < depth f ∧ 0 < channels f := by
    unfold memoryFormatName at hname
    split at hname
    · rename_i hf; subst hf; injection hname with hname; subst hname; decide
    · split at hname
      · rename_i hf; subst hf; injection hname with hname; subst hname; decide
      · split at hname
        · rename_i hf; subst hf; injection hname with hname; subst hname; decide
        · cases hname
  obtain ⟨hf1, hf2, hf3, hd, hc⟩ := hfmt
  have hpos : 0 < n := by
    rw [(memorySize_ok hs).1]
    exact Int.mul_pos (Int.mul_pos (Int.mul_pos (by omega) (by omega)) hd) hc
  have hdata : data ≠ [] := by rintro rfl; simp at hn; omega
  have hlist : fmtInt w ++ b!";" ++ fmtInt h ++ b!";" ++ name ++ b!";" ++ Base64.encode data =
      fmtInt w ++ ch%';' :: (fmtInt h ++ ch%';' :: (name ++ ch%';' :: Base64.encode data)) := by simp
  obtain ⟨e1, e2, e3⟩ := Base64.encode_split data
  have hdl := Base64.decodeLen_encode data (some 0) hdata
  have hw' : Base64.decodeWritten (Base64.encode data) = data ++ [0] := by rw [Base64.decodeWritten, e3]
  have hr' : Base64.decodeReturn (Base64.encode data) = data.length := by rw [Base64.decodeReturn_eq, e3]
  have hnt : n.toNat = data.length := by omega
  have s1 := strtol_fmtInt w (ch%';' :: (fmtInt h ++ ch%';' :: (name ++ ch%';' :: Base64.encode data))) (hsemi _) hwi
  have s2 := strtol_fmtInt h (ch%';' :: (name ++ ch%';' :: Base64.encode data)) (hsemi _) hhi
  have s3 := strntok_append name (Base64.encode data) ch%';' 32 hf2 hf3
  unfold decodeMemory
  simp only [hlist, s1, s2, s3, List.head?_cons, List.tail_cons, not_true_eq_false, ne_eq, if_false,
    hf1, hdl, wrap32_id hwi, wrap32_id hhi, hs, Outcome.bind_ok]
  rw [if_neg (by omega), hw', hnt, store_one_over, hr', ← hn]
  simp

theorem decodeLen_some_zero (body : Str) : ∃ n, Base64.decodeLen (some 0) body = some n := by
  rcases List.eq_nil_or_concat body with rfl | ⟨s, c, rfl⟩
  · exact ⟨1, rfl⟩
  · rw [List.concat_eq_append]
    by_cases hc : c = ch%'='
    · subst hc
      rcases List.eq_nil_or_concat s with rfl | ⟨s, d, rfl⟩
      · exact ⟨0, rfl⟩
      · rw [List.concat_eq_append, List.append_assoc]
        by_cases hd : d = ch%'='
        · subst hd; exact ⟨_, Base64.decodeLen_append_two _ _⟩
        · exact ⟨_, Base64.decodeLen_append_one _ _ _ hd⟩
    · exact ⟨_, Base64.decodeLen_append _ _ _ hc⟩

theorem store_over (fresh : Nat → UInt8) (size : Nat) (written : List UInt8) :
    (store fresh size written).2 = written.length - size := rfl

theorem decodeMemory_over (fresh : Nat → UInt8) (r : Str) (d : Decoded) (h : decodeMemory fresh r = .ok d) :
    d.overrun ≤ 1 := by
  unfold decodeMemory at h
  simp only at h
  split at h
  · injection h with h; subst h; simp
  split at h
  · injection h with h; subst h; simp
  split at h
  · injection h with h; subst h; simp
  · rename_i token body _
    split at h
    · cases h
    · rename_i n hn
      cases hs : memorySize (wrap32 (strtol r).1) (wrap32 (strtol (strtol r).2.tail).1) (decodeMemoryFormat token) with
      | ok a =>
        rw [hs] at h
        simp only [Outcome.bind_ok] at h
        split at h
        · injection h with h; subst h; simp
        · rename_i hc
          split at h
          · rename_i hret
            injection h with h; subst h
            simp only [store_over]
            rw [Base64.decodeReturn_eq] at hret
            simp only [Base64.decodeWritten, List.length_append, List.length_singleton]
            omega
          · cases h
      | abort => rw [hs] at h; cases h
      | ub => rw [hs] at h; cases h

theorem decodeData_ok (fresh : Nat → UInt8) (r : Str) : ∃ d, decodeData fresh r = .ok d ∧ d.overrun ≤ 1 := by
  unfold decodeData
  cases strntok r ch%';' 32 with
  | none => exact ⟨_, rfl, by simp⟩
  | some tb =>
    obtain ⟨token, body⟩ := tb
    obtain ⟨n, hn⟩ := decodeLen_some_zero body
    simp only [hn]
    refine ⟨_, rfl, ?_⟩
    have := Base64.decodeWritten_le body (some 0) n (by decide) hn
    simp only [store_over]
    omega

theorem depth_channels {f : Int} (hf : f = 1 ∨ f = 2 ∨ f = 3) : depth f * channels f = Spec.pixelBytes f := by
  rcases hf with rfl | rfl | rfl <;> rfl

/-- The size of the pixels can be computed. -/
theorem _root_.Trax.Spec.PixelData.facts {w h f : Int} {data : List UInt8} (hp : Spec.PixelData w h f data) :
    (f = 1 ∨ f = 2 ∨ f = 3) ∧ 1 ≤ w ∧ 1 ≤ h ∧ memorySize w h f = .ok data.length ∧ InInt32 w ∧ InInt32 h := by
  obtain ⟨hf, hw, hh, hl, hfit⟩ := hp
  have hwh : w ≤ w * h ∧ h ≤ w * h := by
    have h1 := Int.mul_le_mul_of_nonneg_left hh (show 0 ≤ w by omega)
    have h2 := Int.mul_le_mul_of_nonneg_right hw (show 0 ≤ h by omega)
    omega
  generalize he : w * h = n at hwh hl
  have key : memorySize w h f = .ok data.length := by
    unfold memorySize mul32
    rw [he, if_pos (by unfold InInt32; rcases hf with rfl | rfl | rfl <;> simp [Spec.pixelBytes] at hl <;> omega)]
    rw [Outcome.bind_ok, if_pos (by
      unfold InInt32
      rcases hf with rfl | rfl | rfl <;> simp [Spec.pixelBytes, depth] at hl ⊢ <;> omega)]
    rw [Outcome.bind_ok, Int.mul_assoc, depth_channels hf, ← hl, if_pos (by unfold InInt32; omega)]
  refine ⟨hf, hw, hh, key, ?_, ?_⟩ <;> unfold InInt32 <;>
    rcases hf with rfl | rfl | rfl <;> simp [Spec.pixelBytes] at hl <;> omega

theorem _root_.Trax.Spec.FileData.create {f : Int} {data : List UInt8} (h : Spec.FileData f data) :
    createBuffer data = .ok (.buffer f data) := by
  obtain ⟨hl, h | h⟩ := h
  · obtain ⟨rfl, h⟩ := h
    have hv : verifyFormat data = 2 := by unfold verifyFormat; rw [if_pos h]
    unfold createBuffer
    rw [hv, if_pos ⟨by omega, by decide⟩]
  · obtain ⟨rfl, h⟩ := h
    have hv : verifyFormat data = 1 := by
      unfold verifyFormat
      rw [if_neg (by rw [h]; decide), if_pos h]
    unfold createBuffer
    rw [hv, if_pos ⟨by omega, by decide⟩]

end Trax.Image
