import Verif.Spec.Tester
import Verif.Spec.Image
import Verif.Lemmas.Image

/-!
# Property theorems C126, C127: the program `traxtest`
-/

namespace Trax.Tester
open Trax.Tester.Spec (rounds Session Perfect)

variable {σ : Type}

theorem inFrame_eq (multi : Bool) (f : Nat) (hf : f < 20) :
    inFrame multi f = if multi = true ∧ f ∈ [3, 8, 13, 18] then 1 else 0 := by
  have : ∀ f < 20, f % 5 = 3 ↔ f ∈ [3, 8, 13, 18] := by decide
  unfold inFrame
  cases multi
  · simp
  · simp [← this f hf]

/-- The rounds from a frame on. -/
def roundsFrom (multi : Bool) (f n : Nat) : List Call :=
  (List.range n).flatMap fun k => [.wait, .frame (if multi = true ∧ f + k ∈ [3, 8, 13, 18] then 1 else 0)]

theorem roundsFrom_succ (multi : Bool) (f n : Nat) : roundsFrom multi f (n + 1) =
    .wait :: .frame (if multi = true ∧ f ∈ [3, 8, 13, 18] then 1 else 0) :: roundsFrom multi (f + 1) n := by
  unfold roundsFrom
  rw [List.range_succ_eq_map, List.flatMap_cons, List.flatMap_map]
  simp only [Nat.add_zero, List.cons_append, List.nil_append, Nat.succ_eq_add_one]
  have : (fun k : Nat => [Call.wait, .frame (if multi = true ∧ f + (k + 1) ∈ [3, 8, 13, 18] then 1 else 0)]) =
      fun k => [Call.wait, .frame (if multi = true ∧ f + 1 + k ∈ [3, 8, 13, 18] then 1 else 0)] := by
    funext k
    rw [show f + (k + 1) = f + 1 + k by omega]
  rw [this]

theorem frameLoop_calls (T : Subject σ) (multi : Bool) (n : Nat) : ∀ (f : Nat) (t t' : σ) (calls : List Call), f + n = 20 →
    frameLoop T multi n f t = some (t', calls) →
    ∃ k ≤ n, calls = roundsFrom multi f k ++ if k = n then [] else [.wait] := by
  induction n with
  | zero =>
    intro f t t' calls _ h
    injection h with h
    injection h with _ h
    exact ⟨0, Nat.le_refl _, by simp [roundsFrom, ← h]⟩
  | succ n ih =>
    intro f t t' calls hf h
    unfold frameLoop at h
    split at h
    · cases h
    · split at h
      · cases h
      · injection h with h
        injection h with _ h
        exact ⟨0, Nat.zero_le _, by simp [roundsFrom, ← h]⟩
    · split at h
      · cases h
      · rename_i t1 _ t2 _
        rcases hx : frameLoop T multi n (f + 1) t2 with _ | ⟨t3, cs⟩
        · rw [hx] at h; cases h
        · rw [hx] at h
          simp only [Option.map_some, Option.some.injEq, Prod.mk.injEq] at h
          obtain ⟨k, hk, he⟩ := ih (f + 1) t2 t3 cs (by omega) hx
          refine ⟨k + 1, by omega, ?_⟩
          rw [roundsFrom_succ, ← h.2, he, inFrame_eq multi f (by omega)]
          simp

/-- **C127** (partial): a test that ends with status 0 has made the calls of the requested number of sessions. So each of the
initializations was accepted, and each wait was answered by a state or by the request to end the session.

Missing: the answer to the last image of a session (`C127_last_image_false`). -/
theorem C127_sessions_partial (T : Subject σ) (multi : Bool) (n : Nat) : ∀ (t t' : σ) (calls : List Call),
    testLoop T multi n t = some (t', calls) →
    ∃ sessions : List (List Call), sessions.length = n ∧ (∀ s ∈ sessions, Session multi s) ∧ calls = sessions.flatten := by
  induction n with
  | zero =>
    intro t t' calls h
    injection h with h
    injection h with _ h
    exact ⟨[], rfl, by simp, by simp [← h]⟩
  | succ n ih =>
    intro t t' calls h
    unfold testLoop at h
    split at h
    · cases h
    split at h
    · cases h
    split at h
    · cases h
    rename_i t1 _ t2 _ _ t3 cs hfr
    rcases hx : testLoop T multi n t3 with _ | ⟨t4, cs'⟩
    · rw [hx] at h; cases h
    rw [hx] at h
    simp only [Option.map_some, Option.some.injEq, Prod.mk.injEq] at h
    obtain ⟨ss, h1, h2, h3⟩ := ih t3 t4 cs' hx
    obtain ⟨k, hk, he⟩ := frameLoop_calls T multi 20 0 t2 t3 cs (by omega) hfr
    refine ⟨(.init (atStart multi) :: cs) :: ss, by simp [h1], ?_, by simp [← h.2, h3]⟩
    intro s hs
    rcases List.mem_cons.mp hs with rfl | hs
    · refine ⟨k, hk, ?_⟩
      rw [he]
      have : roundsFrom multi 0 k = rounds multi k := by simp [roundsFrom, rounds]
      rw [this]
      rfl
    · exact h2 s hs

theorem frameLoop_perfect (T : Subject σ) (hT : Perfect T) (multi : Bool) (n : Nat) : ∀ (f : Nat) (t : σ), f + n = 20 →
    ∃ t', frameLoop T multi n f t = some (t', roundsFrom multi f n) := by
  induction n with
  | zero => intro f t _; exact ⟨t, rfl⟩
  | succ n ih =>
    intro f t hf
    unfold frameLoop
    obtain ⟨r, hr⟩ := hT.wait t
    rcases hw : T.wait t with ⟨a, t1⟩
    rw [hw] at hr
    dsimp only at hr
    subst hr
    have h1 := hT.frame (inFrame multi f) t1
    rcases hfr : T.frame (inFrame multi f) t1 with ⟨b, t2⟩
    rw [hfr] at h1
    dsimp only at h1
    subst h1
    obtain ⟨t', ht⟩ := ih (f + 1) t2 (by omega)
    dsimp only
    rw [hfr]
    refine ⟨t', ?_⟩
    dsimp only
    rw [ht, roundsFrom_succ, inFrame_eq multi f (by omega)]
    rfl

/-- **C127**: a tracker that always answers passes, whatever else it does, and gets all images and objects. -/
theorem C127_perfect (T : Subject σ) (hT : Perfect T) (multi : Bool) (n : Nat) : ∀ t : σ,
    ∃ t', testLoop T multi n t = some (t', (List.replicate n (.init (if multi then 3 else 1) :: rounds multi 20)).flatten) := by
  induction n with
  | zero => intro t; exact ⟨t, rfl⟩
  | succ n ih =>
    intro t
    unfold testLoop
    have h1 := hT.ready t
    rcases hr : T.ready t with ⟨b, t1⟩
    rw [hr] at h1
    dsimp only at h1
    subst h1
    have h2 := hT.init (atStart multi) t1
    rcases hi : T.init (atStart multi) t1 with ⟨b, t2⟩
    rw [hi] at h2
    dsimp only at h2
    subst h2
    obtain ⟨t3, h3⟩ := frameLoop_perfect T hT multi 20 0 t2 (by omega)
    obtain ⟨t4, h4⟩ := ih t3
    dsimp only
    rw [hi]
    dsimp only
    rw [h3]
    dsimp only
    rw [h4]
    refine ⟨t4, ?_⟩
    have : roundsFrom multi 0 20 = rounds multi 20 := by simp [roundsFrom, rounds]
    rw [this, List.replicate_succ, List.flatten_cons]
    rfl

/-- A tracker that answers `n` times and then dies. -/
def mortal : Subject Nat where
  ready n := (true, n)
  init _ n := (true, n)
  wait n := if n = 0 then (.thrown, n) else (.state none, n - 1)
  frame _ n := (true, n)

/-- There is a tracker that always answers. -/
def steady : Subject Unit where
  ready n := (true, n)
  init _ n := (true, n)
  wait n := (.state none, n)
  frame _ n := (true, n)

example : Perfect steady := ⟨fun _ => rfl, fun _ _ => rfl, fun _ => ⟨none, rfl⟩, fun _ _ => rfl⟩

/-- The full claim of C127 is false: twenty-one images are sent, but a tracker that dies after twenty answers passes. One
that dies earlier does not. -/
theorem C127_last_image_false :
    (∃ t calls, testLoop mortal false 1 20 = some (t, calls) ∧ calls.countP (fun c => c ≠ .wait) = 21 ∧
      calls.count .wait = 20 ∧ status (testLoop mortal false 1 20) = 0) ∧
    status (testLoop mortal false 1 19) = 1 := by
  refine ⟨⟨0, .init 1 :: rounds false 20, by decide +kernel, by decide +kernel, by decide +kernel, by decide +kernel⟩, by decide +kernel⟩

/-! ## C126 -/

/-- **C126** (partial): a tracker that reads images from buffers gets the image of the resource, and one that reads them from
files, but not from buffers or memory, gets a path of a file that contains it.

Missing: trackers that read images from memory but not from buffers (`C126_memory_false`), and trackers that only read URLs,
which cannot be tested. -/
theorem C126_image_partial (fresh : Nat → UInt8) (jpg bin : List UInt8) (path : Str) (formats : UInt32)
    (hjpg : 4 < jpg.length ∧ jpg.take 4 = [255, 216, 255, 224]) (hpath : NoNul path) :
    (supports formats 8 = true → testImage fresh jpg bin path formats = .ok (some (.buffer 2 jpg))) ∧
    (supports formats 8 = false → supports formats 4 = false → supports formats 1 = true →
      testImage fresh jpg bin path formats = .ok (some (.path path))) := by
  constructor
  · intro h
    unfold testImage
    rw [if_pos h]
    simp [Image.createBuffer, Image.verifyFormat, hjpg, Outcome.map]
  · intro h1 h2 h3
    unfold testImage
    rw [h1, h2, h3]
    simp [Image.createPath, cstr_of_noNul hpath]

example : supports 9 8 = true ∧ supports 1 8 = false ∧ supports 1 4 = false ∧ supports 1 1 = true := by decide

/-- The full claim of C126 is false: a tracker that reads images from memory gets the first 76800 bytes of the resource, a third
of the image; the remaining bytes are whatever the fresh memory contains. -/
theorem C126_memory_false (fresh : Nat → UInt8) (jpg bin : List UInt8) (path : Str) (hbin : bin.length = 230400) :
    ∃ data, testImage fresh jpg bin path 4 = .ok (some (.memory 320 240 3 data)) ∧ data.length = 230400 ∧
      (∀ i < 76800, data[i]? = bin[i]?) ∧ ∀ i, 76800 ≤ i → i < 230400 → data[i]? = some (fresh i) := by
  refine ⟨bin.take 76800 ++ ((List.range 230400).map fresh).drop 76800, ?_, ?_, ?_, ?_⟩
  · unfold testImage
    rw [if_neg (by decide), if_pos (by decide)]
    have : Image.createMemory fresh 320 240 3 = .ok (.memory 320 240 3 ((List.range 230400).map fresh)) := by
      unfold Image.createMemory
      rw [if_pos (by decide), show Image.memorySize 320 240 3 = .ok 230400 from by decide]
      rfl
    rw [this, Outcome.bind_ok]
    have h2 : ∀ d, Image.rowOffset (.memory 320 240 3 d) 0 = .ok 0 := by
      intro d
      unfold Image.rowOffset
      dsimp only
      rw [if_pos (by decide)]
      rfl
    rw [h2, Outcome.bind_ok]
    dsimp only
    rw [if_neg (by rw [hbin]; decide)]
  · simp [hbin]
  · intro i hi
    rw [List.getElem?_append_left (by simp [hbin]; omega), List.getElem?_take_of_lt hi]
  · intro i h1 h2
    rw [List.getElem?_append_right (by simp [hbin]; omega), List.getElem?_drop]
    simp only [List.length_take, hbin]
    rw [show 76800 + (i - min 76800 230400) = i by omega]
    simp [h2]

end Trax.Tester
