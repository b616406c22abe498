import Verif.Lemmas.ImageMemory

/-!
# C164: images and image lists in memory

The programs are the lists of calls `ImgMem.Op` (`Verif/Model/ImageMemory.lean`); what they may expect is the program on values
`ImgMem.Spec.run` (`Verif/Spec/ImageMemory.lean`), where there are neither blocks nor pointers.
-/

namespace Trax

open ImgMem

/-- C164, values: every program of calls for images and image lists ends in memory as it does on values (normally, at an assertion, or
undefined), and its calls return the same. So variables and lists that mean the same image share its value, and nothing is undefined but the use
of what is released and the release of what a list holds twice. -/
theorem C164_values (junk : Int) (fresh : Nat → UInt8) (ops : List Op) :
    (ImgMem.run junk fresh .start ops).map Prod.snd = (Spec.run fresh .start ops).map Prod.snd := by
  have h := run_stateOf (junk := junk) (fresh := fresh) ops (w := .start) (by intro img hi; cases hi)
  have e : stateOf junk Spec.World.start = State.start := rfl
  rw [e] at h
  rw [h, map_map]

/-- C164, memory: after every program the memory in use is two blocks for each image that is not released, and one for each list. -/
theorem C164_memory (junk : Int) (fresh : Nat → UInt8) (ops : List Op) (s : State) (answers : List Answer)
    (h : ImgMem.run junk fresh .start ops = .ok (s, answers)) :
    ∃ w, Spec.run fresh .start ops = .ok (w, answers) ∧ s.heap.live = 2 * w.imagesLeft + w.listsLeft := by
  have hr := run_stateOf (junk := junk) (fresh := fresh) ops (w := .start) (by intro img hi; cases hi)
  have e : stateOf junk Spec.World.start = State.start := rfl
  rw [e, h] at hr
  cases hs : Spec.run fresh .start ops with
  | abort => rw [hs] at hr; cases hr
  | ub => rw [hs] at hr; cases hr
  | ok r =>
    rw [hs] at hr
    cases hr
    exact ⟨r.1, rfl, live_heapOf⟩

/-- A program with an image in two channels and another one in the third: written through the variable, read through the list. -/
def Demo.imageProgram : List Op :=
  [.createMemory 2 2 1, .createPath b!"a.png", .createList, .set 0 0 1, .set 0 0 2, .set 0 1 4,
    .get 0 2, .write 0 1 0 7, .read 2 1 0, .get 0 4, .path 3, .releaseList 0, .release 1, .release 2]

/-- It runs to its end; all memory is given back. -/
example : ∃ s, ImgMem.run 5 (fun _ => 9) .start Demo.imageProgram =
    .ok (s, [.null false, .null false, .nothing, .nothing, .nothing, .nothing, .null false, .nothing, .byte 7, .null false, .text b!"a.png",
      .nothing, .nothing, .nothing]) ∧ s.heap.live = 0 := ⟨_, rfl, by decide +kernel⟩

/-- Three images in a list, which `clear` releases. -/
example : ∃ s, ImgMem.run 5 (fun _ => 9) .start
    [.createUrl b!"http://a", .createPath b!"b", .createBuffer [137, 80, 78, 71, 0, 1], .createList, .set 0 0 1, .set 0 1 2, .set 0 2 4,
      .clear 0] = .ok (s, [.null false, .null false, .null false, .nothing, .nothing, .nothing, .nothing, .nothing]) ∧ s.heap.live = 1 :=
  ⟨_, rfl, by decide +kernel⟩

/-- C164, sharing: whatever a program has done before, what it writes to an image that it has put into a list is what it reads through the
pointer that it gets from the list. The two last calls use the variable in which that pointer is. -/
theorem C164_shared (junk : Int) (fresh : Nat → UInt8) (before : List Op) (s s' : State) (answers answers' : List Answer)
    (l i : Nat) (channel : Int) (row : Int) (j : Nat) (v : UInt8)
    (h : ImgMem.run junk fresh .start before = .ok (s, answers)) (hc : channel = 1 ∨ channel = 2 ∨ channel = 4)
    (h' : ImgMem.run junk fresh s [.set l i channel, .get l channel, .write i row j v, .read s.images.length row j] = .ok (s', answers')) :
    answers' = [.nothing, .null false, .nothing, .byte v] := by
  obtain ⟨w, hw, rfl⟩ := run_start h
  rw [run_stateOf _ hw] at h'
  cases hs : Spec.run fresh w [.set l i channel, .get l channel, .write i row j v, .read (stateOf junk w).images.length row j] with
  | abort => rw [hs] at h'; cases h'
  | ub => rw [hs] at h'; cases h'
  | ok r =>
    rw [hs] at h'
    cases h'
    exact shared_values hc hs

/-- The hypotheses can be met. -/
example : ∃ s s' a a', ImgMem.run 5 (fun _ => 9) .start [.createMemory 2 2 1, .createList] = .ok (s, a) ∧
    ImgMem.run 5 (fun _ => 9) s [.set 0 0 2, .get 0 2, .write 0 1 1 7, .read s.images.length 1 1] = .ok (s', a') := ⟨_, _, _, _, rfl, rfl⟩

/-- C164, clearing a list: a list that has the same image for two channels cannot be cleared. -/
theorem C164_clear_false (junk : Int) (fresh : Nat → UInt8) (text : Str) (c c' : Int) (hc : c = 1 ∨ c = 2 ∨ c = 4)
    (hc' : c' = 1 ∨ c' = 2 ∨ c' = 4) (hne : c ≠ c') :
    ImgMem.run junk fresh .start [.createPath text, .createList, .set 0 0 c, .set 0 0 c', .clear 0] = .ub := by
  rcases hc with rfl | rfl | rfl <;> rcases hc' with rfl | rfl | rfl <;> first | exact absurd rfl hne | rfl

/-- C164, releasing an image does not take it out of the lists: a list with an image that was released can neither be cleared nor read. -/
theorem C164_stale_false (junk : Int) (fresh : Nat → UInt8) (text : Str) (c : Int) (hc : c = 1 ∨ c = 2 ∨ c = 4) :
    ImgMem.run junk fresh .start [.createPath text, .createList, .set 0 0 c, .release 0, .clear 0] = .ub ∧
    ImgMem.run junk fresh .start [.createPath text, .createList, .set 0 0 c, .release 0, .get 0 c, .type 1] = .ub := by
  rcases hc with rfl | rfl | rfl <;> exact ⟨rfl, rfl⟩

end Trax
