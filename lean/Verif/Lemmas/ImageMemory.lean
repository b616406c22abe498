import Verif.Spec.ImageMemory
import Mathlib.Data.List.ReduceOption
import Mathlib.Tactic.NormNum
import Mathlib.Tactic.Ring
import Mathlib.Tactic.Linarith

/-!
# Images in memory and as values
-/

namespace Trax
namespace ImgMem

open Spec

/-- The fields of the structure of an image. -/
def structOf (junk : Int) (k : Nat) : Image → Struct
  | .path _ => ⟨1, 0, 0, junk, some k⟩
  | .url _ => ⟨2, 0, 0, junk, some k⟩
  | .memory w h f _ => ⟨4, w, h, f, some k⟩
  | .buffer f d => ⟨8, d.length, 1, f, some k⟩

/-- The bytes of an image. -/
def bytesOf : Image → List UInt8
  | .path p => p ++ [0]
  | .url u => u ++ [0]
  | .memory _ _ _ d => d
  | .buffer _ d => d

/-- The array of a list. -/
def arrayOf (c : Channels) : List (Option Nat) := [c.color, c.depth, c.infrared]

/-- The memory of a world. -/
def heapOf (junk : Int) (images : List (Option Image)) (lists : List (Option Channels)) : Heap :=
  ⟨images.mapIdx fun k o => o.map (structOf junk k), images.map (Option.map bytesOf), lists.map (Option.map arrayOf)⟩

/-- The state of a world. -/
def stateOf (junk : Int) (w : World) : State := ⟨heapOf junk w.images w.lists, w.vars, w.listVars⟩

/-- What holds of the images that calls make. -/
def ImageOk : Image → Prop
  | .path p => NoNul p
  | .url u => NoNul u
  | .memory _ _ f d => (f = 1 ∨ f = 2 ∨ f = 3) ∧ d.length ≤ 2147483647
  | .buffer _ _ => True

/-- … in a world. -/
def WorldOk (w : World) : Prop := ∀ img, some img ∈ w.images → ImageOk img

variable {junk : Int} {images : List (Option Image)} {lists : List (Option Channels)}

theorem struct_heapOf (n : Nat) : (heapOf junk images lists).struct (some n) =
    match (images[n]?).join with
    | some img => .ok (structOf junk n img)
    | none => .ub := by
  simp only [Heap.struct, heapOf, List.getElem?_mapIdx]
  rcases images[n]? with _ | _ | img <;> rfl

theorem bytes_heapOf (n : Nat) : (heapOf junk images lists).bytes (some n) =
    match (images[n]?).join with
    | some img => .ok (bytesOf img)
    | none => .ub := by
  simp only [Heap.bytes, heapOf, List.getElem?_map]
  rcases images[n]? with _ | _ | img <;> rfl

theorem entries_heapOf (n : Nat) : (heapOf junk images lists).entries (some n) =
    match (lists[n]?).join with
    | some c => .ok (arrayOf c)
    | none => .ub := by
  simp only [Heap.entries, heapOf, List.getElem?_map]
  rcases lists[n]? with _ | _ | img <;> rfl

theorem data_structOf (n : Nat) (img : Image) : (structOf junk n img).data = some n := by cases img <;> rfl

theorem join_some {α : Type} {l : List (Option α)} {n : Nat} {a : α} : (l[n]?).join = some a ↔ l[n]? = some (some a) := by
  rcases l[n]? with _ | _ | b <;> simp

theorem lt_of_join {α : Type} {l : List (Option α)} {n : Nat} {a : α} (h : (l[n]?).join = some a) : n < l.length := by
  rw [join_some] at h
  exact (List.getElem?_eq_some_iff.mp h).1

theorem newData_heapOf (img : Image) :
    (((heapOf junk images lists).newData (bytesOf img)).2.newStruct (structOf junk images.length img)) =
      (images.length, heapOf junk (images ++ [some img]) lists) := by
  simp [Heap.newData, Heap.newStruct, heapOf, List.mapIdx_append]

theorem newData_fst (b : List UInt8) : ((heapOf junk images lists).newData b).1 = images.length := by
  simp [Heap.newData, heapOf]

theorem release_heapOf (n : Nat) : release (heapOf junk images lists) (some n) =
    match (images[n]?).join with
    | some _ => .ok (heapOf junk (images.set n none) lists)
    | none => .ub := by
  rw [release, struct_heapOf]
  cases h : (images[n]?).join with
  | none => rfl
  | some img =>
    have hn := lt_of_join h
    simp only [Outcome.bind_ok, data_structOf]
    rw [Heap.freeBytes, bytes_heapOf, h]
    simp only [Outcome.map, Outcome.bind_ok, Heap.freeStruct, Heap.struct]
    simp [heapOf, hn, List.mapIdx_set, List.map_set]

/-- What is left of the images when those with the given numbers are released. -/
def without (images : List (Option Image)) (ns : List Nat) : List (Option Image) :=
  images.mapIdx fun k img => if k ∈ ns then none else img

theorem without_nil : without images [] = images := by
  apply List.ext_getElem?
  intro k
  simp only [without, List.getElem?_mapIdx, List.not_mem_nil, if_false]
  cases images[k]? <;> rfl

theorem without_cons (n : Nat) (ns : List Nat) : without (images.set n none) ns = without images (n :: ns) := by
  apply List.ext_getElem?
  intro k
  simp only [without, List.getElem?_mapIdx, List.getElem?_set, List.mem_cons]
  by_cases h : n = k
  · subst h
    by_cases hl : n < images.length
    · simp [hl]
    · simp [hl]
  · simp [h, Ne.symm h]

theorem clearLoop_heapOf (es : List (Option Nat)) : ∀ images : List (Option Image), clearLoop es (heapOf junk images lists) =
    if es.reduceOption.Nodup ∧ ∀ k ∈ es.reduceOption, ((images[k]?).join).isSome then
      .ok (heapOf junk (without images es.reduceOption) lists) else .ub := by
  induction es with
  | nil => intro images; simp [clearLoop, without_nil]
  | cons e es ih =>
    intro images
    cases e with
    | none => rw [clearLoop, ih]; rfl
    | some n =>
      rw [clearLoop, release_heapOf, List.reduceOption_cons_of_some]
      cases h : (images[n]?).join with
      | none => simp [h]
      | some img =>
        have hn := lt_of_join h
        rw [Outcome.bind_ok, ih, without_cons]
        refine if_congr ?_ rfl rfl
        constructor
        · rintro ⟨hd, ha⟩
          refine ⟨List.nodup_cons.mpr ⟨fun hm => ?_, hd⟩, ?_⟩
          · have := ha n hm
            simp [hn] at this
          · intro k hk
            rcases List.mem_cons.mp hk with rfl | hk
            · simp [h]
            · have hne : n ≠ k := by
                rintro rfl
                have := ha n hk
                simp [hn] at this
              have := ha k hk
              rwa [List.getElem?_set_ne hne] at this
        · rintro ⟨hd, ha⟩
          obtain ⟨hnot, hd⟩ := List.nodup_cons.mp hd
          refine ⟨hd, fun k hk => ?_⟩
          have hne : n ≠ k := by rintro rfl; exact hnot hk
          rw [List.getElem?_set_ne hne]
          exact ha k (List.mem_cons_of_mem _ hk)

theorem reduce_arrayOf (c : Channels) : (arrayOf c).reduceOption = c.images := by
  obtain ⟨a, b, d⟩ := c
  cases a <;> cases b <;> cases d <;> rfl

theorem pixelBytes_eq {f : Int} (h : f = 1 ∨ f = 2 ∨ f = 3) : Image.depth f * Image.channels f = (pixelBytes f : Int) := by
  rcases h with rfl | rfl | rfl <;> rfl

theorem memorySize_eq {w h f : Int} (hf : f = 1 ∨ f = 2 ∨ f = 3) : Image.memorySize w h f =
    if InInt32 (w * h) ∧ InInt32 (w * h * pixelBytes f) then .ok (w * h * pixelBytes f) else .ub := by
  have key : ∀ p q : Int, (p = 1 ∨ q = 1) → ((mul32 w h).bind (mul32 · p)).bind (mul32 · q) =
      if InInt32 (w * h) ∧ InInt32 (w * h * (p * q)) then .ok (w * h * (p * q)) else .ub := by
    intro p q hpq
    by_cases h1 : InInt32 (w * h)
    · rcases hpq with rfl | rfl
      · by_cases h2 : InInt32 (w * h * q) <;> simp [mul32, h1, h2]
      · by_cases h2 : InInt32 (w * h * p) <;> simp [mul32, h1, h2]
    · simp [mul32, h1]
  rw [Image.memorySize, key _ _ (by rcases hf with rfl | rfl | rfl <;> decide), pixelBytes_eq hf]

theorem cstr_text {p : Str} (h : NoNul p) : cstr (p ++ [0]) = p := by
  unfold cstr
  induction p with
  | nil => rfl
  | cons c p ih =>
    have hc : c ≠ 0 := h c List.mem_cons_self
    have hp : NoNul p := fun x hx => h x (List.mem_cons_of_mem _ hx)
    simp [hc, ih hp]

theorem noNul_take (t : Str) : NoNul (t.takeWhile (· != 0)) := by
  intro c hc
  induction t with
  | nil => cases hc
  | cons a t ih =>
    rw [List.takeWhile_cons] at hc
    split at hc
    · rename_i ha
      rcases List.mem_cons.mp hc with rfl | hc
      · simpa using ha
      · exact ih hc
    · cases hc

/-- Where a row begins, in memory. -/
theorem rowOffset_heapOf {n : Nat} {img : Image} (h : (images[n]?).join = some img) (ok : ImageOk img) (row : Int) (j : Nat) :
    ((rowOffset (heapOf junk images lists) (some n) row).bind fun (s, o) =>
      ((heapOf junk images lists).bytes s.data).bind fun b =>
        if o.toNat + j < b.length then (.ok (b, o.toNat + j) : Outcome (List UInt8 × Nat)) else .ub) = rowPosition img row j := by
  rw [rowOffset, struct_heapOf, h]
  cases img with
  | path p => simp [structOf, rowPosition]
  | url p => simp [structOf, rowPosition]
  | buffer f d => simp [structOf, rowPosition]
  | memory w hh f d =>
    obtain ⟨hf, hd⟩ := ok
    simp only [Outcome.bind_ok, structOf, rowPosition, if_true]
    by_cases hr : 0 ≤ row ∧ row < hh
    · rw [if_pos hr, if_pos hr, pixelBytes_eq hf, mul32]
      obtain ⟨r, rfl⟩ := Int.eq_ofNat_of_zero_le hr.1
      have e : ((pixelBytes f : Int) * (r : Int)) = ((pixelBytes f * r : Nat) : Int) := by push_cast; rfl
      simp only [Int.toNat_natCast]
      rw [e]
      by_cases hi : InInt32 ((pixelBytes f * r : Nat) : Int)
      · rw [if_pos hi]
        simp only [Outcome.map, Outcome.bind_ok]
        rw [bytes_heapOf, h]
        simp only [Outcome.bind_ok, bytesOf, Int.toNat_natCast]
      · rw [if_neg hi, if_neg]
        · rfl
        · intro hl
          apply hi
          unfold InInt32
          omega
    · rw [if_neg hr, if_neg hr]
      rfl

theorem map_map {α β γ : Type} (f : α → β) (g : β → γ) (x : Outcome α) : (x.map f).map g = x.map fun a => g (f a) := by
  cases x <;> rfl

variable {w : World} {fresh : Nat → UInt8}

/-- A question about an image, in memory and as a value. -/
theorem ask_stateOf {β : Type} {i : Nat} {F : Heap → Option Nat → Outcome β} {g : β → Answer} {answer : Image → Outcome Answer}
    (h0 : ∀ h, F h none = .ub) (hw : WorldOk w)
    (h1 : ∀ n img, (w.images[n]?).join = some img → ImageOk img → (F (heapOf junk w.images w.lists) (some n)).map g = answer img)
    (h2 : ∀ n, (w.images[n]?).join = none → F (heapOf junk w.images w.lists) (some n) = .ub) :
    (((stateOf junk w).image i).bind fun p => (F (stateOf junk w).heap p).map fun b => (stateOf junk w, g b)) =
      (w.ask i answer).map fun r => (stateOf junk r.1, r.2) := by
  unfold World.ask World.value State.image
  show ((match w.vars[i]? with | some p => Outcome.ok p | none => .ub).bind fun p =>
    (F (heapOf junk w.images w.lists) p).map fun b => (stateOf junk w, g b)) = _
  rcases w.vars[i]? with _ | _ | n
  · rfl
  · simp only [Outcome.bind_ok, h0]; rfl
  · simp only [Outcome.bind_ok]
    cases hj : (w.images[n]?).join with
    | none => simp only [h2 n hj]; rfl
    | some img =>
      have ho := hw img (List.mem_iff_getElem?.mpr ⟨n, join_some.mp hj⟩)
      simp only [map_map]
      rw [← h1 n img hj ho, map_map]

theorem verifyFormat_eq {data : List UInt8} (h : 4 < data.length) :
    Image.verifyFormat data = if [255, 216, 255, 224] <+: data then 2 else if [137, 80, 78, 71] <+: data then 1 else 0 := by
  have key : ∀ l : List UInt8, l.length = 4 → (data.take 4 = l ↔ l <+: data) := by
    intro l hl
    rw [List.prefix_iff_eq_take, hl, eq_comm]
  unfold Image.verifyFormat
  simp only [key [255, 216, 255, 224] rfl, key [137, 80, 78, 71] rfl]

theorem keep_add (img : Image) : (stateOf junk w).keep (some w.images.length) (heapOf junk (w.images ++ [some img]) w.lists) =
    (stateOf junk (w.add img).1, (w.add img).2) := rfl

/-- The value behind a variable. -/
theorem value_cases (i : Nat) : (w.vars[i]? = none) ∨ (w.vars[i]? = some none) ∨ ∃ n, w.vars[i]? = some (some n) := by
  rcases w.vars[i]? with _ | _ | n
  · exact .inl rfl
  · exact .inr (.inl rfl)
  · exact .inr (.inr ⟨n, rfl⟩)

theorem listVar_cases (i : Nat) : (w.listVars[i]? = none) ∨ (w.listVars[i]? = some none) ∨ ∃ n, w.listVars[i]? = some (some n) := by
  rcases w.listVars[i]? with _ | _ | n
  · exact .inl rfl
  · exact .inr (.inl rfl)
  · exact .inr (.inr ⟨n, rfl⟩)

theorem image_stateOf (i : Nat) : (stateOf junk w).image i = match w.vars[i]? with | some p => .ok p | none => .ub := rfl
theorem list_stateOf (i : Nat) : (stateOf junk w).list i = match w.listVars[i]? with | some p => .ok p | none => .ub := rfl

theorem heap_setList (n : Nat) (c : Option Channels) :
    ({ heapOf junk images lists with lists := (heapOf junk images lists).lists.set n (c.map arrayOf) } : Heap) =
      heapOf junk images (lists.set n c) := by
  simp [heapOf, List.map_set]

theorem heap_setBytes {n : Nat} {img img' : Image} (hn : (images[n]?).join = some img) (hs : structOf junk n img = structOf junk n img') :
    ({ heapOf junk images lists with datas := (heapOf junk images lists).datas.set n (some (bytesOf img')) } : Heap) =
      heapOf junk (images.set n (some img')) lists := by
  have hl := lt_of_join hn
  have hg := (List.getElem?_eq_some_iff.mp (join_some.mp hn)).2
  simp only [heapOf, List.mapIdx_set, List.map_set, Option.map_some, ← hs, Heap.mk.injEq, and_true, true_and]
  apply List.ext_getElem?
  intro k
  simp only [List.getElem?_set]
  split
  · subst_vars
    simp [hl, hg]
  · rfl

/-- One call in memory is the call on values. -/
theorem step_stateOf (hw : WorldOk w) (op : Op) :
    step junk fresh (stateOf junk w) op = (Spec.step fresh w op).map fun r => (stateOf junk r.1, r.2) := by
  cases op with
  | createPath t =>
    simp only [step, createPath, Spec.step, Outcome.map, Outcome.bind_ok]
    rw [← keep_add]
    have := newData_heapOf (junk := junk) (images := w.images) (lists := w.lists) (.path (cstr t))
    simp only [bytesOf, structOf] at this
    have h1 := newData_fst (junk := junk) (images := w.images) (lists := w.lists) (cstr t ++ [0])
    simp only [stateOf, h1, this]
    rfl
  | createUrl t =>
    simp only [step, createUrl, Spec.step, Outcome.map, Outcome.bind_ok]
    rw [← keep_add]
    have := newData_heapOf (junk := junk) (images := w.images) (lists := w.lists) (.url (cstr t))
    simp only [bytesOf, structOf] at this
    have h1 := newData_fst (junk := junk) (images := w.images) (lists := w.lists) (cstr t ++ [0])
    simp only [stateOf, h1, this]
    rfl
  | createMemory x y f =>
    simp only [step, createMemory, Spec.step]
    by_cases hf : f = 1 ∨ f = 2 ∨ f = 3
    · rw [if_pos hf, if_pos hf, memorySize_eq hf]
      by_cases hc : InInt32 (x * y) ∧ InInt32 (x * y * pixelBytes f)
      · rw [if_pos hc, if_pos hc]
        simp only [Outcome.map, Outcome.bind_ok]
        rw [← keep_add]
        have := newData_heapOf (junk := junk) (images := w.images) (lists := w.lists)
          (.memory x y f ((List.range (x * y * pixelBytes f).toNat).map fresh))
        simp only [bytesOf, structOf] at this
        have h1 := newData_fst (junk := junk) (images := w.images) (lists := w.lists) ((List.range (x * y * pixelBytes f).toNat).map fresh)
        simp only [stateOf, h1, this]
      · rw [if_neg hc, if_neg hc]; rfl
    · rw [if_neg hf, if_neg hf]; rfl
  | createBuffer data =>
    simp only [step, createBuffer, Spec.step]
    by_cases hl : 4 < data.length
    · rw [if_pos hl, verifyFormat_eq hl]
      have key : ∀ f : Int, ((let (d, h) := (stateOf junk w).heap.newData data
          (.ok (h.newStruct ⟨8, data.length, 1, f, some d⟩) : Outcome (Nat × Heap))).map fun (x : Nat × Heap) =>
            (stateOf junk w).keep (some x.1) x.2) =
          .ok (stateOf junk (w.add (.buffer f data)).1, (w.add (.buffer f data)).2) := by
        intro f
        rw [← keep_add]
        have := newData_heapOf (junk := junk) (images := w.images) (lists := w.lists) (.buffer f data)
        simp only [bytesOf, structOf] at this
        have h1 := newData_fst (junk := junk) (images := w.images) (lists := w.lists) data
        simp only [stateOf, Outcome.map, Outcome.bind_ok, h1, this]
      by_cases h1 : [255, 216, 255, 224] <+: data
      · simp only [if_pos h1, hl, true_and]
        exact key 2
      · simp only [if_neg h1, hl, true_and]
        by_cases h2 : [137, 80, 78, 71] <+: data
        · simp only [if_pos h2]
          exact key 1
        · simp only [if_neg h2]
          rfl
    · simp only [hl, if_false, false_and]; rfl
  | copyPointer i =>
    simp only [step, Spec.step, image_stateOf]
    rcases w.vars[i]? with _ | p <;> rfl
  | null => rfl
  | release i =>
    simp only [step, Spec.step, image_stateOf, World.value]
    rcases w.vars[i]? with _ | _ | n
    · rfl
    · rfl
    · simp only [Outcome.bind_ok]
      show ((release (heapOf junk w.images w.lists) (some n)).map _) = _
      rw [release_heapOf]
      cases (w.images[n]?).join <;> rfl
  | type i =>
    simp only [step, Spec.step]
    rcases hv : w.vars[i]? with _ | _ | n
    · simp only [image_stateOf, hv]; rfl
    · simp only [image_stateOf, hv]; rfl
    · have := ask_stateOf (junk := junk) (w := w) (i := i) (F := fun h p => match p with | none => .ub | some p => getType h (some p)) (g := .int)
        (answer := fun img =>
          match img with
          | .path _ => .ok (.int 1)
          | .url _ => .ok (.int 2)
          | .memory .. => .ok (.int 4)
          | .buffer .. => .ok (.int 8)) (fun _ => rfl) hw
        (by intro n img hj _; simp only [getType]; rw [struct_heapOf, hj]; cases img <;> rfl)
        (by intro n hj; simp only [getType]; rw [struct_heapOf, hj]; rfl)
      refine Eq.trans ?_ this
      simp only [image_stateOf, hv, Outcome.bind_ok]
  | path i =>
    exact ask_stateOf (F := getText 1) (g := .text) (fun _ => rfl) hw
      (by intro n img hj ho; simp only [getText]; rw [struct_heapOf, hj]
          cases img with
          | path p => simp [structOf, readText, bytes_heapOf, hj, bytesOf, cstr_text ho, Outcome.map]
          | _ => simp [structOf, Outcome.map])
      (by intro n hj; simp only [getText]; rw [struct_heapOf, hj]; rfl)
  | url i =>
    exact ask_stateOf (F := getText 2) (g := .text) (fun _ => rfl) hw
      (by intro n img hj ho; simp only [getText]; rw [struct_heapOf, hj]
          cases img with
          | url p => simp [structOf, readText, bytes_heapOf, hj, bytesOf, cstr_text ho, Outcome.map]
          | _ => simp [structOf, Outcome.map])
      (by intro n hj; simp only [getText]; rw [struct_heapOf, hj]; rfl)
  | header i =>
    exact ask_stateOf (F := getHeader) (g := fun x => .header x.1 x.2.1 x.2.2) (fun _ => rfl) hw
      (by intro n img hj ho; simp only [getHeader]; rw [struct_heapOf, hj]; cases img <;> simp [structOf, Outcome.map])
      (by intro n hj; simp only [getHeader]; rw [struct_heapOf, hj]; rfl)
  | buffer i =>
    exact ask_stateOf (F := getBuffer) (g := fun x => .buffer x.1 x.2) (fun _ => rfl) hw
      (by intro n img hj ho; simp only [getBuffer]; rw [struct_heapOf, hj]
          cases img with
          | buffer f d => simp [structOf, bytes_heapOf, hj, bytesOf, Outcome.map]
          | _ => simp [structOf, Outcome.map])
      (by intro n hj; simp only [getBuffer]; rw [struct_heapOf, hj]; rfl)
  | read i row j =>
    refine ask_stateOf (F := fun h p => readRow h p row j) (g := .byte) (fun _ => rfl) hw ?_ ?_
    · intro n img hj ho
      simp only
      rw [← rowOffset_heapOf (junk := junk) (lists := w.lists) hj ho row j]
      unfold readRow
      cases rowOffset (heapOf junk w.images w.lists) (some n) row with
      | abort => rfl
      | ub => rfl
      | ok so =>
        simp only [Outcome.bind_ok]
        cases (heapOf junk w.images w.lists).bytes so.1.data with
        | abort => rfl
        | ub => rfl
        | ok b =>
          simp only [Outcome.bind_ok]
          by_cases hlt : so.2.toNat + j < b.length
          · rw [if_pos hlt, List.getElem?_eq_getElem hlt]
            simp [Outcome.map, List.getD, hlt]
          · rw [if_neg hlt, List.getElem?_eq_none (Nat.not_lt.mp hlt)]
            rfl
    · intro n hj
      simp only [readRow, rowOffset]
      rw [struct_heapOf, hj]
      rfl
  | write i row j v =>
    simp only [step, Spec.step, image_stateOf, World.value]
    rcases w.vars[i]? with _ | _ | n
    · rfl
    · rfl
    · simp only [Outcome.bind_ok]
      show ((writeRow (heapOf junk w.images w.lists) (some n) row j v).map _) = _
      cases hj : (w.images[n]?).join with
      | none =>
        simp only [writeRow, rowOffset]
        rw [struct_heapOf, hj]
        rfl
      | some img =>
        have ho := hw img (List.mem_iff_getElem?.mpr ⟨n, join_some.mp hj⟩)
        simp only
        rw [← rowOffset_heapOf (junk := junk) (lists := w.lists) hj ho row j]
        unfold writeRow
        have hs : ∀ so, rowOffset (heapOf junk w.images w.lists) (some n) row = .ok so → so.1 = structOf junk n img ∧ (structOf junk n img).type = 4 := by
          intro so h
          rw [rowOffset, struct_heapOf, hj] at h
          simp only [Outcome.bind_ok] at h
          split at h
          · rename_i h4
            split at h
            · simp only [mul32] at h
              split at h
              · cases h; exact ⟨rfl, h4⟩
              · cases h
            · cases h
          · cases h
        cases hr : rowOffset (heapOf junk w.images w.lists) (some n) row with
        | abort => rfl
        | ub => rfl
        | ok so =>
          obtain ⟨h1, h4⟩ := hs so hr
          obtain ⟨x, y, f, d, rfl⟩ : ∃ x y f d, img = .memory x y f d := by
            cases img <;> simp [structOf] at h4 ⊢
          obtain ⟨s, o⟩ := so
          simp only at h1
          subst h1
          simp only [Outcome.bind_ok, data_structOf, bytes_heapOf, hj, bytesOf]
          by_cases hlt : o.toNat + j < d.length
          · rw [if_pos hlt, if_pos hlt]
            simp only [Outcome.map, Outcome.bind_ok, withData]
            have := heap_setBytes (junk := junk) (lists := w.lists) (img' := .memory x y f (d.set (o.toNat + j) v)) hj rfl
            simp only [bytesOf] at this
            rw [this]
            rfl
          · rw [if_neg hlt, if_neg hlt]
            rfl
  | createList =>
    simp [step, createList, Spec.step, Outcome.map, stateOf, heapOf, arrayOf]
  | clear l =>
    simp only [step, Spec.step, list_stateOf, World.list]
    rcases w.listVars[l]? with _ | _ | n
    · rfl
    · rfl
    · simp only [Outcome.bind_ok]
      show ((clear (heapOf junk w.images w.lists) (some n)).map _) = _
      rw [clear, entries_heapOf]
      cases hj : (w.lists[n]?).join with
      | none => rfl
      | some c =>
        simp only [Outcome.bind_ok, Option.map_some]
        rw [clearLoop_heapOf, reduce_arrayOf]
        by_cases hc : c.images.Nodup ∧ ∀ k ∈ c.images, ((w.images[k]?).join).isSome
        · rw [if_pos hc, if_pos hc]
          simp only [Outcome.map, Outcome.bind_ok]
          have := heap_setList (junk := junk) (images := without w.images c.images) (lists := w.lists) n (some ⟨none, none, none⟩)
          simp only [Option.map_some, arrayOf] at this
          simp only [arrayOf, List.map_cons, List.map_nil]
          rw [this]
          rfl
        · rw [if_neg hc, if_neg hc]; rfl
  | releaseList l =>
    simp only [step, Spec.step, list_stateOf, World.list]
    rcases w.listVars[l]? with _ | _ | n
    · rfl
    · rfl
    · simp only [Outcome.bind_ok]
      show ((releaseList (heapOf junk w.images w.lists) (some n)).map _) = _
      rw [releaseList, entries_heapOf]
      cases hj : (w.lists[n]?).join with
      | none => rfl
      | some c =>
        simp only [Outcome.map, Outcome.bind_ok, Option.map_some]
        have := heap_setList (junk := junk) (images := w.images) (lists := w.lists) n none
        simp only [Option.map_none] at this
        rw [this]
        rfl
  | get l channel =>
    simp only [step, Spec.step, list_stateOf, World.list]
    rcases hv : w.listVars[l]? with _ | _ | n
    · have : ¬ l < w.listVars.length := by simpa using hv
      simp only [Outcome.bind_ub, this, if_false]
      split <;> rfl
    · have : l < w.listVars.length := (List.getElem?_eq_some_iff.mp hv).1
      simp only [Outcome.bind_ok, this, if_true, listGet, channelIndex]
      by_cases h1 : channel = 1
      · subst h1; rfl
      · by_cases h2 : channel = 2
        · subst h2; rfl
        · by_cases h4 : channel = 4
          · subst h4; rfl
          · simp [h1, h2, h4, Outcome.map, stateOf, State.keep, World.name]
    · have : l < w.listVars.length := (List.getElem?_eq_some_iff.mp hv).1
      simp only [Outcome.bind_ok, this, if_true, listGet, channelIndex]
      show (Outcome.map _ (if _ then _ else ((heapOf junk w.images w.lists).entries (some n)).bind _)) = _
      rw [entries_heapOf]
      by_cases h1 : channel = 1
      · subst h1; cases (w.lists[n]?).join <;> rfl
      · by_cases h2 : channel = 2
        · subst h2; cases (w.lists[n]?).join <;> rfl
        · by_cases h4 : channel = 4
          · subst h4; cases (w.lists[n]?).join <;> rfl
          · simp [h1, h2, h4, Outcome.map, stateOf, State.keep, World.name]
  | set l i channel =>
    simp only [step, Spec.step, list_stateOf, image_stateOf, World.list]
    rcases hv : w.listVars[l]? with _ | _ | n
    · have : ¬ l < w.listVars.length := by simpa using hv
      simp only [Outcome.bind_ub, this, if_false]
      rcases w.vars[i]? with _ | p
      · rfl
      · simp only; split <;> rfl
    · have : l < w.listVars.length := (List.getElem?_eq_some_iff.mp hv).1
      simp only [Outcome.bind_ok, this, if_true, listSet, channelIndex]
      rcases w.vars[i]? with _ | p
      · rfl
      · by_cases h1 : channel = 1
        · subst h1; rfl
        · by_cases h2 : channel = 2
          · subst h2; rfl
          · by_cases h4 : channel = 4
            · subst h4; rfl
            · simp [h1, h2, h4, Outcome.map, stateOf]
    · have : l < w.listVars.length := (List.getElem?_eq_some_iff.mp hv).1
      simp only [Outcome.bind_ok, this, if_true, listSet, channelIndex]
      rcases w.vars[i]? with _ | p
      · rfl
      · simp only [Outcome.bind_ok]
        show (Outcome.map _ (if _ then _ else ((heapOf junk w.images w.lists).entries (some n)).bind _)) = _
        rw [entries_heapOf]
        have key : ∀ c : Channels, ({ heapOf junk w.images w.lists with
            lists := (heapOf junk w.images w.lists).lists.set n (some (arrayOf (c.set channel p))) } : Heap) =
            heapOf junk w.images (w.lists.set n (some (c.set channel p))) := fun c => heap_setList n (some _)
        by_cases h1 : channel = 1
        · subst h1
          cases (w.lists[n]?).join with
          | none => rfl
          | some c => exact congrArg (fun h => Outcome.ok ((⟨h, w.vars, w.listVars⟩ : State), Answer.nothing)) (key c)
        · by_cases h2 : channel = 2
          · subst h2
            cases (w.lists[n]?).join with
            | none => rfl
            | some c => exact congrArg (fun h => Outcome.ok ((⟨h, w.vars, w.listVars⟩ : State), Answer.nothing)) (key c)
          · by_cases h4 : channel = 4
            · subst h4
              cases (w.lists[n]?).join with
              | none => rfl
              | some c => exact congrArg (fun h => Outcome.ok ((⟨h, w.vars, w.listVars⟩ : State), Answer.nothing)) (key c)
            · simp [h1, h2, h4, Outcome.map, stateOf]

theorem WorldOk.add {img : Image} (hw : WorldOk w) (h : ImageOk img) : WorldOk (w.add img).1 := by
  intro x hx
  rcases List.mem_append.mp hx with hx | hx
  · exact hw x hx
  · simp only [List.mem_singleton, Option.some.injEq] at hx
    exact hx ▸ h

theorem ask_same {i : Nat} {f : Image → Outcome Answer} {r : World × Answer} (h : w.ask i f = .ok r) : r.1 = w := by
  unfold World.ask at h
  split at h
  · cases h
  · rename_i img _
    cases hf : f img with
    | ok a => rw [hf] at h; cases h; rfl
    | abort => rw [hf] at h; cases h
    | ub => rw [hf] at h; cases h

theorem rowPosition_fst {img : Image} {row : Int} {j : Nat} {d : List UInt8} {k : Nat} (h : rowPosition img row j = .ok (d, k)) :
    ∃ x y f, img = .memory x y f d := by
  cases img with
  | memory x y f d' =>
    simp only [rowPosition] at h
    split at h
    · split at h
      · cases h; exact ⟨_, _, _, rfl⟩
      · cases h
    · cases h
  | _ => cases h

/-- Images stay as calls make them. -/
theorem step_ok {op : Op} {r : World × Answer} (hw : WorldOk w) (h : Spec.step fresh w op = .ok r) : WorldOk r.1 := by
  cases op with
  | createPath t => cases h; exact hw.add (noNul_take t)
  | createUrl t => cases h; exact hw.add (noNul_take t)
  | createMemory x y f =>
    simp only [Spec.step] at h
    split at h
    · rename_i hf
      split at h
      · rename_i hc
        cases h
        refine hw.add ⟨hf, ?_⟩
        have := hc.2.2
        simp only [List.length_map, List.length_range]
        omega
      · cases h
    · cases h
  | createBuffer data =>
    simp only [Spec.step] at h
    split at h
    · cases h; exact hw.add trivial
    · split at h
      · cases h; exact hw.add trivial
      · cases h
  | copyPointer i =>
    simp only [Spec.step] at h
    split at h
    · cases h
    · cases h; exact hw
  | null => cases h; exact hw
  | release i =>
    simp only [Spec.step] at h
    split at h
    · cases h
      intro img hi
      rcases List.mem_or_eq_of_mem_set hi with hi | hi
      · exact hw img hi
      · cases hi
    · cases h
  | type i =>
    simp only [Spec.step] at h
    split at h
    · cases h
    · cases h; exact hw
    · rw [ask_same h]; exact hw
  | path i => rw [ask_same h]; exact hw
  | url i => rw [ask_same h]; exact hw
  | header i => rw [ask_same h]; exact hw
  | buffer i => rw [ask_same h]; exact hw
  | read i row j => rw [ask_same h]; exact hw
  | write i row j v =>
    simp only [Spec.step] at h
    split at h
    · rename_i n img _ hv
      cases hp : rowPosition img row j with
      | abort => rw [hp] at h; cases h
      | ub => rw [hp] at h; cases h
      | ok dk =>
        obtain ⟨d, k⟩ := dk
        rw [hp] at h
        cases h
        obtain ⟨x, y, f, rfl⟩ := rowPosition_fst hp
        intro img' hi
        rcases List.mem_or_eq_of_mem_set hi with hi | hi
        · exact hw img' hi
        · have hm : some (Image.memory x y f d) ∈ w.images := by
            unfold World.value at hv
            split at hv
            · rename_i m _
              exact List.mem_iff_getElem?.mpr ⟨m, join_some.mp hv⟩
            · cases hv
          have := hw _ hm
          cases hi
          exact ⟨this.1, by simpa using this.2⟩
    · cases h
  | createList => cases h; exact hw
  | clear l =>
    simp only [Spec.step] at h
    split at h
    · cases h
    · split at h
      · cases h
        intro img hi
        obtain ⟨k, hk, he⟩ := List.mem_mapIdx.mp hi
        split at he
        · cases he
        · exact hw img (List.mem_of_getElem he)
      · cases h
  | releaseList l =>
    simp only [Spec.step] at h
    split at h
    · cases h
    · cases h; exact hw
  | get l channel =>
    simp only [Spec.step] at h
    split at h
    · split at h
      · cases h
      · cases h; exact hw
    · split at h
      · cases h; exact hw
      · cases h
  | set l i channel =>
    simp only [Spec.step] at h
    split at h
    · cases h
    · split at h
      · split at h
        · cases h
        · cases h; exact hw
      · split at h
        · cases h; exact hw
        · cases h

/-- A program in memory is the program on values. -/
theorem run_stateOf (ops : List Op) : ∀ {w : World}, WorldOk w →
    run junk fresh (stateOf junk w) ops = (Spec.run fresh w ops).map fun r => (stateOf junk r.1, r.2) := by
  induction ops with
  | nil => intro w _; rfl
  | cons op ops ih =>
    intro w hw
    rw [run, Spec.run, step_stateOf hw]
    cases h : Spec.step fresh w op with
    | abort => rfl
    | ub => rfl
    | ok r =>
      simp only [Outcome.map, Outcome.bind_ok]
      have := ih (step_ok hw h)
      rw [this]
      cases Spec.run fresh r.1 ops <;> rfl

theorem live_heapOf : (heapOf junk images lists).live = 2 * images.countP (·.isSome) + lists.countP (·.isSome) := by
  have h1 : (images.mapIdx fun k o => o.map (structOf junk k)).countP (·.isSome) = images.countP (·.isSome) := by
    have e : ∀ {α : Type} (l : List (Option α)), l.countP (·.isSome) = (l.map Option.isSome).countP id := by
      intro α l
      rw [List.countP_map]
      rfl
    rw [e, e]
    congr 1
    apply List.ext_getElem?
    intro k
    simp only [List.getElem?_map, List.getElem?_mapIdx, Option.map_map]
    rcases images[k]? with _ | _ | x <;> rfl
  have h2 : (images.map (Option.map bytesOf)).countP (·.isSome) = images.countP (·.isSome) := by
    rw [List.countP_map]; congr 1; funext o; cases o <;> rfl
  have h3 : (lists.map (Option.map arrayOf)).countP (·.isSome) = lists.countP (·.isSome) := by
    rw [List.countP_map]; congr 1; funext o; cases o <;> rfl
  unfold Heap.live
  show List.countP _ (images.mapIdx fun k o => o.map (structOf junk k)) + List.countP _ (images.map (Option.map bytesOf)) +
    List.countP _ (lists.map (Option.map arrayOf)) = _
  rw [h1, h2, h3]
  omega

theorem run_ok (ops : List Op) : ∀ {w : World} {r : World × List Answer}, WorldOk w → Spec.run fresh w ops = .ok r → WorldOk r.1 := by
  induction ops with
  | nil => intro w r hw h; cases h; exact hw
  | cons op ops ih =>
    intro w r hw h
    rw [Spec.run] at h
    cases hs : Spec.step fresh w op with
    | abort => rw [hs] at h; cases h
    | ub => rw [hs] at h; cases h
    | ok r1 =>
      rw [hs] at h
      simp only [Outcome.bind_ok] at h
      cases hr : Spec.run fresh r1.1 ops with
      | abort => rw [hr] at h; cases h
      | ub => rw [hr] at h; cases h
      | ok r2 =>
        rw [hr] at h
        cases h
        exact ih (r := r2) (step_ok hw hs) hr

/-- The states that programs reach are those of worlds. -/
theorem run_start {ops : List Op} {s : State} {answers : List Answer} (h : run junk fresh .start ops = .ok (s, answers)) :
    ∃ w, WorldOk w ∧ s = stateOf junk w := by
  have h0 : WorldOk World.start := by intro img hi; cases hi
  have hr := run_stateOf (junk := junk) (fresh := fresh) ops h0
  have e : stateOf junk World.start = State.start := rfl
  rw [e, h] at hr
  cases hs : Spec.run fresh .start ops with
  | abort => rw [hs] at hr; cases hr
  | ub => rw [hs] at hr; cases hr
  | ok r =>
    rw [hs] at hr
    cases hr
    exact ⟨r.1, run_ok ops h0 hs, rfl⟩

theorem run_cons_ok {op : Op} {ops : List Op} {r : World × List Answer} (h : Spec.run fresh w (op :: ops) = .ok r) :
    ∃ w1 a rest, Spec.step fresh w op = .ok (w1, a) ∧ Spec.run fresh w1 ops = .ok (r.1, rest) ∧ r.2 = a :: rest := by
  rw [Spec.run] at h
  cases hs : Spec.step fresh w op with
  | abort => rw [hs] at h; cases h
  | ub => rw [hs] at h; cases h
  | ok r1 =>
    rw [hs] at h
    simp only [Outcome.bind_ok] at h
    cases hr : Spec.run fresh r1.1 ops with
    | abort => rw [hr] at h; cases h
    | ub => rw [hr] at h; cases h
    | ok r2 =>
      rw [hr] at h
      cases h
      exact ⟨r1.1, r1.2, r2.2, rfl, hr, rfl⟩

theorem get_set {c : Channels} {channel : Int} {n : Option Nat} (hc : channel = 1 ∨ channel = 2 ∨ channel = 4) :
    (c.set channel n).get channel = n := by
  rcases hc with rfl | rfl | rfl <;> rfl

/-- Writing through the variable and reading through the list. -/
theorem shared_values {l i : Nat} {channel row : Int} {j : Nat} {v : UInt8} {r : World × List Answer}
    (hc : channel = 1 ∨ channel = 2 ∨ channel = 4)
    (h : Spec.run fresh w [.set l i channel, .get l channel, .write i row j v, .read w.vars.length row j] = .ok r) :
    r.2 = [.nothing, .null false, .nothing, .byte v] := by
  obtain ⟨w1, a1, r1, h1, h, e1⟩ := run_cons_ok h
  obtain ⟨w2, a2, r2, h2, h, e2⟩ := run_cons_ok h
  obtain ⟨w3, a3, r3, h3, h, e3⟩ := run_cons_ok h
  obtain ⟨w4, a4, r4, h4, h, e4⟩ := run_cons_ok h
  cases h
  simp only [] at e1 e2 e3 e4
  rw [e1, e2, e3, e4]
  -- `set`
  simp only [Spec.step] at h1
  cases hv : w.vars[i]? with
  | none => rw [hv] at h1; cases h1
  | some n =>
    rw [hv] at h1
    simp only [if_pos hc] at h1
    cases hl : w.list l with
    | none => rw [hl] at h1; cases h1
    | some kc =>
      obtain ⟨k, c⟩ := kc
      rw [hl] at h1
      cases h1
      -- `get`
      have hl2 : ({ w with lists := w.lists.set k (some (c.set channel n)) } : World).list l = some (k, c.set channel n) := by
        unfold World.list at hl ⊢
        simp only at hl ⊢
        generalize w.listVars[l]? = lv at hl ⊢
        rcases lv with _ | _ | m
        · cases hl
        · cases hl
        · simp only at hl ⊢
          cases hj : (w.lists[m]?).join with
          | none => rw [hj] at hl; cases hl
          | some c' =>
            rw [hj] at hl
            cases hl
            have hk := lt_of_join hj
            simp [hk]
      simp only [Spec.step, if_pos hc, hl2] at h2
      cases h2
      rw [get_set hc] at h3
      -- `write`
      have hi : i < w.vars.length := (List.getElem?_eq_some_iff.mp hv).1
      have hv3 : (w.vars ++ [n])[i]? = some n := by rw [List.getElem?_append_left hi, hv]
      simp only [Spec.step, World.value, hv3] at h3
      cases n with
      | none => cases h3
      | some m =>
        simp only at h3
        cases hj : (w.images[m]?).join with
        | none => rw [hj] at h3; cases h3
        | some img =>
          rw [hj] at h3
          simp only at h3
          cases hp : rowPosition img row j with
          | abort => rw [hp] at h3; cases h3
          | ub => rw [hp] at h3; cases h3
          | ok dk =>
            obtain ⟨d, q⟩ := dk
            rw [hp] at h3
            cases h3
            -- `read`
            have hm := lt_of_join hj
            obtain ⟨x, y, f, rfl⟩ := rowPosition_fst hp
            have hq : q < d.length ∧ rowPosition (.memory x y f (d.set q v)) row j = .ok (d.set q v, q) := by
              simp only [rowPosition, List.length_set] at hp ⊢
              split at hp
              · rename_i hr
                split at hp
                · rename_i hlt
                  cases hp
                  rw [if_pos hr, if_pos hlt]
                  exact ⟨hlt, rfl⟩
                · cases hp
              · cases hp
            simp only [Spec.step, World.ask, World.value, List.getElem?_append_right (Nat.le_refl _), Nat.sub_self,
              List.getElem?_cons_zero, List.getElem?_set_self hm, Option.join_some, withData, hq.2, Outcome.map, Outcome.bind_ok] at h4
            obtain ⟨-, ha⟩ := Prod.mk.inj (Outcome.ok.inj h4)
            rw [← ha]
            simp [get_set hc, World.name, hq.1]

end ImgMem
end Trax
