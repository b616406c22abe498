import Verif.Spec.Ncc
import Verif.Lemmas.Decimal
import Verif.Lemmas.RegionCodec
import Verif.Props.Environment

/-!
# C169: the files of the tracker of the tutorial
-/

namespace Trax.Ncc
open Spec

theorem getline_found {d : UInt8} {l : Str} (hl : d ∉ l) (rest token : Str) : getline d ⟨l ++ d :: rest, true⟩ token = (l, ⟨rest, true⟩) := by
  unfold getline
  rw [if_pos rfl, if_pos (by simp)]
  have : ∀ c ∈ l, decide (c ≠ d) = true := fun c hc => decide_eq_true (fun h => hl (h ▸ hc))
  obtain ⟨h1, h2⟩ := takeWhile_append_stop (fun c => decide (c ≠ d)) l (d :: rest) this (by intro c hc; cases hc; simp)
  rw [h1, h2]
  rfl

theorem getline_last {d : UInt8} {l : Str} (hl : d ∉ l) (token : Str) : getline d ⟨l, true⟩ token = (l, ⟨[], false⟩) := by
  unfold getline
  rw [if_pos rfl, if_neg hl]

theorem readLoop_lines (ls : List Str) (hl : ∀ l ∈ ls, Line l) (tail : Str) : ∀ (turns : Nat) (path : Str),
    readLoop (ls.length + turns) ⟨ended ls ++ tail, true⟩ path = (readLoop turns ⟨tail, true⟩ (ls.getLast?.getD path)).map (ls ++ ·) := by
  induction ls with
  | nil => intro turns path; simp [ended]
  | cons l ls ih =>
    intro turns path
    obtain ⟨h1, h2⟩ := hl l (by simp)
    have e : ended (l :: ls) ++ tail = l ++ ch%'\n' :: (ended ls ++ tail) := by simp [ended]
    rw [show (l :: ls).length + turns = (ls.length + turns) + 1 by simp; omega, readLoop, e, getline_found h2]
    dsimp only
    rw [if_neg h1, ih (fun l hl' => hl l (by simp [hl']))]
    have : ls.getLast?.getD l = (l :: ls).getLast?.getD path := by
      cases ls with
      | nil => rfl
      | cons a ls => rw [List.getLast?_cons_cons, List.getLast?_cons]; rfl
    rw [this]
    cases readLoop turns ⟨tail, true⟩ ((l :: ls).getLast?.getD path) <;> simp

/-- **C169 for the images.** The images are the lines of the file, up to an empty line or the end, if each line has an end. Missing from the full claim: a last line without an end (`C169_images_false`). -/
theorem C169_images_partial (ls : List Str) (hl : ∀ l ∈ ls, Line l) (tail : Str) (ht : tail = [] ∨ ∃ more, tail = b!"\n" ++ more) :
    ∃ k, ∀ turns, k ≤ turns → readSequence turns (ended ls ++ tail) = some ls := by
  refine ⟨ls.length + 1, fun turns h => ?_⟩
  obtain ⟨j, rfl⟩ : ∃ j, turns = ls.length + (j + 1) := ⟨turns - ls.length - 1, by omega⟩
  unfold readSequence
  rw [readLoop_lines ls hl, readLoop]
  have : (getline ch%'\n' ⟨tail, true⟩ (ls.getLast?.getD [])).1 = [] := by
    rcases ht with rfl | ⟨more, rfl⟩
    · rw [getline_last (by simp)]
    · exact congrArg Prod.fst (getline_found (l := []) (by simp) more _)
  generalize getline ch%'\n' ⟨tail, true⟩ (ls.getLast?.getD []) = x at this ⊢
  obtain ⟨p, f⟩ := x
  dsimp only at this ⊢
  rw [if_pos this]
  simp

/-- **C169 for the images** (false). If the last line of the file has no end, which is so for many files, the program adds that line to its list for ever. -/
theorem C169_images_false (ls : List Str) (hl : ∀ l ∈ ls, Line l) (last : Str) (hlast : Line last) : ∀ turns, readSequence turns (ended ls ++ last) = none := by
  have stuck : ∀ (turns : Nat) (path : Str), path ≠ [] → readLoop turns ⟨[], false⟩ path = none := by
    intro turns
    induction turns with
    | zero => intro path _; rfl
    | succ n ih =>
      intro path hp
      rw [readLoop]
      show (if path = [] then _ else (readLoop n ⟨[], false⟩ path).map _) = _
      rw [if_neg hp, ih path hp]
      rfl
  have more : ∀ (j : Nat) (path : Str), readLoop j ⟨last, true⟩ path = none := by
    intro j path
    cases j with
    | zero => rfl
    | succ j =>
      rw [readLoop, getline_last hlast.2]
      dsimp only
      rw [if_neg hlast.1, stuck j last hlast.1]
      rfl
  have early : ∀ (turns : Nat) (f : Input) (path : Str) (k : Nat), readLoop (turns + k) f path = none → readLoop turns f path = none := by
    intro turns
    induction turns with
    | zero => intros; rfl
    | succ n ih =>
      intro f path k h
      rw [show n + 1 + k = (n + k) + 1 by omega, readLoop] at h
      rw [readLoop]
      generalize getline ch%'\n' f path = x at h ⊢
      obtain ⟨p, f'⟩ := x
      dsimp only at h ⊢
      split
      · rename_i hp
        rw [if_pos hp] at h
        cases h
      · rename_i hp
        rw [if_neg hp] at h
        rw [ih f' p k (Option.map_eq_none_iff.1 h)]
        rfl
  intro turns
  unfold readSequence
  refine early turns _ _ ls.length ?_
  rw [Nat.add_comm, readLoop_lines ls hl, more]
  rfl

theorem digit_break {c : UInt8} (h : c = ch%',' ∨ c = ch%'\n') : isDigit c = false := by
  rcases h with rfl | rfl <;> decide

theorem atoi_number {n : Int} (h : InInt32 n) (rest : Str) (hr : ∀ c, rest.head? = some c → isDigit c = false) : Environ.atoi (fmtInt n ++ rest) = n := by
  unfold Environ.atoi
  rw [strtol_fmtInt n rest hr h]
  exact wrap32_id h

theorem cstr_number (n : Int) (rest : Str) : ∃ rest', cstr (fmtInt n ++ rest) = fmtInt n ++ rest' ∧ ∀ c, rest'.head? = some c → rest.head? = some c := by
  have hn : ∀ c ∈ fmtInt n, decide (c ≠ 0) = true := by
    intro c hc
    rcases fmtInt_chars n c hc with h | h
    · refine decide_eq_true ?_
      rintro rfl
      exact absurd h (by decide)
    · subst h; decide
  refine ⟨cstr rest, ?_, ?_⟩
  · have key : ∀ a : Str, (∀ c ∈ a, decide (c ≠ 0) = true) → cstr (a ++ rest) = a ++ cstr rest := by
      intro a ha
      induction a with
      | nil => rfl
      | cons x a ih =>
        have hx := of_decide_eq_true (ha x (by simp))
        have := ih (fun c hc => ha c (by simp [hc]))
        unfold cstr at this ⊢
        simp [hx, this]
    exact key _ hn
  · intro c hc
    cases rest with
    | nil => simp [cstr] at hc
    | cons x t =>
      unfold cstr at hc
      simp only [List.takeWhile_cons] at hc
      split at hc
      · exact hc
      · cases hc

theorem atoi_token {n : Int} (h : InInt32 n) (rest : Str) (hr : ∀ c, rest.head? = some c → isDigit c = false) : Environ.atoi (cstr (fmtInt n ++ rest)) = n := by
  obtain ⟨rest', e, h'⟩ := cstr_number n rest
  rw [e]
  exact atoi_number h rest' (fun c hc => hr c (h' c hc))

theorem comma_number (n : Int) : ch%',' ∉ fmtInt n := by
  intro h
  rcases fmtInt_chars n _ h with h | h
  · exact absurd h (by decide)
  · cases h

/-- **C169 for the region.** A rectangle is read from the numbers in the first line of the file, whatever comes after that line. Missing from the full claim: files with less than four numbers (`C169_region_false`). -/
theorem C169_region_partial (r : Rect) (hr : Small r) (rest : Str) : readRectangle (row r ++ b!"\n" ++ rest) = r := by
  obtain ⟨x, y, w, h⟩ := r
  obtain ⟨h1, h2, h3, h4⟩ := hr
  have e : row ⟨x, y, w, h⟩ ++ b!"\n" ++ rest = fmtInt x ++ ch%',' :: (fmtInt y ++ ch%',' :: (fmtInt w ++ ch%',' :: (fmtInt h ++ ch%'\n' :: rest))) := by
    simp [row, List.intercalate]
  have tail : ∃ more, (getline ch%',' ⟨fmtInt h ++ ch%'\n' :: rest, true⟩ (fmtInt w)).1 = fmtInt h ++ more ∧ ∀ c, more.head? = some c → isDigit c = false := by
    by_cases hc : ch%',' ∈ rest
    · obtain ⟨a, b, rfl, ha⟩ := List.append_of_mem hc |>.elim fun a h => h.elim fun b h => (⟨rest.takeWhile (· ≠ ch%','), (rest.dropWhile (· ≠ ch%',')).drop 1, by
        have : ∀ l : Str, ch%',' ∈ l → l = l.takeWhile (· ≠ ch%',') ++ ch%',' :: (l.dropWhile (· ≠ ch%',')).drop 1 := by
          intro l hl
          induction l with
          | nil => cases hl
          | cons c l ih =>
            by_cases hcc : c = ch%','
            · subst hcc; simp
            · rcases List.mem_cons.1 hl with h | h
              · exact absurd h.symm hcc
              · have := ih h
                simp only [List.takeWhile_cons, List.dropWhile_cons, ne_eq, hcc, not_false_eq_true, decide_true, if_true, List.cons_append]
                rw [← this]
        exact this rest hc, fun h => by
          have := List.all_takeWhile (p := fun c : UInt8 => decide (c ≠ ch%',')) (l := rest)
          have := List.all_eq_true.1 this _ h
          simp at this⟩ : ∃ a b, rest = a ++ ch%',' :: b ∧ ch%',' ∉ a)
      refine ⟨ch%'\n' :: a, ?_, by intro c hc; cases hc; decide⟩
      have : fmtInt h ++ ch%'\n' :: (a ++ ch%',' :: b) = (fmtInt h ++ ch%'\n' :: a) ++ ch%',' :: b := by simp
      rw [this, getline_found (by
        intro h'
        rcases List.mem_append.1 h' with h' | h'
        · exact comma_number h h'
        · rcases List.mem_cons.1 h' with h' | h'
          · cases h'
          · exact ha h')]
    · refine ⟨ch%'\n' :: rest, ?_, by intro c hc; cases hc; decide⟩
      rw [getline_last (by
        intro h'
        rcases List.mem_append.1 h' with h' | h'
        · exact comma_number h h'
        · rcases List.mem_cons.1 h' with h' | h'
          · cases h'
          · exact hc h')]
  obtain ⟨more, t1, t2⟩ := tail
  unfold readRectangle
  rw [e, getline_found (comma_number x)]
  dsimp only
  rw [getline_found (comma_number y)]
  dsimp only
  rw [getline_found (comma_number w)]
  dsimp only
  rw [t1, atoi_token h4 more t2]
  have single : ∀ {n : Int}, InInt32 n → Environ.atoi (cstr (fmtInt n)) = n := by
    intro n hn
    have := atoi_token hn [] (by intro c hc; cases hc)
    rwa [List.append_nil] at this
  rw [single h1, single h2, single h3]

/-- **C169 for the region** (false). A file that ends after two numbers is not refused: the second number is taken for the others as well. -/
theorem C169_region_false (x y : Int) (hx : InInt32 x) (hy : InInt32 y) : readRectangle (fmtInt x ++ b!"," ++ fmtInt y) = ⟨x, y, y, y⟩ := by
  have single : ∀ {n : Int}, InInt32 n → Environ.atoi (cstr (fmtInt n)) = n := by
    intro n hn
    have := atoi_token hn [] (by intro c hc; cases hc)
    rwa [List.append_nil] at this
  unfold readRectangle
  rw [show fmtInt x ++ b!"," ++ fmtInt y = fmtInt x ++ ch%',' :: fmtInt y by simp, getline_found (comma_number x)]
  dsimp only
  rw [getline_last (comma_number y)]
  dsimp only [getline]
  simp only [Bool.false_eq_true, if_false]
  rw [single hx, single hy]

/-- **C169 for the result.** The result has a line for each image: the first is the region with which the tracker was initialized, each other one is the rectangle that the tracker has found in that image, in the order of the list.
The program can read its own result as a region. Missing from the full claim: the conditions of `C169_images_partial` and `C169_region_partial`. -/
theorem C169_result_partial {τ : Type} (T : Tracker τ) (read : Str → Option Str) (first : Str) (rest : List Str) (r : Rect) (more : Str) (t : τ) (found : List Rect)
    (hl : ∀ l ∈ first :: rest, Line l) (hi : read b!"images.txt" = some (ended (first :: rest))) (hr : Small r) (hreg : read b!"region.txt" = some (row r ++ b!"\n" ++ more))
    (hinit : T.init first r = some t) (hfound : Finds T t rest found) :
    (∃ k, ∀ turns, k ≤ turns → main turns read true T = some (.written (ended ((r :: found).map row)))) ∧ readRectangle (ended ((r :: found).map row)) = r := by
  have hfollow : ∀ {t images rs}, Finds T t images rs → follow T images t = some rs := by
    intro t images rs h
    induction h with
    | nil => rfl
    | cons h1 _ ih => rw [follow, h1]; show (follow T _ _).map _ = _; rw [ih]; rfl
  have hwrite : ∀ rs, writeRectangles rs = ended (rs.map row) := by
    intro rs
    induction rs with
    | nil => rfl
    | cons r rs ih =>
      unfold writeRectangles ended at ih ⊢
      simp only [List.flatMap_cons, List.map_cons, List.flatten_cons]
      rw [ih]
      simp [row, List.intercalate]
  refine ⟨?_, ?_⟩
  · obtain ⟨k, hk⟩ := C169_images_partial (first :: rest) hl [] (.inl rfl)
    refine ⟨k, fun turns h => ?_⟩
    have := hk turns h
    rw [List.append_nil] at this
    unfold main
    rw [hi]
    dsimp only
    rw [this]
    show some _ = _
    dsimp only
    rw [hreg]
    dsimp only
    rw [C169_region_partial r hr more, hinit]
    dsimp only
    rw [hfollow hfound]
    dsimp only
    rw [if_pos rfl, hwrite]
  · have := C169_region_partial r hr (ended (found.map row))
    simpa [ended] using this

/-- **C169 without images** (false). With an empty list of images the program uses an image that is not there. -/
theorem C169_empty_false {τ : Type} (T : Tracker τ) (read : Str → Option Str) (region : Str) (writable : Bool) (hi : read b!"images.txt" = some []) (hreg : read b!"region.txt" = some region) :
    ∃ k, ∀ turns, k ≤ turns → main turns read writable T = some .undefined := by
  obtain ⟨k, hk⟩ := C169_images_partial [] (by simp) [] (.inl rfl)
  refine ⟨k, fun turns h => ?_⟩
  unfold main
  rw [hi]
  dsimp only
  rw [show readSequence turns [] = some [] from hk turns h]
  show some _ = _
  dsimp only
  rw [hreg]

/-- **C169 for the template.** If the region is not outside of the image, the template has the pixels of the region that are in the image, without the last column and the last row of the image. Missing from the full
claim: that column and row, and regions outside of the image (`C169_template_false`). -/
theorem C169_template_partial (r : Rect) (cols rows : Int) (hw : 0 ≤ r.width) (hh : 0 ≤ r.height) (hc : 0 < cols) (hr : 0 < rows) (hx : -r.width ≤ r.x ∧ r.x < cols) (hy : -r.height ≤ r.y ∧ r.y < rows) :
    ∃ c, cut r cols rows = some c ∧ ∀ i j, Rect.Has c i j ↔ Rect.Has r i j ∧ (0 ≤ i ∧ i < cols - 1) ∧ 0 ≤ j ∧ j < rows - 1 := by
  obtain ⟨x, y, w, h⟩ := r
  dsimp only at hw hh hx hy
  unfold cut
  dsimp only
  rw [if_pos (by omega)]
  refine ⟨_, rfl, fun i j => ?_⟩
  unfold Rect.Has
  dsimp only
  omega

/-- **C169 for the template** (false). If the region is to the right of the image or below it, the program dies of an exception; and if it is the whole image, the last column and the last row are missing. -/
theorem C169_template_false (cols rows : Int) (hc : 0 < cols) (hr : 0 < rows) :
    (∀ r : Rect, cols ≤ r.x ∨ rows ≤ r.y → cut r cols rows = none) ∧ cut ⟨0, 0, cols, rows⟩ cols rows = some ⟨0, 0, cols - 1, rows - 1⟩ := by
  constructor
  · rintro ⟨x, y, w, h⟩ hout
    unfold cut
    dsimp only at hout ⊢
    rw [if_neg (by omega)]
  · unfold cut
    dsimp only
    have e1 : min (0 + cols) (cols - 1) - max 0 0 = cols - 1 := by omega
    have e2 : min (0 + rows) (rows - 1) - max 0 0 = rows - 1 := by omega
    have e3 : max (0 : Int) 0 = 0 := by omega
    rw [e1, e2, e3, if_pos (by omega)]

/-! ## A concrete case -/

namespace Demo

/-- A tracker that moves to the right. -/
def moving : Tracker Rect where
  init _ r := some r
  update r _ := some ({ r with x := r.x + 2 }, { r with x := r.x + 2 })

def files (name : Str) : Option Str := if name = b!"images.txt" then some b!"a.jpg\nb.jpg\nc.jpg\n" else if name = b!"region.txt" then some b!"-1,20,3,4\n" else none

end Demo

example : main 10 Demo.files true Demo.moving = some (.written b!"-1,20,3,4\n1,20,3,4\n3,20,3,4\n") := by decide +kernel

example : ∃ k, ∀ turns, k ≤ turns → main turns Demo.files true Demo.moving = some (.written (ended (([⟨-1, 20, 3, 4⟩, ⟨1, 20, 3, 4⟩, ⟨3, 20, 3, 4⟩] : List Rect).map row))) :=
  (C169_result_partial Demo.moving Demo.files b!"a.jpg" [b!"b.jpg", b!"c.jpg"] ⟨-1, 20, 3, 4⟩ [] _ [⟨1, 20, 3, 4⟩, ⟨3, 20, 3, 4⟩]
    (by intro l hl; simp only [List.mem_cons, List.not_mem_nil, or_false] at hl; rcases hl with rfl | rfl | rfl <;> exact ⟨by decide, by decide⟩)
    rfl (by unfold Small InInt32; decide) rfl rfl (.cons rfl (.cons rfl .nil))).1

/-- A list without a line end at its end. -/
example : ∀ turns, readSequence turns b!"a.jpg\nb.jpg" = none :=
  C169_images_false [b!"a.jpg"] (by intro l hl; rw [List.mem_singleton.1 hl]; exact ⟨by decide, by decide⟩) b!"b.jpg" ⟨by decide, by decide⟩

/-- A region that is partly in an image. -/
example : cut ⟨-2, 5, 10, 20⟩ 100 20 = some ⟨0, 5, 8, 14⟩ := by decide

end Trax.Ncc
