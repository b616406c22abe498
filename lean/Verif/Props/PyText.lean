import Verif.Model.PyText
import Verif.Lemmas.Decimal

/-!
# C178: the texts of images and regions in Python
-/

namespace Trax.Py

/-! ## Specification -/

/-- The text tells a path: it stands between the quotes. -/
def Tells (kind : Text) (p : Str) (text : Text) : Prop := text = kind ++ t!" resource at '" ++ p.map UInt8.toNat ++ t!"'"

/-- A name for a file that can be printed, without quotes and backslashes. -/
def Printable (p : Str) : Prop := ∀ c ∈ p, 32 ≤ c.toNat ∧ c.toNat < 127 ∧ c.toNat ≠ 39 ∧ c.toNat ≠ 92

/-- The decimal number: digits, with a `-` in front of them if the number is negative. -/
def Number (t : Text) (n : Int) : Prop :=
  ∃ digits : Text, digits ≠ [] ∧ (∀ c ∈ digits, 48 ≤ c ∧ c ≤ 57) ∧
    ((0 ≤ n ∧ t = digits ∧ n = (digits.foldl (fun v c => v * 10 + (c - 48)) 0 : Nat)) ∨ (n < 0 ∧ t = 45 :: digits ∧ -n = (digits.foldl (fun v c => v * 10 + (c - 48)) 0 : Nat)))

/-! ## Lemmas -/

theorem digits_number (m : Nat) : (natDigits m).map UInt8.toNat ≠ [] ∧ (∀ c ∈ (natDigits m).map UInt8.toNat, 48 ≤ c ∧ c ≤ 57) ∧
    ((natDigits m).map UInt8.toNat).foldl (fun v c => v * 10 + (c - 48)) 0 = m := by
  refine ⟨?_, ?_, ?_⟩
  · simpa using natDigits_ne_nil m
  · intro c hc
    obtain ⟨b, hb, rfl⟩ := List.mem_map.1 hc
    have := natDigits_digits m b hb
    simp only [isDigit, Bool.and_eq_true, decide_eq_true_eq] at this
    omega
  · rw [List.foldl_map]
    exact natDigits_value m

theorem intStr_number (n : Int) : Number (intStr n) n := by
  cases n with
  | ofNat m =>
    obtain ⟨h1, h2, h3⟩ := digits_number m
    exact ⟨_, h1, h2, .inl ⟨Int.natCast_nonneg m, rfl, by rw [h3]; rfl⟩⟩
  | negSucc m =>
    obtain ⟨h1, h2, h3⟩ := digits_number (m + 1)
    exact ⟨_, h1, h2, .inr ⟨Int.negSucc_lt_zero m, rfl, by rw [h3]; rfl⟩⟩

theorem intStr_chars (n : Int) : ∀ c ∈ intStr n, (decide (c = 45) || (decide (48 ≤ c) && decide (c ≤ 57))) = true := by
  intro c hc
  obtain ⟨b, hb, e⟩ := List.mem_map.1 hc
  subst e
  rcases fmtInt_chars n b hb with h | h
  · simp only [isDigit, Bool.and_eq_true, decide_eq_true_eq] at h
    simp; omega
  · subst h; decide

theorem intStr_inj {a b : Int} (ha : InInt32 a) (hb : InInt32 b) (h : intStr a = intStr b) : a = b := by
  have hf : fmtInt a = fmtInt b := by
    have hi : Function.Injective UInt8.toNat := fun x y e => UInt8.toNat_inj.1 e
    exact (List.map_inj_right (fun x y e => hi e)).1 h
  have e1 := strtol_fmtInt a [] (by simp) ha
  have e2 := strtol_fmtInt b [] (by simp) hb
  rw [hf] at e1
  exact congrArg Prod.fst (e1.symm.trans e2)

/-- A number can be read back from a text in which something else follows. -/
theorem intStr_read {a b : Int} (ha : InInt32 a) (hb : InInt32 b) {c d : Nat} {r r' : Text} (hc : c ≠ 45 ∧ (c < 48 ∨ 57 < c)) (hd : d ≠ 45 ∧ (d < 48 ∨ 57 < d))
    (h : intStr a ++ c :: r = intStr b ++ d :: r') : a = b ∧ c :: r = d :: r' := by
  have k1 := takeWhile_append_stop (fun c => decide (c = 45) || (decide (48 ≤ c) && decide (c ≤ 57))) (intStr a) (c :: r) (intStr_chars a)
    (by intro x hx; cases hx; simp; omega)
  have k2 := takeWhile_append_stop (fun c => decide (c = 45) || (decide (48 ≤ c) && decide (c ≤ 57))) (intStr b) (d :: r') (intStr_chars b)
    (by intro x hx; cases hx; simp; omega)
  rw [h] at k1
  exact ⟨intStr_inj ha hb (k1.1.symm.trans k2.1), k1.2.symm.trans k2.2⟩

theorem repr_length (quote : Nat) (s : Str) : s.length ≤ ((s.map (reprByte quote)).flatten).length := by
  induction s with
  | nil => simp
  | cons b s ih =>
    have : 1 ≤ (reprByte quote b).length := by
      unfold reprByte
      repeat' split
      all_goals simp
    simp only [List.map_cons, List.flatten_cons, List.length_append, List.length_cons]
    omega

theorem repr_plain (s : Str) (h : Printable s) : (s.map (reprByte 39)).flatten = s.map UInt8.toNat := by
  induction s with
  | nil => rfl
  | cons b s ih =>
    obtain ⟨h1, h2, h3, h4⟩ := h b (by simp)
    have e : reprByte 39 b = [b.toNat] := by
      unfold reprByte
      rw [if_neg (by omega), if_neg (by omega), if_neg (by omega), if_neg (by omega), if_neg (by omega)]
    rw [List.map_cons, List.flatten_cons, e, ih fun c hc => h c (by simp [hc])]
    rfl

/-! ## C178 -/

/-- **C178** (memory, partial): the text of an image in memory tells its width, its height and its format: images that differ in one of them have different texts. What is missing: the other kinds of images,
see the theorems below. -/
theorem C178_memory_partial (w h f w' h' f' : Int) (d d' : List UInt8) (hf : f = 1 ∨ f = 2 ∨ f = 3) (hf' : f' = 1 ∨ f' = 2 ∨ f' = 3)
    (hw : InInt32 w) (hh : InInt32 h) (hw' : InInt32 w') (hh' : InInt32 h') :
    (∃ text, imageStr (.memory w h f d) = some text) ∧ (imageStr (.memory w h f d) = imageStr (.memory w' h' f' d') → w = w' ∧ h = h' ∧ f = f') := by
  have name : ∀ f : Int, f = 1 ∨ f = 2 ∨ f = 3 → ∃ name : Text, (∀ w h d, imageStr (.memory w h f d) = some (t!"Raw image of size " ++ (intStr w ++ 120 :: (intStr h ++ 44 :: (t!" format " ++ name))))) ∧
      name = (if f = 3 then t!"rgb" else if f = 1 then t!"gray8" else t!"gray16") := by
    intro f hf
    rcases hf with e | e | e <;> subst e <;> exact ⟨_, fun w h d => by simp [imageStr], rfl⟩
  obtain ⟨n, h1, h2⟩ := name f hf
  obtain ⟨n', h1', h2'⟩ := name f' hf'
  refine ⟨⟨_, h1 w h d⟩, ?_⟩
  rw [h1, h1']
  intro e
  have e := List.append_cancel_left (Option.some.inj e)
  obtain ⟨e1, e⟩ := intStr_read hw hw' (by omega) (by omega) e
  obtain ⟨e2, e⟩ := intStr_read hh hh' (by omega) (by omega) (List.cons.inj e).2
  have e3 : n = n' := List.append_cancel_left (List.cons.inj e).2
  refine ⟨e1, e2, ?_⟩
  subst h2 h2'
  rcases hf with a | a | a <;> rcases hf' with b | b | b <;> subst a <;> subst b <;> first | rfl | exact absurd e3 (by decide)

example : imageStr (.memory 320 240 3 []) = some t!"Raw image of size 320x240, format rgb" := by decide +kernel

/-- **C178** (mask): the text of a mask tells its size and its offset. -/
theorem C178_mask (x y w h x' y' w' h' : Int) (hx : InInt32 x) (hy : InInt32 y) (hw : InInt32 w) (hh : InInt32 h)
    (hx' : InInt32 x') (hy' : InInt32 y') (hw' : InInt32 w') (hh' : InInt32 h') (e : maskStr x y w h = maskStr x' y' w' h') : x = x' ∧ y = y' ∧ w = w' ∧ h = h' := by
  have form : ∀ x y w h, maskStr x y w h = t!"Mask of size " ++ (intStr w ++ 120 :: (intStr h ++ 32 :: (t!"with offset x=" ++ (intStr x ++ 44 :: (t!" y=" ++ intStr y))))) := by
    intro x y w h; simp [maskStr]
  rw [form, form] at e
  obtain ⟨e1, e⟩ := intStr_read hw hw' (by omega) (by omega) (List.append_cancel_left e)
  obtain ⟨e2, e⟩ := intStr_read hh hh' (by omega) (by omega) (List.cons.inj e).2
  obtain ⟨e3, e⟩ := intStr_read hx hx' (by omega) (by omega) (List.append_cancel_left (List.cons.inj e).2)
  exact ⟨e3, intStr_inj hy hy' (List.append_cancel_left (List.cons.inj e).2), e1, e2⟩

example : maskStr 3 (-4) 10 20 = t!"Mask of size 10x20 with offset x=3, y=-4" := by decide +kernel

/-- What a text for numbers must be like: different for different numbers, and without the characters that stand between two of them. Python writes a `float` as digits, `.`, `-`, `+`, `e`, `inf` or `nan`, with
as many digits as it takes to tell it from all others. -/
def Writes {α : Type} (repr : α → Text) : Prop := (∀ a b, repr a = repr b → a = b) ∧ ∀ a, ∀ c ∈ repr a, c ≠ 32 ∧ c ≠ 44 ∧ c ≠ 120

theorem split_at {c : Nat} {a b r r' : Text} (ha : ∀ x ∈ a, x ≠ c) (hb : ∀ x ∈ b, x ≠ c) (h : a ++ c :: r = b ++ c :: r') : a = b ∧ r = r' := by
  have k1 := takeWhile_append_stop (fun x => decide (x ≠ c)) a (c :: r) (fun x hx => by simpa using ha x hx) (by intro x hx; cases hx; simp)
  have k2 := takeWhile_append_stop (fun x => decide (x ≠ c)) b (c :: r') (fun x hx => by simpa using hb x hx) (by intro x hx; cases hx; simp)
  rw [h] at k1
  exact ⟨k1.1.symm.trans k2.1, (List.cons.inj (k1.2.symm.trans k2.2)).2⟩

/-- **C178** (rectangle): the text of a rectangle tells its four numbers, for every way to write a number that tells it and does not use the separators. -/
theorem C178_rectangle {α : Type} (repr : α → Text) (hr : Writes repr) (x y w h x' y' w' h' : α) (e : rectangleStr repr x y w h = rectangleStr repr x' y' w' h') :
    x = x' ∧ y = y' ∧ w = w' ∧ h = h' := by
  have form : ∀ x y w h, rectangleStr repr x y w h = t!"Rectangle " ++ (repr x ++ 44 :: (repr y ++ 32 :: (repr w ++ 120 :: repr h))) := by
    intro x y w h; simp [rectangleStr]
  rw [form, form] at e
  obtain ⟨e1, e⟩ := split_at (fun c hc => (hr.2 x c hc).2.1) (fun c hc => (hr.2 x' c hc).2.1) (List.append_cancel_left e)
  obtain ⟨e2, e⟩ := split_at (fun c hc => (hr.2 y c hc).1) (fun c hc => (hr.2 y' c hc).1) e
  obtain ⟨e3, e⟩ := split_at (fun c hc => (hr.2 w c hc).2.2) (fun c hc => (hr.2 w' c hc).2.2) e
  exact ⟨hr.1 _ _ e1, hr.1 _ _ e2, hr.1 _ _ e3, hr.1 _ _ e⟩

/-- Whole numbers of 32 bits, written with `.0` behind them. -/
example : Writes (fun n : { n : Int // InInt32 n } => intStr n.1 ++ t!".0") := by
  refine ⟨fun a b h => ?_, fun a c hc => ?_⟩
  · exact Subtype.ext (intStr_inj a.2 b.2 (List.append_cancel_right h))
  · rcases List.mem_append.1 hc with h | h
    · have := intStr_chars a.1 c h
      simp only [Bool.or_eq_true, Bool.and_eq_true, decide_eq_true_eq] at this
      omega
    · simp at h; omega

example : rectangleStr intStr 10 20 30 40 = t!"Rectangle 10,20 30x40" := by decide +kernel

/-- **C178** (polygon and special regions): the text of a polygon tells the number of its points, and that of a special region its code. -/
theorem C178_counts (a b : Int) (ha : InInt32 a) (hb : InInt32 b) : (polygonStr a = polygonStr b → a = b) ∧ (specialStr a = specialStr b → a = b) := by
  constructor
  · intro e
    have form : ∀ n, polygonStr n = t!"Polygon with " ++ (intStr n ++ 32 :: t!"points") := by intro n; simp [polygonStr]
    rw [form, form] at e
    exact (intStr_read ha hb (by omega) (by omega) (List.append_cancel_left e)).1
  · intro e
    have form : ∀ n, specialStr n = t!"Special region (code " ++ (intStr n ++ 41 :: []) := by intro n; simp [specialStr]
    rw [form, form] at e
    exact (intStr_read ha hb (by omega) (by omega) (List.append_cancel_left e)).1

example : polygonStr 4 = t!"Polygon with 4 points" ∧ specialStr (-1) = t!"Special region (code -1)" := by decide +kernel

/-- **C178** (labels): each number stands in its place: the width in front of the height, and `x` and `y` behind their names; the name of the format of an image in memory is the right one (those of encoded images
are confused, see `C178_format_false`; their length is right). -/
theorem C178_labels (x y w h : Int) (d : List UInt8) :
    (∃ tx ty tw th, Number tx x ∧ Number ty y ∧ Number tw w ∧ Number th h ∧
      maskStr x y w h = t!"Mask of size " ++ tw ++ t!"x" ++ th ++ t!" with offset x=" ++ tx ++ t!", y=" ++ ty ∧
      imageStr (.memory w h 1 d) = some (t!"Raw image of size " ++ tw ++ t!"x" ++ th ++ t!", format gray8") ∧
      imageStr (.memory w h 2 d) = some (t!"Raw image of size " ++ tw ++ t!"x" ++ th ++ t!", format gray16") ∧
      imageStr (.memory w h 3 d) = some (t!"Raw image of size " ++ tw ++ t!"x" ++ th ++ t!", format rgb") ∧
      polygonStr w = t!"Polygon with " ++ tw ++ t!" points" ∧ specialStr w = t!"Special region (code " ++ tw ++ t!")") ∧
    ∃ tl, Number tl d.length ∧ imageStr (.buffer 1 d) = some (t!"Encoded image (format: jpeg, size: " ++ tl ++ t!")") ∧
      imageStr (.buffer 2 d) = some (t!"Encoded image (format: png, size: " ++ tl ++ t!")") := by
  refine ⟨⟨_, _, _, _, intStr_number x, intStr_number y, intStr_number w, intStr_number h, rfl, ?_, ?_, ?_, rfl, rfl⟩, _, intStr_number _, ?_, ?_⟩ <;> simp [imageStr]

example : Number t!"-407" (-407) := ⟨t!"407", by decide, by decide, .inr ⟨by decide, rfl, by decide⟩⟩

/-- **C178** (path, false): the text of an image in a file, or at a URL, never has the path (or the URL) between the quotes: it has the way a `bytes` object is written in Python, which starts with `b` and has quotes of its own. -/
theorem C178_path_false (p : Str) :
    (∀ text, imageStr (.path p) = some text → ¬ Tells t!"File" p text) ∧ (∀ text, imageStr (.url p) = some text → ¬ Tells t!"URL" p text) ∧
    (Printable p → imageStr (.path p) = some (t!"File resource at 'b'" ++ p.map UInt8.toNat ++ t!"''") ∧ imageStr (.url p) = some (t!"URL resource at 'b'" ++ p.map UInt8.toNat ++ t!"''")) := by
  have hl : p.length + 3 ≤ (bytesRepr p).length := by
    unfold bytesRepr
    dsimp only
    have := repr_length (if (39 : UInt8) ∈ p ∧ (34 : UInt8) ∉ p then 34 else 39) p
    simp only [List.length_cons, List.length_append, List.length_nil]
    omega
  refine ⟨?_, ?_, ?_⟩
  · intro text h ht
    cases h
    have := congrArg List.length ht
    simp only [List.length_append, List.length_map, List.length_cons, List.length_nil] at this
    omega
  · intro text h ht
    cases h
    have := congrArg List.length ht
    simp only [List.length_append, List.length_map, List.length_cons, List.length_nil] at this
    omega
  · intro h
    have hq : (39 : UInt8) ∉ p := fun hm => (h 39 hm).2.2.1 rfl
    have e : bytesRepr p = t!"b'" ++ p.map UInt8.toNat ++ t!"'" := by
      unfold bytesRepr
      rw [if_neg (fun x => hq x.1)]
      simp [repr_plain p h]
    simp [imageStr, e]

example : imageStr (.path b!"/tmp/a.jpg") = some t!"File resource at 'b'/tmp/a.jpg''" := by decide +kernel
example : imageStr (.path b!"it's\n") = some t!"File resource at 'b\"it's\\n\"'" := by decide +kernel

/-- **C178** (format, false): an image in JPEG format is called `png`, and one in PNG format `jpeg`. -/
theorem C178_format_false (data : List UInt8) (img : Image) (h : bufferCreate data = .ok img) :
    (data.take 4 = [255, 216, 255, 224] → imageStr img = some (t!"Encoded image (format: png, size: " ++ intStr data.length ++ t!")")) ∧
    (data.take 4 = [137, 80, 78, 71] → imageStr img = some (t!"Encoded image (format: jpeg, size: " ++ intStr data.length ++ t!")")) := by
  unfold bufferCreate Image.createBuffer at h
  split at h
  · cases h
    constructor
    · intro e; simp [imageStr, Image.verifyFormat, e]
    · intro e; simp [imageStr, Image.verifyFormat, e]
  · cases h

example : bufferCreate [255, 216, 255, 224, 0] = .ok (.buffer 2 [255, 216, 255, 224, 0]) := by decide +kernel

/-- **C178** (unknown, false): an image that came through the protocol with another type of data has no text: `str` raises a `KeyError`. -/
theorem C178_unknown_false : ∃ text d, Image.decode (fun _ => 0) text = .ok ⟨some d, 0⟩ ∧ imageStr d = none :=
  ⟨b!"data:image/gif;AAAA", .buffer 0 [0, 0, 0, 0], by decide +kernel, by decide +kernel⟩

end Trax.Py
