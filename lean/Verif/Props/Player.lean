import Verif.Props.Options
import Verif.Spec.Player
import Verif.Lemmas.FloatOps

/-!
# Property theorems C149, C150, C151: `traxplayer`
-/

namespace Trax.Player
open Trax.Spec (Letters Item Group Reads given lastGiven lastFlag playerOptions playerHelp LastValue Quotable Act acts Dragged Dropped Between)
open Trax.Opt (Event Start Shows charInt maxInt maxInt_eq propertyOptions given_snoc_value given_snoc_flag lastFlag_snoc_value
  lastFlag_snoc_flag environment_snoc property_snoc propertyOptions_eq property_assign reads_items C123_getopt)

/-! ## C150 -/

/-- The loop, one thing after the other. -/
def chooseActs : List Act → Capture → Option (Option Region)
  | [], _ => none
  | .mouse m :: as, rc => chooseActs as (onMouse rc m)
  | .key k :: as, rc =>
    if keyByte k = ch%'q' then chooseActs as { rc with region := none }
    else if keyByte k = ch%' ' then some rc.region
    else chooseActs as rc

theorem chooseActs_mouse (ms : List Mouse) (as : List Act) : ∀ rc, chooseActs (ms.map .mouse ++ as) rc = chooseActs as (ms.foldl onMouse rc) := by
  induction ms with
  | nil => intro rc; rfl
  | cons m ms ih => intro rc; exact ih _

theorem choose_acts (rounds : List Round) : ∀ rc, choose rounds rc = chooseActs (acts rounds) rc := by
  induction rounds with
  | nil => intro rc; rfl
  | cons r rs ih =>
    intro rc
    show _ = chooseActs ((r.mouse.map .mouse ++ [.key r.key]) ++ acts rs) rc
    rw [List.append_assoc, chooseActs_mouse]
    show _ = chooseActs (.key r.key :: acts rs) _
    simp only [choose, chooseActs, ih]

/-- One thing that does not confirm. -/
def stepAct (rc : Capture) : Act → Capture
  | .mouse m => onMouse rc m
  | .key k => if keyByte k = ch%'q' then { rc with region := none } else rc

theorem keyByte_eq {k : Int} {c : Byte} (h : keyByte k = c) : k.emod 256 = c.toNat := by
  subst h
  have h1 : 0 ≤ k.emod 256 := Int.emod_nonneg _ (by norm_num)
  have h2 : k.emod 256 < 256 := Int.emod_lt_of_pos _ (by norm_num)
  unfold keyByte
  rw [UInt8.toNat_ofNat']
  omega

theorem eq_keyByte {k : Int} {c : Byte} (h : k.emod 256 = c.toNat) : keyByte k = c := by
  unfold keyByte
  rw [h]
  simp

theorem chooseActs_append (as bs : List Act) (h : ∀ a ∈ as, ¬ a.Key ch%' ') :
    ∀ rc, chooseActs (as ++ bs) rc = chooseActs bs (as.foldl stepAct rc) := by
  induction as with
  | nil => intro rc; rfl
  | cons a as ih =>
    intro rc
    have ih' := ih fun a ha => h a (by simp [ha])
    cases a with
    | mouse m => exact ih' _
    | key k =>
      have hk : keyByte k ≠ ch%' ' := fun e => h (.key k) (by simp) ⟨k, rfl, keyByte_eq e⟩
      show (if _ then chooseActs (as ++ bs) _ else if _ then _ else chooseActs (as ++ bs) _) = chooseActs bs (as.foldl stepAct (if _ then _ else _))
      by_cases hq : keyByte k = ch%'q'
      · rw [if_pos hq, if_pos hq, ih']
      · rw [if_neg hq, if_neg hq, if_neg hk, ih']

theorem onMouse_start (rc : Capture) (m : Mouse) (h : ∀ x y, m ≠ .down x y) : (onMouse rc m).start = rc.start := by
  cases m with
  | down x y => exact absurd rfl (h x y)
  | up x y => rfl
  | moved x y =>
    unfold onMouse
    dsimp only
    split <;> rfl

theorem onMouse_region (rc : Capture) (m : Mouse) (h : ∀ x y, m ≠ .up x y) : (onMouse rc m).region = rc.region := by
  cases m with
  | down x y => rfl
  | up x y => exact absurd rfl (h x y)
  | moved x y =>
    unfold onMouse
    dsimp only
    split <;> rfl

theorem fold_start (as : List Act) (h : ∀ a ∈ as, ¬ a.Press) : ∀ rc, (as.foldl stepAct rc).start = rc.start := by
  induction as with
  | nil => intro rc; rfl
  | cons a as ih =>
    intro rc
    rw [List.foldl_cons, ih fun a ha => h a (by simp [ha])]
    cases a with
    | mouse m => exact onMouse_start rc m fun x y e => h (.mouse m) (by simp) ⟨x, y, by rw [e]⟩
    | key k => simp only [stepAct]; split <;> rfl

theorem fold_region (as : List Act) (h : ∀ a ∈ as, ¬ a.Release ∧ ¬ a.Key ch%'q') : ∀ rc, (as.foldl stepAct rc).region = rc.region := by
  induction as with
  | nil => intro rc; rfl
  | cons a as ih =>
    intro rc
    rw [List.foldl_cons, ih fun a ha => h a (by simp [ha])]
    cases a with
    | mouse m => exact onMouse_region rc m fun x y e => (h (.mouse m) (by simp)).1 ⟨x, y, by rw [e]⟩
    | key k =>
      simp only [stepAct]
      rw [if_neg fun e => (h (.key k) (by simp)).2 ⟨k, rfl, keyByte_eq e⟩]

theorem fold_none (as : List Act) (h : ∀ a ∈ as, ¬ a.Release) : ∀ rc, rc.region = none → (as.foldl stepAct rc).region = none := by
  induction as with
  | nil => intro rc h; exact h
  | cons a as ih =>
    intro rc hr
    rw [List.foldl_cons]
    refine ih (fun a ha => h a (by simp [ha])) _ ?_
    cases a with
    | mouse m => rw [← hr]; exact onMouse_region rc m fun x y e => h (.mouse m) (by simp) ⟨x, y, by rw [e]⟩
    | key k => simp only [stepAct]; split <;> first | rfl | exact hr

theorem choose_confirm {rounds : List Round} {done rest : List Act} {confirm : Act} (ha : acts rounds = done ++ confirm :: rest)
    (hc : confirm.Key ch%' ') (hd : ∀ a ∈ done, ¬ a.Key ch%' ') :
    chooseRegion rounds = some (done.foldl stepAct .initial).region := by
  unfold chooseRegion
  rw [choose_acts, ha, chooseActs_append _ _ hd]
  obtain ⟨k, rfl, hk⟩ := hc
  have hk' := eq_keyByte hk
  simp only [chooseActs]
  rw [if_neg (by rw [hk']; decide), if_pos hk']

/-- **C150** (partial): the region that the user drags last before confirming with the space key is the result: the rectangle between the two points
when the mouse moves right and down. Missing: the other directions (`C150_direction_false`). -/
theorem C150_dragged_partial (rounds : List Round) (done rest : List Act) (confirm : Act) (ha : acts rounds = done ++ confirm :: rest)
    (hc : confirm.Key ch%' ') (x1 y1 x2 y2 : Int) (hd : Dragged done x1 y1 x2 y2)
    (h1 : |x1| ≤ 2 ^ 24) (h2 : |y1| ≤ 2 ^ 24) (h3 : |x2 - x1| ≤ 2 ^ 24) (h4 : |y2 - y1| ≤ 2 ^ 24) :
    ∃ x y width height, chooseRegion rounds = some (some (.rectangle x y width height)) ∧
      x.value = x1 ∧ y.value = y1 ∧ width.value = x2 - x1 ∧ height.value = y2 - y1 ∧
      (x1 ≤ x2 → y1 ≤ y2 → Between x1 y1 x2 y2 x y width height) := by
  obtain ⟨before, between, after, rfl, hb, haf, hk⟩ := hd
  have e := choose_confirm ha hc hk
  rw [List.append_assoc, List.foldl_append, List.cons_append, List.foldl_cons, List.foldl_append, List.foldl_cons, fold_region _ haf] at e
  have hs : (between.foldl stepAct (stepAct (before.foldl stepAct .initial) (.mouse (.down x1 y1)))).start = (x1, y1) := by
    rw [fold_start _ hb]
    rfl
  have hr : (stepAct (between.foldl stepAct (stepAct (before.foldl stepAct .initial) (.mouse (.down x1 y1)))) (.mouse (.up x2 y2))).region =
      some (.rectangle (.ofInt x1) (.ofInt y1) (.ofInt (x2 - x1)) (.ofInt (y2 - y1))) := by
    show some (Region.createRectangle (.ofInt (Capture.start _).1) (.ofInt (Capture.start _).2) (.ofInt (x2 - (Capture.start _).1))
      (.ofInt (y2 - (Capture.start _).2))) = _
    rw [hs]
    rfl
  rw [hr] at e
  have v1 := (Flt.ofInt_small h1).value
  have v2 := (Flt.ofInt_small h2).value
  have v3 := (Flt.ofInt_small h3).value
  have v4 := (Flt.ofInt_small h4).value
  refine ⟨_, _, _, _, e, v1, v2, by rw [v3]; push_cast; rfl, by rw [v4]; push_cast; rfl, fun hx hy => ⟨?_, ?_, ?_, ?_⟩⟩
  · rw [v1, min_eq_left (by exact_mod_cast hx)]
  · rw [v2, min_eq_left (by exact_mod_cast hy)]
  · rw [v3, abs_of_nonneg (by omega)]
  · rw [v4, abs_of_nonneg (by omega)]

/-- A region dragged after another one that was taken back, with other keys and movements in between. -/
example : acts [⟨[.down 1 1, .up 5 5], 113⟩, ⟨[.down 10 20, .moved 15 25], -1⟩, ⟨[.moved 35 55, .up 40 60], 97⟩, ⟨[], 32⟩, ⟨[], -1⟩] =
      [.mouse (.down 1 1), .mouse (.up 5 5), .key 113, .mouse (.down 10 20), .mouse (.moved 15 25), .key (-1), .mouse (.moved 35 55),
        .mouse (.up 40 60), .key 97] ++ .key 32 :: [.key (-1)] ∧
    Act.Key ch%' ' (.key 32) ∧
    Dragged [.mouse (.down 1 1), .mouse (.up 5 5), .key 113, .mouse (.down 10 20), .mouse (.moved 15 25), .key (-1), .mouse (.moved 35 55),
      .mouse (.up 40 60), .key 97] 10 20 40 60 := by
  refine ⟨rfl, ⟨32, rfl, by decide⟩, [.mouse (.down 1 1), .mouse (.up 5 5), .key 113],
    [.mouse (.moved 15 25), .key (-1), .mouse (.moved 35 55)], [.key 97], rfl, ?_, ?_, ?_⟩
  · intro a ha
    simp only [List.mem_cons, List.not_mem_nil, or_false] at ha
    rcases ha with rfl | rfl | rfl <;> (rintro ⟨x, y, h⟩; cases h)
  · intro a ha
    simp only [List.mem_cons, List.not_mem_nil, or_false] at ha
    subst ha
    exact ⟨(by rintro ⟨x, y, h⟩; cases h), (by rintro ⟨k, h, hk⟩; cases h; exact absurd hk (by decide))⟩
  · intro a ha
    simp only [List.mem_cons, List.not_mem_nil, or_false] at ha
    rcases ha with rfl | rfl | rfl | rfl | rfl | rfl | rfl | rfl | rfl <;>
      (rintro ⟨k, h, hk⟩; first | cases h; done | (cases h; exact absurd hk (by decide)))

/-- **C150**: without a region, or after it was taken back, the result is an empty region. -/
theorem C150_dropped_partial (rounds : List Round) (done rest : List Act) (confirm : Act) (ha : acts rounds = done ++ confirm :: rest)
    (hc : confirm.Key ch%' ') (hd : Dropped done) : chooseRegion rounds = some none := by
  rw [choose_confirm ha hc hd.1]
  rcases hd.2 with h | ⟨before, k, after, rfl, hk, h⟩
  · rw [fold_none _ h _ rfl]
  · rw [List.foldl_append, List.foldl_cons, fold_none _ h]
    obtain ⟨c, rfl, hc⟩ := hk
    simp only [stepAct]
    rw [if_pos (eq_keyByte hc)]

/-- A region that is taken back. -/
example : Dropped [.mouse (.down 1 1), .mouse (.up 5 5), .key 113] := by
  refine ⟨?_, .inr ⟨[.mouse (.down 1 1), .mouse (.up 5 5)], .key 113, [], rfl, ⟨113, rfl, by decide⟩, by simp⟩⟩
  intro a ha
  simp only [List.mem_cons, List.not_mem_nil, or_false] at ha
  rcases ha with rfl | rfl | rfl <;>
    (rintro ⟨k, h, hk⟩; first | cases h; done | (cases h; exact absurd hk (by decide)))

/-- The full claim of C150 is false: "press Q to cancel input", says the window, but only the space key ends the choice, whatever else is pressed. -/
theorem C150_cancel_false (rounds : List Round) (h : ∀ a ∈ acts rounds, ¬ a.Key ch%' ') : chooseRegion rounds = none := by
  unfold chooseRegion
  rw [choose_acts, ← List.append_nil (acts rounds), chooseActs_append _ _ h]
  rfl

/-- Any number of times Q is not a confirmation. -/
example (n : Nat) : ∀ a ∈ acts (List.replicate n ⟨[], 113⟩), ¬ a.Key ch%' ' := by
  intro a ha
  simp only [acts, List.mem_flatMap, List.mem_replicate] at ha
  obtain ⟨r, ⟨_, rfl⟩, ha⟩ := ha
  simp only [List.map_nil, List.nil_append, List.mem_singleton] at ha
  subst ha
  rintro ⟨k, h, hk⟩
  cases h
  exact absurd hk (by decide)

/-- The full claim of C150 is false: when the mouse is dragged to the left or up, the result is not the rectangle between the two points, but has a
negative size. -/
theorem C150_direction_false (rounds : List Round) (done rest : List Act) (confirm : Act) (ha : acts rounds = done ++ confirm :: rest)
    (hc : confirm.Key ch%' ') (x1 y1 x2 y2 : Int) (hd : Dragged done x1 y1 x2 y2)
    (h1 : |x1| ≤ 2 ^ 24) (h2 : |y1| ≤ 2 ^ 24) (h3 : |x2 - x1| ≤ 2 ^ 24) (h4 : |y2 - y1| ≤ 2 ^ 24) (hl : x2 < x1 ∨ y2 < y1) :
    ∃ x y width height, chooseRegion rounds = some (some (.rectangle x y width height)) ∧
      (width.value < 0 ∨ height.value < 0) ∧ ¬ Between x1 y1 x2 y2 x y width height := by
  obtain ⟨x, y, w, h, e, v1, v2, v3, v4, _⟩ := C150_dragged_partial rounds done rest confirm ha hc x1 y1 x2 y2 hd h1 h2 h3 h4
  have hneg : w.value < 0 ∨ h.value < 0 := by
    rcases hl with hl | hl
    · left; rw [v3]; have : (x2 : ℚ) < x1 := by exact_mod_cast hl
      linarith
    · right; rw [v4]; have : (y2 : ℚ) < y1 := by exact_mod_cast hl
      linarith
  refine ⟨x, y, w, h, e, hneg, fun hb => ?_⟩
  obtain ⟨_, _, b3, b4⟩ := hb
  rcases hneg with hn | hn
  · rw [b3] at hn
    have : (0 : Int) ≤ |x2 - x1| := abs_nonneg _
    exact absurd hn (not_lt.mpr (by exact_mod_cast this))
  · rw [b4] at hn
    have : (0 : Int) ≤ |y2 - y1| := abs_nonneg _
    exact absurd hn (not_lt.mpr (by exact_mod_cast this))

/-! ## C151 -/

/-- An item that stops the program. -/
def Stops (i : Item) : Prop :=
  i = .flag ch%'h' ∨ (∃ c, i = .unknown c) ∨ (∃ c, i = .missing c) ∨ i = .flag ch%'g' ∨ ∃ a, i = .value ch%'G' a

/-- What the switches of `traxplayer` mean. -/
structure Describes (items : List Item) (c : PlaySettings) : Prop where
  video : c.video = lastGiven ch%'V' items b!"input.avi"
  verbosity : c.verbosity = if .flag ch%'d' ∈ items then .debug else .standard
  connection : c.connection = match lastFlag [ch%'x', ch%'X'] items with
    | none => .standard
    | some f => if f = ch%'x' then .explicit else .sockets
  timeout : c.timeout = match (given ch%'t' items).getLast? with
    | none => 30
    | some a => max 0 (Environ.atoi a)
  environment : ∀ n v, ch%'=' ∉ n → ((n, v) ∈ c.environment ↔ LastValue (given ch%'e' items) n v)
  properties : ∀ n v, ch%'=' ∉ n → NoNul n → (c.properties.get n = some v ↔ LastValue (given ch%'p' items) n v)

/-- The state of the loop after some items. -/
structure Done (items : List Item) (c : PlaySettings) : Prop where
  video : c.video = lastGiven ch%'V' items b!"input.avi"
  verbosity : c.verbosity = if .flag ch%'d' ∈ items then .debug else .standard
  connection : c.connection = match lastFlag [ch%'x', ch%'X'] items with
    | none => .standard
    | some f => if f = ch%'x' then .explicit else .sockets
  timeout : c.timeout = match (given ch%'t' items).getLast? with
    | none => 30
    | some a => max 0 (Environ.atoi a)
  environment : c.environment = Environ.environmentOptions (given ch%'e' items)
  properties : c.properties = propertyOptions Properties.create (given ch%'p' items)

theorem done_initial : Done [] .initial := by constructor <;> rfl

theorem step_flag {items : List Item} {c : PlaySettings} (h : Done items c) (d : Byte) (hm : (d, false) ∈ playerOptions)
    (hd : d ≠ ch%'h') (hg : d ≠ ch%'g') (x : Byte) (y : Option Str) :
    ∃ c', playerSwitch c ⟨charInt d, x, y⟩ = .ok (some c') ∧ Done (items ++ [.flag d]) c' := by
  obtain ⟨h1, h2, h3, h4, h5, h6⟩ := h
  have hd : d = ch%'d' ∨ d = ch%'x' ∨ d = ch%'X' := by
    simp [playerOptions] at hm
    tauto
  rcases hd with rfl | rfl | rfl
  · refine ⟨{ c with verbosity := .debug }, rfl, ?_⟩
    constructor <;> simp [lastGiven, given_snoc_flag, lastFlag_snoc_flag] <;> assumption
  · refine ⟨{ c with connection := .explicit }, rfl, ?_⟩
    constructor <;> simp [lastGiven, given_snoc_flag, lastFlag_snoc_flag] <;> assumption
  · refine ⟨{ c with connection := .sockets }, rfl, ?_⟩
    constructor <;> simp [lastGiven, given_snoc_flag, lastFlag_snoc_flag] <;> assumption

theorem step_value {items : List Item} {c : PlaySettings} (h : Done items c) (d : Byte) (hm : (d, true) ∈ playerOptions)
    (hd : d ≠ ch%'G') (x : Byte) (a : Str) :
    ∃ c', playerSwitch c ⟨charInt d, x, some a⟩ = .ok (some c') ∧ Done (items ++ [.value d a]) c' := by
  obtain ⟨h1, h2, h3, h4, h5, h6⟩ := h
  have hd : d = ch%'V' ∨ d = ch%'t' ∨ d = ch%'p' ∨ d = ch%'e' := by
    simp [playerOptions] at hm
    tauto
  have hch : ∀ f : PlaySettings, playerSwitch c ⟨charInt d, x, some a⟩ = .ok (some f) → Done (items ++ [.value d a]) f →
      ∃ c', playerSwitch c ⟨charInt d, x, some a⟩ = .ok (some c') ∧ Done (items ++ [.value d a]) c' := fun f a b => ⟨f, a, b⟩
  rcases hd with rfl | rfl | rfl | rfl
  · refine hch { c with video := a } rfl ?_
    constructor <;> simp [lastGiven, given_snoc_value, lastFlag_snoc_value] <;> assumption
  · refine hch { c with timeout := maxInt 0 (Environ.atoi a) } rfl ?_
    constructor <;> simp [lastGiven, given_snoc_value, lastFlag_snoc_value, maxInt_eq] <;> assumption
  · have key : playerSwitch c ⟨charInt ch%'p', x, some a⟩ = .ok (match Environ.splitVar a with
      | none => some c
      | some (k, v) => some { c with properties := c.properties.set k v }) := rfl
    cases hs : Environ.splitVar a with
    | none =>
      rw [hs] at key
      refine hch c key ?_
      constructor <;> simp [lastGiven, given_snoc_value, lastFlag_snoc_value, property_snoc, hs] <;> assumption
    | some p =>
      rw [hs] at key
      refine hch { c with properties := c.properties.set p.1 p.2 } key ?_
      constructor <;> simp [lastGiven, given_snoc_value, lastFlag_snoc_value, property_snoc, hs] <;> first | assumption | rw [h6]
  · have key : playerSwitch c ⟨charInt ch%'e', x, some a⟩ = .ok (match Environ.splitVar a with
      | none => some c
      | some (k, v) => some { c with environment := c.environment.set k v }) := rfl
    cases hs : Environ.splitVar a with
    | none =>
      rw [hs] at key
      refine hch c key ?_
      constructor <;> simp [lastGiven, given_snoc_value, lastFlag_snoc_value, environment_snoc, hs] <;> assumption
    | some p =>
      rw [hs] at key
      refine hch { c with environment := c.environment.set p.1 p.2 } key ?_
      constructor <;> simp [lastGiven, given_snoc_value, lastFlag_snoc_value, environment_snoc, hs] <;> first | assumption | rw [h5]

theorem result_eq {c : Byte} {b : Bool} (hm : (c, b) ∈ playerOptions) : (c.toNat : Int) = charInt c := by
  have : ∀ p ∈ playerOptions, ((p.1.toNat : Nat) : Int) = charInt p.1 := by decide
  exact this _ hm

theorem result_h {c : Byte} {b : Bool} (hm : (c, b) ∈ playerOptions) (hc : c ≠ ch%'h') : charInt c ≠ charInt ch%'h' := by
  have : ∀ p ∈ playerOptions, p.1 ≠ ch%'h' → charInt p.1 ≠ charInt ch%'h' := by decide
  exact this _ hm hc

/-- The loop over items that do not stop the program. -/
theorem switches_go (ops : List Str) (es : List Event) (rest : List Item) (hs : List.Forall₂ Shows rest es) :
    ∀ (after : List Event) (items : List Item) (c : PlaySettings), Done items c → (∀ i ∈ rest, ¬ Stops i) →
    (∀ i ∈ rest, (∀ c, i = .flag c → (c, false) ∈ playerOptions) ∧ ∀ c a, i = .value c a → (c, true) ∈ playerOptions ∧ (0 : Byte) ∉ a) →
    ∃ c', Done (items ++ rest) c' ∧ playerSwitches ops (es ++ after) c = playerSwitches ops after c' := by
  induction hs with
  | nil => intro after items c hd _ _; exact ⟨c, by simpa using hd, rfl⟩
  | @cons i e rest es h1 _ ih =>
    intro after items c hd hstop hin
    have hi := hin i (by simp)
    have hni := hstop i (by simp)
    obtain ⟨r, x, y⟩ := e
    have key : ∃ c', playerSwitch c ⟨r, x, y⟩ = .ok (some c') ∧ Done (items ++ [i]) c' ∧ r ≠ charInt ch%'h' := by
      cases i with
      | flag d =>
        have hm := hi.1 d rfl
        have hh : d ≠ ch%'h' := fun e => hni (.inl (by rw [e]))
        have hg : d ≠ ch%'g' := fun e => hni (.inr (.inr (.inr (.inl (by rw [e])))))
        obtain ⟨e1, e2, e3⟩ := h1
        dsimp only at e1 e2 e3
        rw [result_eq hm] at e1
        subst e1
        obtain ⟨c', f1, f2⟩ := step_flag hd d hm hh hg x y
        exact ⟨c', f1, f2, result_h hm hh⟩
      | value d a =>
        have hm := (hi.2 d a rfl).1
        have hg : d ≠ ch%'G' := fun e => hni (.inr (.inr (.inr (.inr ⟨a, by rw [e]⟩))))
        obtain ⟨e1, e2, e3⟩ := h1
        dsimp only at e1 e2 e3
        rw [result_eq hm] at e1
        subst e1
        subst e3
        have hh : d ≠ ch%'h' := by rintro rfl; exact absurd hm (by decide)
        obtain ⟨c', f1, f2⟩ := step_value hd d hm hg x a
        exact ⟨c', f1, f2, result_h hm hh⟩
      | unknown d => exact absurd (.inr (.inl ⟨d, rfl⟩)) hni
      | missing d => exact absurd (.inr (.inr (.inl ⟨d, rfl⟩))) hni
    obtain ⟨c', k1, k2, k3⟩ := key
    obtain ⟨c'', g1, g2⟩ := ih after (items ++ [i]) c' k2 (fun j hj => hstop j (by simp [hj])) (fun j hj => hin j (by simp [hj]))
    refine ⟨c'', by simpa using g1, ?_⟩
    rw [← g2]
    show playerSwitches ops (⟨r, x, y⟩ :: (es ++ after)) c = _
    simp only [playerSwitches]
    rw [if_neg k3, k1, Outcome.bind_ok]

theorem done_describes {items : List Item} {c : PlaySettings} (h : Done items c)
    (hz : ∀ d a, .value d a ∈ items → (0 : Byte) ∉ a) : Describes items c := by
  obtain ⟨h1, h2, h3, h4, h5, h6⟩ := h
  refine ⟨h1, h2, h3, h4, ?_, ?_⟩
  · intro n v hn
    rw [h5]
    exact Environ.C95_switches _ n v hn
  · intro n v hn hnn
    rw [h6, propertyOptions_eq, property_assign _ Properties.wf_create n v hnn, Environ.lastGiven_filterMap hn]
    · constructor
      · rintro (h | ⟨_, h⟩)
        · exact h
        · rw [Properties.get_create] at h; cases h
      · exact .inl
    · intro e he
      obtain ⟨s, hs1, hs2⟩ := List.mem_filterMap.mp he
      obtain ⟨_, hs3⟩ := Environ.splitVar_some.mp hs2
      have hs0 : (0 : Byte) ∉ s := by
        obtain ⟨i, hi1, hi2⟩ := List.mem_filterMap.mp hs1
        cases i with
        | value d a =>
          dsimp only at hi2
          split at hi2
          · injection hi2 with hi2
            subst hi2
            exact hz _ _ hi1
          · cases hi2
        | flag d => cases hi2
        | unknown d => cases hi2
        | missing d => cases hi2
      rw [hs3] at hs0
      constructor
      · intro x hx e
        subst e
        exact hs0 (by simp [hx])
      · intro x hx e
        subst e
        exact hs0 (by simp [hx])

/-- **C151** (partial): for every command line of `traxplayer`: the switch `-h`, when nothing that stops the program comes before it, prints the help and
ends the program with 0; an unknown switch, or one that lacks its argument, is an error that names the switch, and so are `-g` and `-G`; without operands the help is printed and the
program ends with -1; in all other cases the program goes on with the settings the switches describe and the operands as the
command of the tracker. Missing: `-g`, which the help describes (`C151_window_false`). -/
theorem C151_settings_partial (argv : List Str) (h0 : ∀ w ∈ argv, (0 : Byte) ∉ w) (items : List Item) (ops : List Str)
    (hr : Reads playerOptions (argv.drop 1) items ops) :
    (∀ before i after, items = before ++ i :: after → (∀ j ∈ before, ¬ Stops j) →
      (i = .flag ch%'h' → playerStart argv = .ok (.help 0)) ∧
      (∀ c, i = .unknown c ∨ i = .missing c ∨ (i = .flag c ∧ c = ch%'g') ∨ (∃ a, i = .value c a ∧ c = ch%'G') →
        playerStart argv = .ok (.error (b!"Unknown switch -" ++ [c])))) ∧
    ((∀ j ∈ items, ¬ Stops j) →
      (ops = [] → playerStart argv = .ok (.help (-1))) ∧
      (ops ≠ [] → ∃ settings command, playerStart argv = .ok (.go settings command) ∧ Describes items settings ∧
        ((∀ a ∈ ops, Quotable a) → processCommand command = .ok ops))) := by
  have hp : playerOptions.Proper := ⟨by decide, by decide⟩
  obtain ⟨es, n, ho, hn, hs⟩ := C123_getopt playerOptions hp argv h0 items ops hr
  have hin := reads_items hr (fun w h => h0 w (List.mem_of_mem_drop h))
  have hstart : playerStart argv = playerSwitches ops es .initial := by
    unfold playerStart
    rw [show playerLetters = playerOptions.text from by decide, ho, Outcome.bind_ok]
    dsimp only
    rw [hn]
  rw [hstart]
  constructor
  · rintro before i after rfl hstop
    obtain ⟨es1, es2', rfl, hf1, hf2⟩ : ∃ es1 es2, es = es1 ++ es2 ∧ List.Forall₂ Shows before es1 ∧
        List.Forall₂ Shows (i :: after) es2 := by
      refine ⟨es.take before.length, es.drop before.length, (List.take_append_drop _ _).symm, ?_, ?_⟩
      · have := List.forall₂_take before.length hs
        rwa [List.take_left] at this
      · have := List.forall₂_drop before.length hs
        rwa [List.drop_left] at this
    obtain ⟨c', _, hc'⟩ := switches_go ops es1 before hf1 es2' [] .initial done_initial hstop
      (fun j hj => hin j (by simp [hj]))
    rw [hc']
    cases hf2 with
    | @cons _ e _ es2 hi _ =>
      constructor
      · rintro rfl
        simp only [playerSwitches]
        rw [if_pos (by rw [hi.1]; decide)]
      · rintro c hcc
        obtain ⟨r, x, y⟩ := e
        have hq : r ≠ charInt ch%'h' ∧ playerSwitch c' ⟨r, x, y⟩ = .ok none ∧ x = c := by
          rcases hcc with rfl | rfl | ⟨rfl, rfl⟩ | ⟨a, rfl, rfl⟩
          · obtain ⟨rfl, rfl⟩ := hi
            exact ⟨by decide, rfl, rfl⟩
          · obtain ⟨rfl, rfl⟩ := hi
            exact ⟨by decide, rfl, rfl⟩
          · obtain ⟨e1, e2, e3⟩ := hi
            dsimp only at e1 e2
            subst e1 e2
            exact ⟨by decide, rfl, rfl⟩
          · obtain ⟨e1, e2, e3⟩ := hi
            dsimp only at e1 e2
            subst e1 e2
            exact ⟨by decide, rfl, rfl⟩
        simp only [playerSwitches]
        rw [if_neg hq.1, hq.2.1, Outcome.bind_ok, hq.2.2]
        rfl
  · intro hstop
    obtain ⟨c', hd, hc'⟩ := switches_go ops es items hs [] [] .initial done_initial hstop hin
    rw [List.append_nil] at hc'
    rw [hc']
    constructor
    · rintro rfl
      rfl
    · intro hne
      refine ⟨c', _, ?_, done_describes (by simpa using hd) (fun d a hm => ((hin _ hm).2 d a rfl).2), Environ.C94_arguments_partial ops hne⟩
      simp only [playerSwitches]
      rw [if_neg hne]

/-- A command line with switches and a command. -/
example : Reads playerOptions [b!"-dVa.avi", b!"-t", b!"5", b!"--", b!"run", b!"-x"]
      [.flag ch%'d', .value ch%'V' b!"a.avi", .value ch%'t' b!"5"] [b!"run", b!"-x"] ∧
    ∀ j ∈ [Item.flag ch%'d', .value ch%'V' b!"a.avi", .value ch%'t' b!"5"], ¬ Stops j := by
  refine ⟨?_, ?_⟩
  · exact .attached b!"d" [.flag ch%'d'] ch%'V' b!"a.avi" _ _ _ (.cons _ _ _ _ (.flag _ (by decide)) .nil) (by decide) (by decide)
      (.separate [] [] ch%'t' b!"5" _ _ _ .nil (by decide) (by decide) (.dashes _))
  · intro j hj
    simp only [List.mem_cons, List.not_mem_nil, or_false] at hj
    rcases hj with rfl | rfl | rfl <;> (rintro (h | ⟨c, h⟩ | ⟨c, h⟩ | h | ⟨a, h⟩) <;> cases h)

/-- The full claim of C151 is false: the switch `-g` is described in the help, but every command line in which it comes before anything else that stops the
program is refused as having an unknown switch. -/
theorem C151_window_false : (ch%'g', false) ∈ playerHelp ∧
    ∀ (argv : List Str) (before after : List Item) (ops : List Str), (∀ w ∈ argv, (0 : Byte) ∉ w) →
      Reads playerOptions (argv.drop 1) (before ++ .flag ch%'g' :: after) ops → (∀ j ∈ before, ¬ Stops j) →
      playerStart argv = .ok (.error b!"Unknown switch -g") := by
  refine ⟨by decide, fun argv before after ops h0 hr hb => ?_⟩
  exact ((C151_settings_partial argv h0 _ ops hr).1 before _ after rfl hb).2 ch%'g' (.inr (.inr (.inl ⟨rfl, rfl⟩)))

/-- The command line that the help suggests. -/
example : Reads playerOptions [b!"-g", b!"--", b!"run"] ([] ++ .flag ch%'g' :: []) [b!"run"] :=
  .group b!"g" [.flag ch%'g'] _ _ _ (.cons _ _ _ _ (.flag _ (by decide)) .nil) (by decide) (by decide) (.dashes _)

/-! ## C149 -/

variable {κ μ σ : Type}

/-- A tracker process that was never started. -/
def Untouched (s : Proc.State σ) : Prop := s.process = none ∧ s.client = none ∧ s.next = 0 ∧ s.log = []

theorem turn_untouched (W : Proc.World σ) (s : Proc.State σ) (h : Untouched s) : ∃ s', Proc.watchdogTurn W s = .ok s' ∧ Untouched s' ∧
    s' = { s with world := (W.callback s.world).2, armed := false } := by
  obtain ⟨h1, h2, h3, h4⟩ := h
  refine ⟨_, ?_, ?_, rfl⟩
  · unfold Proc.watchdogTurn Proc.processRunning Proc.stopProcess
    rw [h1]
    dsimp only
    rw [h1]
    rfl
  · exact ⟨h1, h2, h3, h4⟩

theorem idle_untouched (W : Proc.World σ) : ∀ (n : Nat) (s : Proc.State σ), Untouched s → ∃ s', idle W n s = .ok s' ∧ Untouched s' := by
  intro n
  induction n with
  | zero => intro s h; exact ⟨s, rfl, h⟩
  | succ n ih =>
    intro s h
    obtain ⟨s1, e1, u1, _⟩ := turn_untouched W s h
    obtain ⟨s2, e2, u2⟩ := ih s1 u1
    refine ⟨s2, ?_, u2⟩
    show (Proc.watchdogTurn W s).bind (idle W n) = _
    rw [e1]
    exact e2

theorem ready_untouched (W : Proc.World σ) (s : Proc.State σ) (h : Untouched s) : Proc.ready W s = .ok (false, s) := by
  unfold Proc.ready Proc.processRunning
  rw [h.1]

/-- What the loop does with a process that was never started. -/
theorem rounds_untouched (E : Around κ μ σ) (c : PlaySettings) (length : Int) (fuel n : Nat) (frame : Int) (reader : κ) (image : μ)
    (s : Proc.State σ) (h : Untouched s) : ∃ s', Untouched s' ∧ rounds E c length (fuel + 1) n frame reader image s =
      .ok (if (readFrame E reader frame image).1 then
        match chooseRegion (E.user n) with
        | none => .asking s'
        | some region => if Region.getType region = 0 then .exit 0 none (some s')
          else .exit (-1) (some b!"Tracker process not alive anymore.") (some s')
        else .exit 0 none (some s')) := by
  rcases hf : readFrame E reader frame image with ⟨_ | _, im, rd⟩
  · refine ⟨s, h, ?_⟩
    simp only [rounds, hf]
    rfl
  · obtain ⟨s', e, u⟩ := idle_untouched E.world (E.turns n) s h
    refine ⟨s', u, ?_⟩
    simp only [rounds, hf, e, Outcome.bind_ok]
    rcases chooseRegion (E.user n) with _ | region
    · rfl
    · dsimp only
      split
      · rfl
      · rw [ready_untouched E.world s' u]
        rfl

theorem untouched_fresh (w : σ) : Untouched (Proc.State.fresh w) := ⟨rfl, rfl, rfl, rfl⟩

/-- The full claim of C149 is false: whatever the command line, the video, the user, the operating system and the tracker do, `traxplayer` creates no process,
and there is no exchange with a tracker. -/
theorem C149_played_false (E : Around κ μ σ) (fuel : Nat) (argv : List Str) (r : Ended σ)
    (h : playerMain E (fuel + 1) argv = .ok r) :
    r ≠ .playing ∧
    (∀ status message s, r = .exit status message (some s) → s.next = 0 ∧ s.process = none ∧ s.log = []) ∧
    ∀ s, r = .asking s → s.next = 0 ∧ s.process = none ∧ s.log = [] := by
  unfold playerMain at h
  rcases hs : playerStart argv with (code | message | ⟨c, command⟩) | _ | _ <;> rw [hs] at h
  · injection h with h
    subst h
    exact ⟨(fun h => nomatch h), (fun _ _ _ h => nomatch h), (fun _ h => nomatch h)⟩
  · injection h with h
    subst h
    exact ⟨(fun h => nomatch h), (fun _ _ _ h => nomatch h), (fun _ h => nomatch h)⟩
  · rw [Outcome.bind_ok] at h
    dsimp only at h
    split at h
    · injection h with h
      subst h
      exact ⟨(fun h => nomatch h), (fun _ _ _ h => nomatch h), (fun _ h => nomatch h)⟩
    · next w _ =>
      obtain ⟨s', u, e⟩ := rounds_untouched E c (E.length (E.video c.video)) fuel 0 0 (E.video c.video) E.noPicture _ (untouched_fresh w)
      rw [e] at h
      injection h with h
      obtain ⟨u1, u2, u3, u4⟩ := u
      subst h
      split
      · rcases chooseRegion (E.user 0) with _ | region
        · exact ⟨(fun h => nomatch h), (fun _ _ _ h => nomatch h), (fun _ h => by cases h; exact ⟨u3, u1, u4⟩)⟩
        · dsimp only
          split
          · exact ⟨(fun h => nomatch h), (fun _ _ _ h => by cases h; exact ⟨u3, u1, u4⟩), (fun _ h => nomatch h)⟩
          · exact ⟨(fun h => nomatch h), (fun _ _ _ h => by cases h; exact ⟨u3, u1, u4⟩), (fun _ h => nomatch h)⟩
      · exact ⟨(fun h => nomatch h), (fun _ _ _ h => by cases h; exact ⟨u3, u1, u4⟩), (fun _ h => nomatch h)⟩
  · exact nomatch h
  · exact nomatch h

/-- **C149** (partial): how a run of `traxplayer` ends when the command line is in order: with 0 when the video has no first frame, and when the user confirms
without a region; it goes on as long as the user has not confirmed; and as soon as the user confirms a region, it ends with -1 and an error. Missing: playing the video (`C149_played_false`). -/
theorem C149_ends_partial (E : Around κ μ σ) (fuel : Nat) (argv : List Str) (h0 : ∀ w ∈ argv, (0 : Byte) ∉ w) (items : List Item) (ops : List Str)
    (hr : Reads playerOptions (argv.drop 1) items ops) (hstop : ∀ j ∈ items, ¬ Stops j) (hops : ops ≠ [])
    (hstart : ∀ command environment timeout connection verbosity, (E.start command environment timeout connection verbosity).isSome)
    (reader : κ) (hv : reader = E.video (lastGiven ch%'V' items b!"input.avi")) (hpos : E.position reader = 0) :
    (E.empty (E.read reader).1 = true → ∃ s, playerMain E (fuel + 1) argv = .ok (.exit 0 none s)) ∧
    (E.empty (E.read reader).1 = false →
      ((∀ a ∈ acts (E.user 0), ¬ a.Key ch%' ') → ∃ s, playerMain E (fuel + 1) argv = .ok (.asking s)) ∧
      ∀ done confirm rest, acts (E.user 0) = done ++ confirm :: rest → confirm.Key ch%' ' →
        (Dropped done → ∃ s, playerMain E (fuel + 1) argv = .ok (.exit 0 none s)) ∧
        (∀ x1 y1 x2 y2, Dragged done x1 y1 x2 y2 →
          ∃ s, playerMain E (fuel + 1) argv = .ok (.exit (-1) (some b!"Tracker process not alive anymore.") s))) := by
  obtain ⟨c, command, hs, hd, _⟩ := ((C151_settings_partial argv h0 items ops hr).2 hstop).2 hops
  obtain ⟨w, hw⟩ := Option.isSome_iff_exists.mp (hstart command c.environment c.timeout c.connection c.verbosity)
  rw [← hd.video] at hv
  subst hv
  have hmain : playerMain E (fuel + 1) argv =
      rounds E c (E.length (E.video c.video)) (fuel + 1) 0 0 (E.video c.video) E.noPicture (.fresh w) := by
    unfold playerMain
    rw [hs, Outcome.bind_ok]
    dsimp only
    rw [hw]
  obtain ⟨s', _, e⟩ := rounds_untouched E c (E.length (E.video c.video)) fuel 0 0 (E.video c.video) E.noPicture _ (untouched_fresh w)
  have hread : (readFrame E (E.video c.video) 0 E.noPicture).1 = !E.empty (E.read (E.video c.video)).1 := by
    unfold readFrame
    dsimp only
    rw [hpos, if_neg (by decide)]
    rfl
  rw [hread] at e
  rw [hmain, e]
  constructor
  · intro hem
    rw [hem]
    exact ⟨_, rfl⟩
  · intro hem
    rw [hem]
    refine ⟨fun hk => ?_, fun done confirm rest ha hc => ⟨fun hd => ?_, fun x1 y1 x2 y2 hd => ?_⟩⟩
    · rw [C150_cancel_false _ hk]
      exact ⟨_, rfl⟩
    · rw [C150_dropped_partial _ done rest confirm ha hc hd]
      exact ⟨_, rfl⟩
    · obtain ⟨before, between, after, rfl, hb, haf, hk⟩ := hd
      have e := choose_confirm ha hc hk
      rw [List.append_assoc, List.foldl_append, List.cons_append, List.foldl_cons, List.foldl_append, List.foldl_cons, fold_region _ haf] at e
      rw [e]
      exact ⟨_, rfl⟩

/-- A video of three frames, a user who drags a rectangle and confirms it, and a tracker that would do everything it is asked. -/
def demo : Around Nat Nat Unit where
  video _ := 0
  length _ := 3
  position r := r
  read r := (if r < 3 then r + 1 else 0, r + 1)
  empty m := m == 0
  noPicture := 0
  user _ := [⟨[.down 10 20, .up 40 60], -1⟩, ⟨[], 32⟩]
  jpeg _ := [1]
  memory _ := .ok none
  start _ _ _ _ _ := some ()
  world := {
    spawn := fun _ => (true, ()), poll := fun _ => (.running, ()), connect := fun _ => (some 4, ()), alive := fun _ => (true, ()),
    exchange := fun e _ => (if e = .wait then 5 else 0, ()), callback := fun _ => (false, ()), expired := fun _ => (false, ()),
    turn := fun _ _ => (false, ()) }
  formats _ := 8
  tell _ _ _ := ()
  turns _ := 100

/-- It meets the hypotheses of `C149_ends_partial`. -/
example : (∀ command environment timeout connection verbosity, (demo.start command environment timeout connection verbosity).isSome) ∧
    demo.position (demo.video b!"input.avi") = 0 ∧ demo.empty (demo.read 0).1 = false ∧
    acts (demo.user 0) = [.mouse (.down 10 20), .mouse (.up 40 60), .key (-1)] ++ .key 32 :: [] ∧
    Dragged [.mouse (.down 10 20), .mouse (.up 40 60), .key (-1)] 10 20 40 60 := by
  refine ⟨fun _ _ _ _ _ => rfl, rfl, rfl, rfl, [], [], [.key (-1)], rfl, by simp, ?_, ?_⟩
  · intro a ha
    simp only [List.mem_singleton] at ha
    subst ha
    exact ⟨(by rintro ⟨x, y, h⟩; cases h), (by rintro ⟨k, h, hk⟩; cases h; exact absurd hk (by decide))⟩
  · intro a ha
    simp only [List.mem_cons, List.not_mem_nil, or_false] at ha
    rcases ha with rfl | rfl | rfl <;>
      (rintro ⟨k, h, hk⟩; first | cases h; done | (cases h; exact absurd hk (by decide)))

end Trax.Player
