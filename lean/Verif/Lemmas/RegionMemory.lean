import Verif.Spec.RegionMemory
import Verif.Lemmas.CMemory
import Verif.Lemmas.RegionApi

/-!
# The blocks of regions
-/

namespace Trax
namespace RegMem

open CMem

variable {α β : Type} {own rest : Multiset Nat}

theorem bind_iff {x : Outcome α} {f : α → Outcome β} {b : β} : x.bind f = .ok b ↔ ∃ a, x = .ok a ∧ f a = .ok b := by
  cases x <;> simp [Outcome.bind]

theorem map_iff {x : Outcome α} {f : α → β} {b : β} : x.map f = .ok b ↔ ∃ a, x = .ok a ∧ f a = b := by
  cases x <;> simp [Outcome.map, Outcome.bind]

theorem use_bind {p : Ptr} {g : Unit → Prog α} {o : Res β} {Q} (he : own = {p} + rest) (h : Does own (g ()) o Q) :
    Does own (use p >>= g) o Q := by
  intro m fr hm hl
  have hp : p ∈ m.live := by
    have : p ∈ (m.live : Multiset Nat) := by rw [hl, he]; simp
    exact this
  have hu : use p m = .ok ((), m) := by simp [use, hp]
  have := h m fr hm hl
  rw [bind_apply, hu]
  exact this

theorem use_last {p : Ptr} {Q : Unit → Unit → Multiset Nat → Prop} (he : own = {p} + rest) (h : Q () () own) :
    Does own (use p) (.ok ()) Q := by
  rw [← bind_pure' (use p)]
  exact use_bind he (Does.pure h)

theorem look_bind {a : At} {g : Unit → Prog α} {o : Res β} {Q} (he : own = a.blocks + rest) (h : Does own (g ()) o Q) :
    Does own (look a >>= g) o Q := by
  have key : Does a.blocks (look a) (.ok ()) fun _ _ w => w = a.blocks := by
    obtain ⟨self, shape⟩ := a
    cases shape with
    | special => exact use_bind (rest := 0) (by simp [At.blocks]) (Does.pure rfl)
    | rectangle => exact use_bind (rest := 0) (by simp [At.blocks]) (Does.pure rfl)
    | polygon x y =>
      refine use_bind (rest := {x} + {y}) (by simp only [At.blocks]; abel) ?_
      refine use_bind (rest := {self} + {y}) (by simp only [At.blocks]; abel) ?_
      exact use_last (rest := {self} + {x}) (by simp only [At.blocks]; abel) rfl
    | mask data =>
      refine use_bind (rest := {data}) (by simp only [At.blocks]) ?_
      exact use_last (rest := {self}) (by simp only [At.blocks]; abel) rfl
  refine Does.seq_frame rest key he ?_
  rintro _ w rfl
  exact h.cast he.symm

theorem release_bind {a : At} {g : Unit → Prog α} {o : Res β} {Q} (he : own = a.blocks + rest) (h : Does rest (g ()) o Q) :
    Does own (release a >>= g) o Q := by
  have key : Does a.blocks (release a) (.ok ()) fun _ _ w => w = 0 := by
    obtain ⟨self, shape⟩ := a
    cases shape with
    | special => exact use_bind (rest := 0) (by simp [At.blocks]) (Does.free_last (rest := 0) (by simp [At.blocks]) rfl)
    | rectangle => exact use_bind (rest := 0) (by simp [At.blocks]) (Does.free_last (rest := 0) (by simp [At.blocks]) rfl)
    | polygon x y =>
      refine use_bind (rest := {x} + {y}) (by simp only [At.blocks]; abel) ?_
      refine Does.free (rest := {self} + {y}) (by simp only [At.blocks]; abel) ?_
      refine Does.free (rest := {self}) (by abel) ?_
      exact Does.free_last (rest := 0) (by abel) rfl
    | mask data =>
      refine use_bind (rest := {data}) (by simp only [At.blocks]) ?_
      refine Does.free (rest := {self}) (by simp only [At.blocks]; abel) ?_
      exact Does.free_last (rest := 0) (by abel) rfl
  refine Does.seq_frame rest key he ?_
  rintro _ w rfl
  exact h.cast (by abel)

theorem createMask_bind {g : At × Ptr → Prog α} {o : Res β} {Q}
    (h : ∀ self data : Ptr, Does ({self} + {data} + own) (g (⟨self, .mask data⟩, data)) o Q) : Does own (createMask >>= g) o Q := by
  have : (createMask >>= g) = (new >>= fun a => new >>= fun b => g (⟨a, .mask b⟩, b)) := rfl
  rw [this]
  exact Does.new fun a => Does.new fun b => (h a b).cast (by abel)

theorem createPolygon_bind {g : At → Prog α} {o : Res β} {Q}
    (h : ∀ self x y : Ptr, Does ({self} + {x} + {y} + own) (g ⟨self, .polygon x y⟩) o Q) : Does own (createPolygon >>= g) o Q := by
  have : (createPolygon >>= g) = (new >>= fun a => new >>= fun b => new >>= fun c => g ⟨a, .polygon b c⟩) := rfl
  rw [this]
  exact Does.new fun a => Does.new fun b => Does.new fun c => (h a b c).cast (by abel)

theorem createPlain_bind {s : Shape} {g : At → Prog α} {o : Res β} {Q}
    (h : ∀ self : Ptr, Does ({self} + own) (g ⟨self, s⟩) o Q) : Does own (createPlain s >>= g) o Q := by
  have : (createPlain s >>= g) = (new >>= fun a => g ⟨a, s⟩) := rfl
  rw [this]
  exact Does.new h

theorem clonePolygon_bind {x y : Ptr} {g : Ptr × Ptr → Prog α} {o : Res β} {Q} (he : own = {x} + {y} + rest)
    (h : ∀ p : Ptr × Ptr, Does ({p.1} + {p.2} + own) (g p) o Q) : Does own (clonePolygon x y >>= g) o Q := by
  have key : Does own (clonePolygon x y) (.ok ()) fun p _ w => w = {p.1} + {p.2} + own := by
    refine Does.new fun a => Does.new fun b => ?_
    refine use_bind (rest := {b} + {a} + {y} + rest) (by rw [he]; abel) ?_
    refine use_bind (rest := {b} + {a} + {x} + rest) (by rw [he]; abel) ?_
    exact Does.pure (by dsimp only; abel)
  refine Does.seq key ?_
  rintro p w rfl
  exact h p

theorem freePolygon_bind {p : Ptr × Ptr} {g : Unit → Prog α} {o : Res β} {Q} (he : own = {p.1} + {p.2} + rest)
    (h : Does rest (g ()) o Q) : Does own (freePolygon p >>= g) o Q := by
  have key : Does ({p.1} + {p.2}) (freePolygon p) (.ok ()) fun _ _ w => w = 0 :=
    Does.free (rest := {p.2}) rfl (Does.free_last (rest := 0) (by abel) rfl)
  refine Does.seq_frame rest key he ?_
  rintro _ w rfl
  exact h.cast (by abel)

theorem rasterize_bind {legacy : Bool} {p : Ptr × Ptr} {target : Ptr} {g : Unit → Prog α} {o : Res β} {Q}
    (he : own = {p.1} + {p.2} + {target} + rest) (h : Does own (g ()) o Q) : Does own (rasterize legacy p target >>= g) o Q := by
  have key : Does own (rasterize legacy p target) (.ok ()) fun _ _ w => w = own := by
    refine Does.new fun nodes => ?_
    refine use_bind (rest := {nodes} + {p.1} + {p.2} + rest) (by rw [he]; abel) ?_
    cases legacy with
    | true =>
      refine use_bind (rest := {nodes} + {target} + {p.2} + rest) (by rw [he]; abel) ?_
      refine use_bind (rest := {nodes} + {target} + {p.1} + rest) (by rw [he]; abel) ?_
      exact Does.free_last (rest := own) rfl rfl
    | false =>
      refine clonePolygon_bind (rest := {nodes} + {target} + rest) (by rw [he]; abel) fun q => ?_
      refine freePolygon_bind (rest := {nodes} + own) rfl ?_
      exact Does.free_last (rest := own) rfl rfl
  refine Does.seq key ?_
  rintro _ w rfl
  exact h

theorem getMask_bind {legacy : Bool} {a : At} {target : Ptr} {g : Unit → Prog α} {o : Res β} {Q} (hs : a.shape ≠ .special)
    (he : own = a.blocks + ({target} + rest)) (h : Does own (g ()) o Q) : Does own (getMask legacy a target >>= g) o Q := by
  have key : Does own (getMask legacy a target) (.ok ()) fun _ _ w => w = own := by
    obtain ⟨self, shape⟩ := a
    cases shape with
    | special => exact absurd rfl hs
    | mask data =>
      refine use_bind (rest := {self} + {target} + rest) (by rw [he]; simp only [At.blocks]; abel) ?_
      exact use_last (rest := {self} + {data} + rest) (by rw [he]; simp only [At.blocks]; abel) rfl
    | polygon x y =>
      refine clonePolygon_bind (rest := {self} + {target} + rest) (by rw [he]; simp only [At.blocks]; abel) fun p => ?_
      refine rasterize_bind (rest := {self} + {x} + {y} + rest) (by rw [he]; simp only [At.blocks]; abel) ?_
      rw [← bind_pure' (freePolygon p)]
      exact freePolygon_bind (rest := own) rfl (Does.pure rfl)
    | rectangle =>
      have e : getMask legacy ⟨self, .rectangle⟩ target =
          (new >>= fun s => look ⟨self, .rectangle⟩ >>= fun _ => new >>= fun x => new >>= fun y =>
            clonePolygon x y >>= fun p => release ⟨s, .polygon x y⟩ >>= fun _ => rasterize legacy p target >>= fun _ =>
            freePolygon p) := by
        funext m
        simp only [getMask, toPolygon, bind_apply, new]
        cases look ⟨self, .rectangle⟩ _ <;> rfl
      rw [e]
      refine Does.new fun s => ?_
      refine look_bind (rest := {s} + ({target} + rest)) (by rw [he]; abel) ?_
      refine Does.new fun x => Does.new fun y => ?_
      refine clonePolygon_bind (rest := {s} + own) (by abel) fun p => ?_
      refine release_bind (rest := {p.1} + {p.2} + own) (by simp only [At.blocks]; abel) ?_
      refine rasterize_bind (rest := {self} + rest) (by rw [he]; simp only [At.blocks]; abel) ?_
      rw [← bind_pure' (freePolygon p)]
      exact freePolygon_bind (rest := own) rfl (Does.pure rfl)
  refine Does.seq key ?_
  rintro _ w rfl
  exact h

/-! ## Conversion -/

/-- The blocks of a region that may be NULL. -/
def optBlocks : Option At → Multiset Nat
  | none => 0
  | some a => a.blocks

/-- The same for both, NULL or of the same type. -/
def SameOpt : Option At → Option Region → Prop
  | none, none => True
  | some a, some r => SameType a r
  | _, _ => False

/-- How many blocks a conversion forgets. -/
def forgets (r : Region) (type : RegionType) : Nat :=
  match r, type with
  | .polygon _, .mask => 1
  | _, _ => 0

theorem same_shape {a : At} {r : Region} (h : SameType a r) :
    match r with
    | .special _ => a.shape = .special
    | .rectangle .. => a.shape = .rectangle
    | .polygon _ => ∃ x y, a.shape = .polygon x y
    | .mask .. => ∃ d, a.shape = .mask d := by
  obtain ⟨self, shape⟩ := a
  cases r <;> cases shape <;> simp [SameType] at h ⊢

theorem convert_does {g : Setting} {a : At} {r : Region} {type : RegionType} {r' : Option Region} (hs : SameType a r)
    (hc : Region.convert g.legacy g.fresh r type = .ok r') :
    Does a.blocks (convert g.legacy a type) (.ok ()) fun a' _ w => SameOpt a' r' ∧
      ∃ lost : Multiset Nat, w = optBlocks a' + a.blocks + lost ∧ lost.card = forgets r type := by
  obtain ⟨self, shape⟩ := a
  cases type with
  | empty =>
    simp only [Region.convert, Outcome.ok.injEq] at hc
    subst hc
    exact Does.pure ⟨trivial, 0, by simp [optBlocks], by cases r <;> rfl⟩
  | special =>
    have : SameOpt (some ⟨0, .special⟩) r' := by
      cases r <;> simp only [Region.convert, Outcome.ok.injEq] at hc <;> subst hc <;> trivial
    refine look_bind (rest := 0) (by abel) ?_
    refine createPlain_bind fun p => Does.pure ⟨?_, 0, by simp [optBlocks, At.blocks], by cases r <;> rfl⟩
    cases r' with
    | none => exact this.elim
    | some r' => cases r' <;> exact this
  | rectangle =>
    refine Does.new fun p => look_bind (rest := {p}) (by abel) ?_
    cases r with
    | special c =>
      obtain rfl : shape = .special := same_shape hs
      simp only [Region.convert, Outcome.ok.injEq] at hc
      subst hc
      exact Does.free rfl (Does.pure ⟨trivial, 0, by simp [optBlocks], rfl⟩)
    | rectangle x y w h =>
      obtain rfl : shape = .rectangle := same_shape hs
      simp only [Region.convert, Outcome.ok.injEq] at hc
      subst hc
      exact Does.pure ⟨trivial, 0, by simp [optBlocks, At.blocks], rfl⟩
    | polygon ps =>
      obtain ⟨u, v, h⟩ := same_shape hs
      obtain rfl : shape = .polygon u v := h
      simp only [Region.convert, Outcome.ok.injEq] at hc
      subst hc
      exact Does.pure ⟨trivial, 0, by simp [optBlocks, At.blocks], rfl⟩
    | mask x y w h d =>
      obtain ⟨u, e⟩ := same_shape hs
      obtain rfl : shape = .mask u := e
      obtain ⟨b, _, rfl⟩ := map_iff.1 hc
      exact Does.pure ⟨trivial, 0, by simp [optBlocks, At.blocks], rfl⟩
  | polygon =>
    refine Does.new fun p => look_bind (rest := {p}) (by abel) ?_
    cases r with
    | special c =>
      obtain rfl : shape = .special := same_shape hs
      simp only [Region.convert, Outcome.ok.injEq] at hc
      subst hc
      exact Does.free rfl (Does.pure ⟨trivial, 0, by simp [optBlocks], rfl⟩)
    | rectangle x y w h =>
      obtain rfl : shape = .rectangle := same_shape hs
      simp only [Region.convert, Outcome.ok.injEq] at hc
      subst hc
      exact Does.new fun u => Does.new fun v =>
        Does.pure ⟨trivial, 0, by simp only [optBlocks, At.blocks]; abel, rfl⟩
    | polygon ps =>
      obtain ⟨u, v, h⟩ := same_shape hs
      obtain rfl : shape = .polygon u v := h
      simp only [Region.convert, Outcome.ok.injEq] at hc
      subst hc
      refine clonePolygon_bind (rest := {p} + {self}) (by simp only [At.blocks]; abel) fun q => ?_
      exact Does.pure ⟨trivial, 0, by simp only [optBlocks, At.blocks]; abel, rfl⟩
    | mask x y w h d =>
      obtain ⟨u, e⟩ := same_shape hs
      obtain rfl : shape = .mask u := e
      obtain ⟨b, _, rfl⟩ := map_iff.1 hc
      exact Does.new fun u => Does.new fun v =>
        Does.pure ⟨trivial, 0, by simp only [optBlocks, At.blocks]; abel, rfl⟩
  | mask =>
    refine look_bind (rest := 0) (by abel) ?_
    cases r with
    | special c =>
      obtain rfl : shape = .special := same_shape hs
      simp only [Region.convert, Outcome.ok.injEq] at hc
      subst hc
      exact Does.pure ⟨trivial, 0, by simp [optBlocks], rfl⟩
    | rectangle x y w h =>
      obtain rfl : shape = .rectangle := same_shape hs
      simp only [Region.convert, bind_iff, map_iff] at hc
      obtain ⟨_, _, _, _, _, _, _, _, _, _, _, _, rfl⟩ := hc
      refine createMask_bind fun u v => ?_
      refine use_bind (rest := {u} + {self}) (by simp only [At.blocks]; abel) ?_
      exact Does.pure ⟨trivial, 0, by simp only [optBlocks, At.blocks]; abel, rfl⟩
    | polygon ps =>
      obtain ⟨p, q, h⟩ := same_shape hs
      obtain rfl : shape = .polygon p q := h
      simp only [Region.convert, bind_iff, map_iff] at hc
      obtain ⟨_, _, _, _, _, _, _, _, _, _, _, _, rfl⟩ := hc
      refine Does.new fun l => createMask_bind fun u v => ?_
      refine getMask_bind (rest := {u} + {l}) (by simp) (by abel) ?_
      exact Does.pure ⟨trivial, {l}, by simp only [optBlocks, At.blocks]; abel, rfl⟩
    | mask x y w h d =>
      obtain ⟨p, e⟩ := same_shape hs
      obtain rfl : shape = .mask p := e
      simp only [Region.convert, bind_iff] at hc
      obtain ⟨_, _, n, _, hc⟩ := hc
      have : ∃ d', r' = some (.mask x y w h d') := by
        split at hc
        · cases hc; exact ⟨_, rfl⟩
        · cases hc
      obtain ⟨d', rfl⟩ := this
      refine createMask_bind fun u v => ?_
      refine use_bind (rest := {u} + ({self} + {p})) (by simp only [At.blocks]; abel) ?_
      exact Does.pure ⟨trivial, 0, by simp only [optBlocks, At.blocks]; abel, rfl⟩

/-! ## Overlap, texts -/

theorem getMaskOffset_shape {legacy : Bool} {a : At} {r : Region} (hs : SameType a r) {buf : List UInt8} {x y w h : Int} {d : List UInt8}
    (hm : Region.getMaskOffset legacy r buf x y w h = .ok d) : a.shape ≠ .special := by
  obtain ⟨self, shape⟩ := a
  rintro rfl
  cases r <;> simp [SameType, Region.getMaskOffset] at hs hm

theorem overlap_early {legacy : Bool} {fresh : Nat → List UInt8} {a b : At} {ra rb : Region} {bounds : Bounds} {o : Region.Overlap}
    (ha : SameType a ra) (hb : SameType b rb) (ho : Region.computeOverlap legacy fresh ra rb bounds = .ok o) :
    ∃ early, tooSmall legacy ra rb bounds = .ok early ∧ (early = false → a.shape ≠ .special ∧ b.shape ≠ .special) := by
  simp only [Region.computeOverlap, bind_iff] at ho
  obtain ⟨b1, h1, b2, h2, x, hx, y, hy, w, hw, h, hh, ho⟩ := ho
  refine ⟨(b1.area.widen.divD b2.area.widen).lt Region.tiny || (b2.area.widen.divD b1.area.widen).lt Region.tiny ||
    decide (w < 1) || decide (h < 1), ?_, ?_⟩
  · simp only [tooSmall, bind_iff, map_iff]
    exact ⟨b1, h1, b2, h2, x, hx, y, hy, w, hw, h, hh, rfl⟩
  · intro he
    rw [if_neg (by rw [he]; simp)] at ho
    split at ho
    · simp only [Region.disjointOverlap, bind_iff] at ho
      obtain ⟨_, _, _, _, _, _, _, _, _, _, _, _, _, _, _, _, _, _, _, _, _, m1, _, m2, _⟩ := ho
      exact ⟨getMaskOffset_shape ha m1, getMaskOffset_shape hb m2⟩
    · simp only [Region.commonOverlap, bind_iff] at ho
      obtain ⟨_, _, _, m1, _, m2, _⟩ := ho
      exact ⟨getMaskOffset_shape ha m1, getMaskOffset_shape hb m2⟩

theorem overlap_bind {legacy early : Bool} {a b : At} {ra rb : Multiset Nat} {g : Unit → Prog α} {o : Res β} {Q}
    (hs : early = false → a.shape ≠ .special ∧ b.shape ≠ .special) (ha : own = a.blocks + ra) (hb : own = b.blocks + rb)
    (h : Does own (g ()) o Q) : Does own (overlap legacy a b early >>= g) o Q := by
  have key : Does own (overlap legacy a b early) (.ok ()) fun _ _ w => w = own := by
    refine look_bind ha (look_bind hb ?_)
    cases early with
    | true => exact Does.pure rfl
    | false =>
      obtain ⟨h1, h2⟩ := hs rfl
      refine createMask_bind fun u v => createMask_bind fun w x => ?_
      refine getMask_bind (rest := {u} + {w} + {x} + ra) h1 (by rw [ha]; abel) ?_
      refine getMask_bind (rest := {u} + {w} + {v} + rb) h2 (by rw [hb]; abel) ?_
      refine use_bind (rest := {u} + {w} + {x} + own) (by abel) ?_
      refine use_bind (rest := {u} + {w} + {v} + own) (by abel) ?_
      refine release_bind (rest := {w} + {x} + own) (by simp only [At.blocks]; abel) ?_
      rw [← bind_pure' (release _)]
      exact release_bind (rest := own) (by simp only [At.blocks]) (Does.pure rfl)
  refine Does.seq key ?_
  rintro _ w rfl
  exact h

theorem place_bind {r : Region} {g : At → Prog α} {o : Res β} {Q} (h : ∀ a, SameType a r → Does (a.blocks + own) (g a) o Q) :
    Does own (place r >>= g) o Q := by
  have key : Does 0 (place r) (.ok ()) fun a _ w => SameType a r ∧ w = a.blocks := by
    cases r with
    | special c =>
      rw [← bind_pure' (place _)]
      exact createPlain_bind fun p => Does.pure ⟨trivial, by simp [At.blocks]⟩
    | rectangle x y w h =>
      rw [← bind_pure' (place _)]
      exact createPlain_bind fun p => Does.pure ⟨trivial, by simp [At.blocks]⟩
    | polygon ps =>
      rw [← bind_pure' (place _)]
      exact createPolygon_bind fun p q r => Does.pure ⟨trivial, by simp [At.blocks]⟩
    | mask x y w h d =>
      refine createMask_bind fun p q => ?_
      refine use_bind (rest := {p}) (by abel) ?_
      exact Does.pure ⟨trivial, by simp [At.blocks]⟩
  refine Does.seq_frame own key (by abel) ?_
  rintro a w ⟨hs, rfl⟩
  exact h a hs

theorem parse_bind {text : Str} {r : Option Region} {g : Option At → Prog α} {o : Res β} {Q} (hr : text = [] → r = none)
    (h : ∀ a, SameOpt a r → Does (optBlocks a + own) (g a) o Q) : Does own (parse text r >>= g) o Q := by
  have key : Does 0 (parse text r) (.ok ()) fun a _ w => SameOpt a r ∧ w = optBlocks a := by
    unfold parse
    by_cases ht : text = []
    · rw [if_pos ht, hr ht]
      exact Does.pure ⟨trivial, rfl⟩
    · rw [if_neg ht]
      refine Does.new fun p => Does.new fun q => ?_
      refine use_bind (rest := {q}) (by abel) ?_
      refine Does.free (rest := {q}) (by abel) ?_
      refine use_bind (rest := 0) (by abel) ?_
      cases r with
      | none => exact Does.free (rest := 0) (by abel) (Does.pure ⟨trivial, rfl⟩)
      | some r =>
        refine place_bind fun a ha => ?_
        exact Does.free (rest := a.blocks) (by abel) (Does.pure ⟨ha, rfl⟩)
  refine Does.seq_frame own key (by abel) ?_
  rintro a w ⟨hs, rfl⟩
  exact h a hs

theorem string_bind {a : Option At} {given : Bool} {g : Option Ptr → Prog α} {o : Res β} {Q} (he : own = optBlocks a + rest)
    (hg : a = none → given = false) (h : ∀ p : Option Ptr, p.isSome = given → Does (opt p + own) (g p) o Q) :
    Does own (string a given >>= g) o Q := by
  have key : Does own (string a given) (.ok ()) fun p _ w => p.isSome = given ∧ w = opt p + own := by
    cases a with
    | none => exact Does.pure ⟨(hg rfl).symm, by simp [opt]⟩
    | some a =>
      refine Does.new fun u => Does.new fun v => ?_
      refine look_bind (rest := {v} + {u} + rest) (by rw [he]; simp only [optBlocks]; abel) ?_
      refine use_bind (rest := {u} + own) (by abel) ?_
      refine Does.newIf fun p hp => ?_
      refine Does.free (rest := opt p + {u} + own) (by abel) ?_
      exact Does.free (rest := opt p + own) (by abel) (Does.pure ⟨hp, rfl⟩)
  refine Does.seq key ?_
  rintro p w ⟨hp, rfl⟩
  exact h p hp

/-! ## Programs -/

/-- The variables with memory and as values. -/
structure Same (s : State) (v : Spec.Values) : Prop where
  regions : s.regions.map (Option.map Prod.snd) = v.regions
  texts : s.texts.map Option.isSome = v.texts.map Option.isSome
  types : ∀ a r, some (a, r) ∈ s.regions → SameType a r

theorem Same.slot {s : State} {v : Spec.Values} (h : Same s v) (i : Nat) :
    v.regions[i]? = (s.regions[i]?).map (Option.map Prod.snd) := by
  rw [← h.regions, List.getElem?_map]

theorem regions_held {l : List (Option (At × Region))} {i : Nat} {x : Option (At × Region)} (h : l[i]? = some x)
    (y : Option (At × Region)) : (l.map slotBlocks).sum = slotBlocks x + ((l.set i none).map slotBlocks).sum ∧
      ((l.set i y).map slotBlocks).sum = slotBlocks y + ((l.set i none).map slotBlocks).sum := by
  induction l generalizing i with
  | nil => simp at h
  | cons z l ih =>
    cases i with
    | zero =>
      simp only [List.getElem?_cons_zero, Option.some.injEq] at h
      subst h
      simp [slotBlocks]
    | succ i =>
      simp only [List.getElem?_cons_succ] at h
      obtain ⟨h1, h2⟩ := ih h
      simp only [List.set_cons_succ, List.map_cons, List.sum_cons]
      constructor
      · rw [h1]; abel
      · rw [h2]; abel

theorem texts_held {l : List (Option Ptr)} {i : Nat} {x : Option Ptr} (h : l[i]? = some x) :
    (l.map opt).sum = opt x + ((l.set i none).map opt).sum := by
  induction l generalizing i with
  | nil => simp at h
  | cons z l ih =>
    cases i with
    | zero =>
      simp only [List.getElem?_cons_zero, Option.some.injEq] at h
      subst h
      simp [opt]
    | succ i =>
      simp only [List.getElem?_cons_succ] at h
      simp only [List.set_cons_succ, List.map_cons, List.sum_cons]
      rw [ih h]; abel

theorem held_slot {s : State} {i : Nat} {a : At} {r : Region} (h : s.regions[i]? = some (some (a, r))) :
    ∃ rest, s.held = a.blocks + rest :=
  ⟨_, by rw [State.held, (regions_held h none).1, add_assoc]; rfl⟩

/-- What a call leaves. -/
def After (n : Nat) (x : State × Answer) (y : Spec.Values × Answer) (w : Multiset Nat) : Prop :=
  Same x.1 y.1 ∧ x.2 = y.2 ∧ ∃ lost : Multiset Nat, w = x.1.held + lost ∧ lost.card = n

theorem keep_does {s : State} {v : Spec.Values} (h : Same s v) {a : Option At} {r : Option Region} (hs : SameOpt a r)
    {lost : Multiset Nat} {n : Nat} (hn : lost.card = n) (he : own = optBlocks a + s.held + lost) :
    Does own (s.keep a r >>= fun s => (pure (s, .nothing) : Prog (State × Answer))) (.ok (v.keep r)) (After n) := by
  cases a with
  | none =>
    cases r with
    | some r => exact hs.elim
    | none =>
      refine Does.pure (a := ((⟨s.regions ++ [none], s.texts⟩ : State), Answer.nothing)) ⟨⟨?_, h.texts, ?_⟩, rfl, lost, ?_, hn⟩
      · simp [Spec.Values.keep, h.regions]
      · intro a r hm
        rcases List.mem_append.1 hm with hm | hm
        · exact h.types a r hm
        · simp at hm
      · rw [he]; simp [optBlocks, State.held, slotBlocks]
  | some a =>
    cases r with
    | none => exact hs.elim
    | some r =>
      refine Does.pure (a := ((⟨s.regions ++ [some (a, r)], s.texts⟩ : State), Answer.nothing)) ⟨⟨?_, h.texts, ?_⟩, rfl, lost, ?_, hn⟩
      · simp [Spec.Values.keep, h.regions]
      · intro a' r' hm
        rcases List.mem_append.1 hm with hm | hm
        · exact h.types a' r' hm
        · simp at hm
          obtain ⟨rfl, rfl⟩ := hm
          exact hs
      · rw [he]
        simp only [optBlocks, State.held, slotBlocks, List.map_append, List.map_cons, List.map_nil, List.sum_append, List.sum_cons,
          List.sum_nil]
        abel

theorem convert_keep {g : Setting} {s : State} {v : Spec.Values} (h : Same s v) {i : Nat} {a : At} {r : Region} {type : RegionType}
    (hi : s.regions[i]? = some (some (a, r))) {o : Outcome (Option Region)} (ho : o = Region.convert g.legacy g.fresh r type) :
    Does s.held (outcome o >>= fun r' => convert g.legacy a type >>= fun a' => s.keep a' r' >>= fun s =>
        (pure (s, .nothing) : Prog (State × Answer))) (.of (o.map v.keep)) (After (forgets r type)) := by
  refine Does.outcome fun r' hr => ?_
  have hs : SameType a r := h.types a r (List.mem_of_getElem? hi)
  obtain ⟨rest, he⟩ := held_slot hi
  refine Does.seq_frame rest (convert_does hs (ho ▸ hr)) he ?_
  rintro a' w ⟨ha, lost, rfl, hl⟩
  exact keep_does h ha hl (by rw [he]; abel)

theorem change_type {a : At} {c : Change} {r r' : Region} (hs : SameType a r) (h : c.apply r = .ok r') : SameType a r' := by
  obtain ⟨self, shape⟩ := a
  cases c with
  | setSpecial code =>
    cases r <;> simp [Change.apply, Region.setSpecial] at h
    subst h; cases shape <;> exact hs
  | setRectangle x y w k =>
    cases r <;> simp [Change.apply, Region.setRectangle] at h
    subst h; cases shape <;> exact hs
  | setPoint i x y =>
    cases r <;> simp only [Change.apply, Region.setPolygonPoint] at h <;> try cases h
    split_ifs at h
    cases h; cases shape <;> exact hs
  | writePixel row j px =>
    cases r <;> simp only [Change.apply, Region.writeMaskPixel] at h <;> try cases h
    simp only [bind_iff, map_iff] at h
    obtain ⟨_, _, _, _, rfl⟩ := h
    cases shape <;> exact hs

theorem forgets_same (r : Region) : forgets r (Region.typeBack r.apiType) = 0 := by
  cases r <;> rfl

theorem forgets_typeBack (r : Region) (format : UInt32) :
    forgets r (Region.typeBack format) = if (match r with | .polygon _ => decide (format = 8) | _ => false) then 1 else 0 := by
  by_cases h : format = 8
  · subst h; cases r <;> rfl
  · have : Region.typeBack format ≠ .mask := by
      unfold Region.typeBack
      rw [if_neg h]
      split_ifs <;> simp
    cases r <;> simp only [forgets, decide_eq_false h] <;> (generalize Region.typeBack format = x at this; cases x <;> simp_all)

theorem step_does (g : Setting) {s : State} {v : Spec.Values} (h : Same s v) (op : Op) :
    Does s.held (step g s op) (.of (Spec.step g v op)) (After (if Spec.polygonToMask v op then 1 else 0)) := by
  cases op with
  | special code =>
    exact createPlain_bind fun p => keep_does h (a := some ⟨p, .special⟩) (r := some (.special code)) trivial (lost := 0) rfl (by simp [optBlocks, At.blocks])
  | rectangle x y w k =>
    exact createPlain_bind fun p => keep_does h (a := some ⟨p, .rectangle⟩) (r := some (.rectangle x y w k)) trivial (lost := 0) rfl (by simp [optBlocks, At.blocks])
  | polygon size =>
    refine Does.outcome fun r hr => ?_
    refine createPolygon_bind fun p x y => keep_does h (a := some ⟨p, .polygon x y⟩) ?_ (lost := 0) rfl (by simp [optBlocks, At.blocks])
    unfold Region.createPolygon at hr
    split at hr
    · cases hr; trivial
    · cases hr
  | mask x y w k =>
    refine Does.outcome fun r hr => ?_
    refine createMask_bind fun p d => keep_does h (a := some ⟨p, .mask d⟩) ?_ (lost := 0) rfl (by simp [optBlocks, At.blocks])
    unfold Region.apiCreateMask Region.createMask at hr
    split at hr
    · cases hr; trivial
    · cases hr
  | clone i =>
    simp only [step, Spec.step, h.slot i]
    rcases hi : s.regions[i]? with _ | _ | ⟨a, r⟩
    · exact Does.ub
    · exact keep_does h (a := none) (r := none) trivial (lost := 0) rfl (by simp [optBlocks])
    · have := convert_keep (g := g) h hi (type := Region.typeBack r.apiType) rfl
      rw [forgets_same] at this
      exact this
  | convert i format =>
    simp only [step, Spec.step, Spec.polygonToMask, h.slot i]
    rcases hi : s.regions[i]? with _ | _ | ⟨a, r⟩
    · exact Does.ub
    · exact keep_does h (a := none) (r := none) trivial (lost := 0) rfl (by simp [optBlocks])
    · have := convert_keep (g := g) h hi (type := Region.typeBack format) rfl
      rw [forgets_typeBack] at this
      cases r <;> exact this
  | getBounds i =>
    simp only [step, Spec.step, h.slot i]
    rcases hi : s.regions[i]? with _ | _ | ⟨a, r⟩
    · exact Does.ub
    · exact Does.ub
    · have := convert_keep (g := g) h hi (type := .rectangle) rfl
      rw [show forgets r .rectangle = 0 by cases r <;> rfl] at this
      exact this
  | decode text =>
    refine Does.outcome fun r hr => ?_
    refine parse_bind ?_ fun a ha => keep_does h ha (lost := 0) rfl (by abel)
    rintro rfl
    simp [Region.decode, Region.parse, Outcome.map, Outcome.bind] at hr
    exact hr.symm
  | encode i =>
    have hkeep : ∀ (t : Option Str) (p : Option Ptr), p.isSome = t.isSome →
        Does (opt p + s.held) (pure ({ s with texts := s.texts ++ [p] }, .text t) : Prog (State × Answer))
          (.ok (({ v with texts := v.texts ++ [t] } : Spec.Values), Answer.text t)) (After 0) := by
      intro t p hp
      refine Does.pure ⟨⟨h.regions, ?_, h.types⟩, rfl, 0, ?_, rfl⟩
      · simp [h.texts, hp]
      · simp only [State.held, List.map_append, List.map_cons, List.map_nil, List.sum_append, List.sum_cons, List.sum_nil]
        abel
    simp only [step, Spec.step, h.slot i]
    rcases hi : s.regions[i]? with _ | _ | ⟨a, r⟩
    · exact Does.ub
    · refine string_bind (a := none) (rest := s.held) (by simp [optBlocks]) (fun _ => rfl) fun p hp => hkeep none p hp
    · refine Does.outcome fun t ht => ?_
      obtain ⟨rest, he⟩ := held_slot hi
      exact string_bind (a := some a) (rest := rest) he (by simp) fun p hp => hkeep t p hp
  | change i c =>
    simp only [step, Spec.step, h.slot i]
    rcases hi : s.regions[i]? with _ | _ | ⟨a, r⟩
    · exact Does.ub
    · exact Does.ub
    · obtain ⟨rest, he⟩ := held_slot hi
      refine look_bind he (Does.outcome fun r' hr => ?_)
      have hs : SameType a r := h.types a r (List.mem_of_getElem? hi)
      refine Does.pure ⟨⟨?_, h.texts, ?_⟩, rfl, 0, ?_, rfl⟩
      · simp [List.map_set, h.regions]
      · intro a' q hm
        rcases List.mem_or_eq_of_mem_set hm with hm | hm
        · exact h.types a' q hm
        · cases hm
          exact change_type hs hr
      · simp only [State.held, (regions_held hi none).1, (regions_held hi (some (a, r'))).2, slotBlocks]
        abel
  | ask i q =>
    simp only [step, Spec.step, h.slot i]
    rcases hi : s.regions[i]? with _ | _ | ⟨a, r⟩
    · exact Does.ub
    · exact Does.ub
    · obtain ⟨rest, he⟩ := held_slot hi
      exact look_bind he (Does.outcome fun x hx => Does.pure ⟨h, rfl, 0, by simp, rfl⟩)
  | overlap i j bounds =>
    simp only [step, Spec.step, h.slot i, h.slot j]
    have hstay : ∀ o : Flt, Does s.held (pure (s, .floats [o]) : Prog (State × Answer)) (.ok (v, Answer.floats [o])) (After 0) :=
      fun o => Does.pure ⟨h, rfl, 0, by simp, rfl⟩
    rcases hi : s.regions[i]? with _ | _ | ⟨a, ra⟩
    · exact Does.ub
    · rcases hj : s.regions[j]? with _ | _ | ⟨b, rb⟩
      · exact Does.ub
      · exact hstay _
      · exact hstay _
    · rcases hj : s.regions[j]? with _ | _ | ⟨b, rb⟩
      · exact Does.ub
      · exact hstay _
      · refine Does.outcome fun o ho => ?_
        obtain ⟨o', ho', rfl⟩ := map_iff.1 ho
        obtain ⟨early, he, hs⟩ := overlap_early (h.types a ra (List.mem_of_getElem? hi)) (h.types b rb (List.mem_of_getElem? hj)) ho'
        rw [he]
        obtain ⟨_, ha⟩ := held_slot hi
        obtain ⟨_, hb⟩ := held_slot hj
        exact overlap_bind hs ha hb (hstay _)
  | release i =>
    simp only [step, Spec.step, h.slot i]
    rcases hi : s.regions[i]? with _ | _ | ⟨a, r⟩
    · exact Does.ub
    · exact Does.ub
    · refine release_bind (rest := State.held ⟨s.regions.set i none, s.texts⟩) ?_ (Does.pure ⟨⟨?_, h.texts, ?_⟩, rfl, 0, by simp, rfl⟩)
      · simp only [State.held, (regions_held hi none).1, slotBlocks, add_assoc]
      · simp [List.map_set, h.regions]
      · intro a' q hm
        rcases List.mem_or_eq_of_mem_set hm with hm | hm
        · exact h.types a' q hm
        · cases hm
  | freeText j =>
    have ht : (v.texts[j]?).map Option.isSome = (s.texts[j]?).map Option.isSome := by
      rw [← List.getElem?_map, ← List.getElem?_map, h.texts]
    simp only [step, Spec.step]
    rcases hj : s.texts[j]? with _ | p
    · rw [hj] at ht
      rw [Option.map_eq_none_iff.1 (ht.trans rfl)]
      exact Does.ub
    · rw [hj] at ht
      obtain ⟨t, hv, _⟩ := Option.map_eq_some_iff.1 ht
      rw [hv]
      refine Does.freeIf (rest := State.held ⟨s.regions, s.texts.set j none⟩) ?_ (Does.pure ⟨⟨h.regions, ?_, h.types⟩, rfl, 0, by simp, rfl⟩)
      · simp only [State.held, texts_held hj]; abel
      · simp [List.map_set, h.texts]

theorem run_does (g : Setting) (ops : List Op) {s : State} {v : Spec.Values} (h : Same s v) :
    Does s.held (run g s ops) (.of (Spec.run g v ops)) fun x y w => Same x.1 y.1 ∧ x.2 = y.2 ∧
      ∃ lost : Multiset Nat, w = x.1.held + lost ∧ lost.card = Spec.conversions g v ops := by
  induction ops generalizing s v with
  | nil => exact Does.pure ⟨h, rfl, 0, by simp, rfl⟩
  | cons op ops ih =>
    refine Does.bind_frame 0 (step_does g h op) (by abel) ?_
    rintro ⟨s', x⟩ ⟨v', y⟩ w hok ⟨hs, rfl, lost, rfl, hl⟩
    refine Does.bind_frame lost (ih hs) (by abel) ?_
    rintro ⟨s'', xs⟩ ⟨v'', ys⟩ w hok' ⟨hs', rfl, lost', rfl, hl'⟩
    refine Does.pure ⟨hs', rfl, lost' + lost, by abel, ?_⟩
    simp only [Spec.conversions, hok, Multiset.card_add, hl, hl']
    omega

/-- As many blocks as values need. -/
theorem held_card {s : State} {v : Spec.Values} (h : Same s v) : s.held.card = v.needed := by
  obtain ⟨rs, ts⟩ := s
  obtain ⟨vr, vt⟩ := v
  obtain ⟨h1, h2, h3⟩ := h
  dsimp only at h1 h2 h3
  simp only [State.held, Spec.Values.needed, Multiset.card_add]
  congr 1
  · subst h1
    clear h2
    induction rs with
    | nil => rfl
    | cons x rs ih =>
      simp only [List.map_cons, List.sum_cons, Multiset.card_add]
      rw [ih fun a r hm => h3 a r (List.mem_cons_of_mem _ hm)]
      congr 1
      rcases x with _ | ⟨⟨self, shape⟩, r⟩
      · rfl
      · have := h3 _ r (List.mem_cons_self ..)
        cases r <;> cases shape <;> simp [SameType] at this <;> rfl
  · clear h1 h3
    induction ts generalizing vt with
    | nil =>
      cases vt with
      | nil => rfl
      | cons y vt => simp at h2
    | cons x ts ih =>
      cases vt with
      | nil => simp at h2
      | cons y vt =>
        simp only [List.map_cons, List.cons.injEq] at h2
        simp only [List.map_cons, List.sum_cons, Multiset.card_add, ih vt h2.2]
        congr 1
        cases x <;> cases y <;> simp [opt] at h2 ⊢

end RegMem
end Trax
