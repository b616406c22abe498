import Verif.Spec.CMemory
import Mathlib.Tactic.Abel
import Mathlib.Tactic.SplitIfs

/-!
# Who owns which block: a small calculus for `Verif/Model/CMemory.lean`

`Does own f o Q`: in every memory in which the blocks `own` are taken (beside others, which are left alone), the part of
the program `f` ends as `o` says, and if it ends with a value then `Q` holds of this value, the value in `o` and the
blocks that have taken the place of `own`.
-/

namespace Trax
namespace CMem

/-- The end of a function of `Verif/Model/Handle.lean`. -/
def Res.of {α : Type} : Outcome α → Res α
  | .ok a => .ok a
  | .abort => .abort
  | .ub => .ub

/-- The same for functions that may need more input. -/
def Res.ofOption {α : Type} : Option (Outcome α) → Res α
  | none => .more
  | some o => Res.of o

/-- See above. -/
def Does {α β : Type} (own : Multiset Nat) (f : Prog α) (o : Res β) (Q : α → β → Multiset Nat → Prop) : Prop :=
  ∀ m : Heap, ∀ fr : Multiset Nat, m.OK → (m.live : Multiset Nat) = own + fr →
    match o with
    | .ok b => ∃ a m' own', f m = .ok (a, m') ∧ m'.OK ∧ Q a b own' ∧ (m'.live : Multiset Nat) = own' + fr
    | .abort => f m = .abort
    | .ub => f m = .ub
    | .more => f m = .more

variable {α β γ δ : Type} {own own' rest : Multiset Nat}

theorem bind_apply (f : Prog α) (g : α → Prog γ) (m : Heap) : (f >>= g) m =
    match f m with
    | .ok (a, m') => g a m'
    | .abort => .abort
    | .ub => .ub
    | .more => .more := rfl

theorem Does.cast {f : Prog α} {o : Res β} {Q} (h : Does own' f o Q) (e : own = own') : Does own f o Q := e ▸ h

theorem Does.castRes {f : Prog α} {o o' : Res β} {Q} (h : Does own f o' Q) (e : o = o') : Does own f o Q := e ▸ h

theorem Does.mono {f : Prog α} {o : Res β} {Q Q' : α → β → Multiset Nat → Prop} (h : Does own f o Q)
    (hQ : ∀ a b w, Q a b w → Q' a b w) : Does own f o Q' := by
  intro m fr hm he
  have := h m fr hm he
  cases o with
  | ok b => obtain ⟨a, m', w, h1, h2, h3, h4⟩ := this; exact ⟨a, m', w, h1, h2, hQ a b w h3, h4⟩
  | abort => exact this
  | ub => exact this
  | more => exact this

theorem Does.pure {a : α} {b : β} {Q : α → β → Multiset Nat → Prop} (h : Q a b own) :
    Does own (Pure.pure a : Prog α) (.ok b) Q :=
  fun m _ hm he => ⟨a, m, own, rfl, hm, h, he⟩

theorem Does.ub {Q : α → β → Multiset Nat → Prop} : Does own (CMem.ub : Prog α) (.ub : Res β) Q := fun _ _ _ _ => rfl
theorem Does.abort {Q : α → β → Multiset Nat → Prop} : Does own (CMem.abort : Prog α) (.abort : Res β) Q := fun _ _ _ _ => rfl
theorem Does.more {Q : α → β → Multiset Nat → Prop} : Does own (CMem.more : Prog α) (.more : Res β) Q := fun _ _ _ _ => rfl

/-- A part that always ends with a value, followed by another. -/
theorem Does.seq {f : Prog α} {g : α → Prog γ} {b : β} {o : Res δ} {P Q} (hf : Does own f (.ok b) P)
    (hg : ∀ a w, P a b w → Does w (g a) o Q) : Does own (f >>= g) o Q := by
  intro m fr hm he
  obtain ⟨a, m', w, h1, h2, h3, h4⟩ := hf m fr hm he
  have := hg a w h3 m' fr h2 h4
  rw [bind_apply, h1]
  exact this

/-- The same with other blocks beside those of the first part. -/
theorem Does.seq_frame {f : Prog α} {g : α → Prog γ} {b : β} {o : Res δ} {P Q} (more : Multiset Nat)
    (hf : Does own' f (.ok b) P) (he : own = own' + more)
    (hg : ∀ a w, P a b w → Does (w + more) (g a) o Q) : Does own (f >>= g) o Q := by
  intro m fr hm hl
  obtain ⟨a, m', w, h1, h2, h3, h4⟩ := hf m (more + fr) hm (by rw [hl, he, add_assoc])
  have := hg a w h3 m' fr h2 (by rw [h4, add_assoc])
  rw [bind_apply, h1]
  exact this

/-- A part that ends as `o₁`, followed by another. -/
theorem Does.bind_frame {f : Prog α} {g : α → Prog γ} {o₁ : Outcome β} {k : β → Outcome δ} {P Q} (more : Multiset Nat)
    (hf : Does own' f (.of o₁) P) (he : own = own' + more)
    (hg : ∀ a b w, o₁ = .ok b → P a b w → Does (w + more) (g a) (.of (k b)) Q) : Does own (f >>= g) (.of (o₁.bind k)) Q := by
  intro m fr hm hl
  have h := hf m (more + fr) hm (by rw [hl, he, add_assoc])
  cases o₁ with
  | ok b =>
    obtain ⟨a, m', w, h1, h2, h3, h4⟩ := h
    have := hg a b w rfl h3 m' fr h2 (by rw [h4, add_assoc])
    rw [bind_apply, h1]
    exact this
  | abort => simp only [Res.of] at h; simp only [Outcome.bind, Res.of, bind_apply, h]
  | ub => simp only [Res.of] at h; simp only [Outcome.bind, Res.of, bind_apply, h]

/-- A step that takes and gives no memory. -/
theorem Does.outcome {x : Outcome γ} {g : γ → Prog α} {k : γ → Outcome β} {Q}
    (h : ∀ v, x = .ok v → Does own (g v) (.of (k v)) Q) : Does own (CMem.outcome x >>= g) (.of (x.bind k)) Q := by
  cases x with
  | ok v => exact h v rfl
  | abort => exact fun _ _ _ _ => rfl
  | ub => exact fun _ _ _ _ => rfl

theorem Does.new {g : Ptr → Prog α} {o : Res β} {Q} (h : ∀ p, Does ({p} + own) (g p) o Q) : Does own (CMem.new >>= g) o Q := by
  intro m fr hm he
  have hn : m.next ∉ m.live := fun hp => absurd (hm.2 _ hp) (Nat.lt_irrefl _)
  exact h m.next ⟨m.next + 1, m.next :: m.live⟩ fr
    ⟨List.nodup_cons.2 ⟨hn, hm.1⟩, fun p hp => by
      rcases List.mem_cons.1 hp with rfl | hp
      · exact Nat.lt_succ_self _
      · exact Nat.lt_succ_of_lt (hm.2 p hp)⟩
    (by rw [add_assoc, ← he, Multiset.singleton_add]; rfl)

theorem Does.free {p : Ptr} {g : Unit → Prog α} {o : Res β} {Q} (he : own = {p} + rest) (h : Does rest (g ()) o Q) :
    Does own (CMem.free p >>= g) o Q := by
  intro m fr hm hl
  have hp : p ∈ m.live := by
    have : p ∈ (m.live : Multiset Nat) := by rw [hl, he]; simp
    exact this
  have hf : CMem.free p m = .ok ((), ⟨m.next, m.live.erase p⟩) := by simp [CMem.free, hp]
  have := h ⟨m.next, m.live.erase p⟩ fr ⟨hm.1.erase p, fun q hq => hm.2 q (List.mem_of_mem_erase hq)⟩ (by
    show ((m.live.erase p : List Nat) : Multiset Nat) = rest + fr
    rw [← Multiset.coe_erase, hl, he, add_assoc, Multiset.singleton_add, Multiset.erase_cons_head])
  rw [bind_apply, hf]
  exact this

/-- `f` written with a last step that does nothing. -/
theorem bind_pure' (f : Prog α) : (f >>= fun a => (Pure.pure a : Prog α)) = f := by
  funext m
  rw [bind_apply]
  cases f m with
  | ok a => rfl
  | abort => rfl
  | ub => rfl
  | more => rfl

theorem Does.free_last {p : Ptr} {Q : Unit → Unit → Multiset Nat → Prop} (he : own = {p} + rest) (h : Q () () rest) :
    Does own (CMem.free p) (.ok ()) Q := by
  rw [← bind_pure' (CMem.free p)]
  exact Does.free he (Does.pure h)

theorem Does.new_last {Q : Ptr → Unit → Multiset Nat → Prop} (h : ∀ p, Q p () ({p} + own)) : Does own CMem.new (.ok ()) Q := by
  rw [← bind_pure' CMem.new]
  exact Does.new fun p => Does.pure (h p)

theorem Does.freeIf {p : Option Ptr} {g : Unit → Prog α} {o : Res β} {Q} (he : own = opt p + rest) (h : Does rest (g ()) o Q) :
    Does own (CMem.freeIf p >>= g) o Q := by
  cases p with
  | none => exact Does.cast h (by simpa [opt] using he)
  | some p => exact Does.free he h

/-- `some <$> new` or NULL. -/
theorem Does.newIf {b : Bool} {g : Option Ptr → Prog α} {o : Res β} {Q}
    (h : ∀ p : Option Ptr, p.isSome = b → Does (opt p + own) (g p) o Q) :
    Does own (CMem.newIf b >>= g) o Q := by
  cases b with
  | false => exact (h none rfl).cast (by simp [opt])
  | true =>
    show Does own ((some <$> CMem.new) >>= g) o Q
    have : ((some <$> CMem.new) >>= g) = (CMem.new >>= fun p => g (some p)) := rfl
    rw [this]
    exact Does.new fun p => h (some p) rfl

theorem newAll_does (n : Nat) : Does 0 (newAll n) (.ok ()) fun ps _ w => w = (ps : Multiset Nat) ∧ ps.length = n := by
  induction n with
  | zero => exact Does.pure ⟨rfl, rfl⟩
  | succ n ih =>
    refine Does.new fun p => ?_
    refine Does.seq_frame {p} ih (by abel) ?_
    rintro ps w ⟨rfl, hl⟩
    refine Does.pure ⟨?_, by simp [hl]⟩
    rw [add_comm, Multiset.singleton_add]
    rfl

theorem freeAll_does (ps : List Ptr) : Does (ps : Multiset Nat) (freeAll ps) (.ok ()) fun _ _ w => w = 0 := by
  induction ps with
  | nil => exact Does.pure rfl
  | cons p ps ih => exact Does.free (by rw [Multiset.singleton_add]; rfl) ih

/-! ## Lists -/

theorem createTexts_bind {g : TextsAt → Prog α} {o : Res β} {Q}
    (h : ∀ l : TextsAt, Does (l.blocks + own) (g l) o Q) : Does own (createTexts >>= g) o Q := by
  have : (createTexts >>= g) = (new >>= fun a => new >>= fun b => g ⟨a, b, []⟩) := rfl
  rw [this]
  refine Does.new fun a => Does.new fun b => ?_
  refine (h ⟨a, b, []⟩).cast ?_
  simp only [TextsAt.blocks, Multiset.coe_nil]
  abel

theorem destroyTexts_does (l : TextsAt) : Does l.blocks (destroyTexts l) (.ok ()) fun _ _ w => w = 0 := by
  refine Does.seq_frame ({l.self} + {l.array}) (freeAll_does l.texts) (by simp only [TextsAt.blocks]; abel) ?_
  rintro _ w rfl
  refine Does.free (rest := {l.self}) (by abel) ?_
  exact Does.free_last (rest := 0) (by abel) rfl

theorem destroyTexts_bind {l : TextsAt} {g : Unit → Prog α} {o : Res β} {Q} (he : own = l.blocks + rest)
    (h : Does rest (g ()) o Q) : Does own (destroyTexts l >>= g) o Q := by
  refine Does.seq_frame rest (destroyTexts_does l) he ?_
  rintro _ w rfl
  exact h.cast (by abel)

theorem appendText_bind {l : TextsAt} {g : TextsAt → Prog α} {o : Res β} {Q} (he : own = l.blocks + rest)
    (h : ∀ l' : TextsAt, Does (l'.blocks + rest) (g l') o Q) : Does own (appendText l >>= g) o Q := by
  have : (appendText l >>= g) = (new >>= fun t => g { l with texts := l.texts ++ [t] }) := rfl
  rw [this]
  refine Does.new fun t => (h _).cast ?_
  rw [he]
  simp only [TextsAt.blocks, ← Multiset.coe_add, Multiset.coe_singleton]
  abel

theorem appendDirect_blocks (l : TextsAt) (t : Ptr) : (appendDirect l t).blocks = {t} + l.blocks := by
  simp only [appendDirect, TextsAt.blocks, ← Multiset.coe_add, Multiset.coe_singleton]
  abel

theorem newEntries_does (n : Nat) : Does 0 (newEntries n) (.ok ()) fun es _ w => w = entriesBlocks es ∧ Full es ∧ es.length = n := by
  induction n with
  | zero => exact Does.pure ⟨rfl, by simp [Full], rfl⟩
  | succ n ih =>
    refine Does.new fun r => Does.new fun p => ?_
    refine Does.seq_frame ({p} + {r}) ih (by abel) ?_
    rintro es w ⟨rfl, hf, hl⟩
    refine Does.pure ⟨?_, ?_, by simp [hl]⟩
    · simp only [entriesBlocks, List.map_cons, List.sum_cons, entryBlocks, opt]; abel
    · intro e he
      rcases List.mem_cons.1 he with rfl | he
      · rfl
      · exact hf e he

theorem createObjects_bind {n : Nat} {g : ObjectsAt → Prog α} {o : Res β} {Q}
    (h : ∀ l : ObjectsAt, Full l.entries → l.entries.length = n → Does (l.blocks + own) (g l) o Q) :
    Does own (createObjects n >>= g) o Q := by
  have : (createObjects n >>= g) =
      (new >>= fun a => new >>= fun b => new >>= fun c => newEntries n >>= fun es => g ⟨a, b, c, es⟩) := by
    funext m
    simp only [createObjects, bind_apply, new]
    cases newEntries n _ <;> rfl
  rw [this]
  refine Does.new fun a => Does.new fun b => Does.new fun c => ?_
  refine Does.seq_frame ({c} + ({b} + ({a} + own))) (newEntries_does n) (by abel) ?_
  rintro es w ⟨rfl, hf, hl⟩
  refine (h ⟨a, b, c, es⟩ hf hl).cast ?_
  simp only [ObjectsAt.blocks]
  abel

theorem releaseEntries_does (es : List (Option Ptr × Ptr)) (hf : Full es) :
    Does (entriesBlocks es) (releaseEntries es) (.ok ()) fun _ _ w => w = 0 := by
  induction es with
  | nil => exact Does.pure rfl
  | cons e es ih =>
    obtain ⟨r, p⟩ := e
    cases r with
    | none => exact absurd (hf _ (List.mem_cons_self ..)) (by simp)
    | some r =>
      refine Does.free (rest := {p} + entriesBlocks es) ?_ ?_
      · simp only [entriesBlocks, List.map_cons, List.sum_cons, entryBlocks, opt]; abel
      · exact Does.free rfl (ih fun e he => hf e (List.mem_cons_of_mem _ he))

theorem releaseObjects_does (l : ObjectsAt) (hf : Full l.entries) :
    Does l.blocks (releaseObjects l) (.ok ()) fun _ _ w => w = 0 := by
  refine Does.seq_frame ({l.self} + {l.regions} + {l.properties}) (releaseEntries_does l.entries hf)
    (by simp only [ObjectsAt.blocks]; abel) ?_
  rintro _ w rfl
  refine Does.free (rest := {l.self} + {l.properties}) (by abel) ?_
  refine Does.free (rest := {l.self}) (by abel) ?_
  exact Does.free_last (rest := 0) (by abel) rfl

theorem releaseObjects_bind {l : ObjectsAt} {g : Unit → Prog α} {o : Res β} {Q} (hf : Full l.entries)
    (he : own = l.blocks + rest) (h : Does rest (g ()) o Q) : Does own (releaseObjects l >>= g) o Q := by
  refine Does.seq_frame rest (releaseObjects_does l hf) he ?_
  rintro _ w rfl
  exact h.cast (by abel)

theorem entries_set (es : List (Option Ptr × Ptr)) (i : Nat) (e e' : Option Ptr × Ptr) (hi : es[i]? = some e) :
    entriesBlocks (es.set i e') + entryBlocks e = entriesBlocks es + entryBlocks e' := by
  induction es generalizing i with
  | nil => simp at hi
  | cons x es ih =>
    cases i with
    | zero =>
      simp only [List.getElem?_cons_zero, Option.some.injEq] at hi
      subst hi
      simp only [List.set_cons_zero, entriesBlocks, List.map_cons, List.sum_cons]; abel
    | succ i =>
      simp only [List.getElem?_cons_succ] at hi
      have := ih i hi
      simp only [entriesBlocks] at this
      simp only [List.set_cons_succ, entriesBlocks, List.map_cons, List.sum_cons]
      rw [add_assoc, this, add_assoc]

theorem mem_entries {es : List (Option Ptr × Ptr)} {e : Option Ptr × Ptr} {q : Ptr} (he : e ∈ es) (hq : q ∈ entryBlocks e) :
    q ∈ entriesBlocks es := by
  induction es with
  | nil => simp at he
  | cons x es ih =>
    simp only [entriesBlocks, List.map_cons, List.sum_cons, Multiset.mem_add]
    rcases List.mem_cons.1 he with rfl | he
    · exact Or.inl hq
    · exact Or.inr (ih he)

theorem full_set {es : List (Option Ptr × Ptr)} (hf : Full es) (i : Nat) (c p : Ptr) : Full (es.set i (some c, p)) := by
  intro e he
  rcases List.mem_or_eq_of_mem_set he with he | rfl
  · exact hf e he
  · rfl

theorem setObject_bind {l : ObjectsAt} {i : Nat} {g : ObjectsAt → Prog α} {o : Res β} {Q} (hf : Full l.entries)
    (he : own = l.blocks + rest)
    (h : ∀ l' : ObjectsAt, Full l'.entries → l'.entries.length = l.entries.length → Does (l'.blocks + rest) (g l') o Q) :
    Does own (setObject l i true >>= g) o Q := by
  unfold setObject
  cases hi : l.entries[i]? with
  | none => exact (h l hf rfl).cast he
  | some e =>
    obtain ⟨r, p⟩ := e
    cases r with
    | none => exact absurd (hf _ (List.mem_of_getElem? hi)) (by simp)
    | some r =>
      have : ((do
          releaseRegion (some r)
          if True then do
            let c ← new
            Pure.pure { l with entries := l.entries.set i (some c, p) }
          else Pure.pure { l with entries := l.entries.set i (none, p) } : Prog ObjectsAt) >>= g) =
          (free r >>= fun _ => new >>= fun c => g { l with entries := l.entries.set i (some c, p) }) := by
        funext m
        simp only [releaseRegion, if_true, bind_apply]
        cases free r m <;> rfl
      show Does own ((do
          releaseRegion (some r)
          if True then do
            let c ← new
            Pure.pure { l with entries := l.entries.set i (some c, p) }
          else Pure.pure { l with entries := l.entries.set i (none, p) } : Prog ObjectsAt) >>= g) o Q
      rw [this]
      have hx := fun c : Ptr => entries_set l.entries i (some r, p) (some c, p) hi
      obtain ⟨E, hE⟩ : ∃ E, entriesBlocks l.entries = {r} + E := by
        have hm := List.mem_of_getElem? hi
        have : r ∈ entriesBlocks l.entries := by
          exact mem_entries hm (by simp [entryBlocks, opt])
        obtain ⟨E, hE⟩ := Multiset.exists_cons_of_mem this
        exact ⟨E, by rw [hE, Multiset.singleton_add]⟩
      refine Does.free (rest := {l.self} + {l.regions} + {l.properties} + E + rest) ?_ ?_
      · rw [he, ObjectsAt.blocks, hE]; abel
      · refine Does.new fun c => ?_
        refine (h { l with entries := l.entries.set i (some c, p) } (full_set hf i c p) (by simp)).cast ?_
        have := hx c
        simp only [entryBlocks, opt, hE] at this
        have hset : entriesBlocks (l.entries.set i (some c, p)) = {c} + E := by
          refine add_right_cancel (b := {r} + {p}) ?_
          rw [this]; abel
        simp only [ObjectsAt.blocks, hset]
        abel

theorem clearImages_does (ps : List (Option Ptr)) : Does (imagesBlocks ps) (clearImages ps) (.ok ()) fun _ _ w => w = 0 := by
  induction ps with
  | nil => exact Does.pure rfl
  | cons p ps ih => exact Does.freeIf (by simp [imagesBlocks]) ih

theorem releaseImages_does (l : ImagesAt) : Does l.blocks (releaseImages l) (.ok ()) fun _ _ w => w = 0 := by
  refine Does.seq_frame {l.self} (clearImages_does l.images) (by simp only [ImagesAt.blocks]; abel) ?_
  rintro _ w rfl
  exact Does.free_last (rest := 0) (by abel) rfl

theorem releaseImagesIf_bind {l : Option ImagesAt} {g : Unit → Prog α} {o : Res β} {Q}
    (he : own = imagesOpt l + rest) (h : Does rest (g ()) o Q) : Does own (releaseImagesIf l >>= g) o Q := by
  cases l with
  | none => exact Does.cast h (by simpa [imagesOpt] using he)
  | some l =>
    refine Does.seq_frame rest (releaseImages_does l) he ?_
    rintro _ w rfl
    exact h.cast (by abel)

/-! ## Handles and messages -/

theorem clearError_bind {p : HandleAt} {g : HandleAt → Prog α} {o : Res β} {Q} (he : own = p.blocks + rest)
    (h : ∀ q : HandleAt, q.error = none → Does (q.blocks + rest) (g q) o Q) : Does own (clearError p >>= g) o Q := by
  have : (clearError p >>= g) = (freeIf p.error >>= fun _ => g { p with error := none }) := by
    funext m
    simp only [clearError, bind_apply]
    cases freeIf p.error m <;> rfl
  rw [this]
  refine Does.freeIf (rest := {p.self} + {p.stream} + {p.metadata} + rest) (by rw [he, HandleAt.blocks]; abel) ?_
  exact (h { p with error := none } rfl).cast (by simp only [HandleAt.blocks, opt]; abel)

theorem setError_bind {p : HandleAt} {g : HandleAt → Prog α} {o : Res β} {Q} (he : own = p.blocks + rest)
    (h : ∀ q : HandleAt, Does (q.blocks + rest) (g q) o Q) : Does own (setError p >>= g) o Q := by
  have : (setError p >>= g) =
      (new >>= fun b => freeIf p.error >>= fun _ => new >>= fun t => free b >>= fun _ => g { p with error := some t }) := by
    funext m
    simp only [setError, bind_apply, new]
    cases freeIf p.error _ with
    | ok a => simp only; cases free _ _ <;> rfl
    | abort => rfl
    | ub => rfl
    | more => rfl
  rw [this]
  refine Does.new fun b => ?_
  refine Does.freeIf (rest := {b} + {p.self} + {p.stream} + {p.metadata} + rest) (by rw [he, HandleAt.blocks]; abel) ?_
  refine Does.new fun t => ?_
  refine Does.free (rest := {t} + {p.self} + {p.stream} + {p.metadata} + rest) (by abel) ?_
  exact (h { p with error := some t }).cast (by simp only [HandleAt.blocks, opt]; abel)

theorem receive_bind {s : Stream} {g : Received → Prog α} {o : Res β} {Q}
    (h : ∀ r : Received, r.msg = s.read.1 → r.stream = s.read.2 → r.args.texts.length = r.msg.args.length → Does (r.blocks + own) (g r) o Q) :
    Does own (receive s >>= g) o Q := by
  have : (receive s >>= g) = (new >>= fun props => createTexts >>= fun args => newAll s.read.1.args.length >>= fun texts =>
      g ⟨s.read.1, s.read.2, { args with texts }, props⟩) := by
    funext m
    simp only [receive, bind_apply, new]
    cases createTexts _ with
    | ok a => simp only; cases newAll _ _ <;> rfl
    | abort => rfl
    | ub => rfl
    | more => rfl
  rw [this]
  refine Does.new fun props => ?_
  have h2 : (createTexts >>= fun args => newAll s.read.1.args.length >>= fun texts =>
      g ⟨s.read.1, s.read.2, { args with texts }, props⟩) = (new >>= fun a => new >>= fun b =>
        newAll s.read.1.args.length >>= fun texts => g ⟨s.read.1, s.read.2, ⟨a, b, texts⟩, props⟩) := rfl
  rw [h2]
  refine Does.new fun a => Does.new fun b => ?_
  refine Does.seq_frame ({b} + ({a} + ({props} + own))) (newAll_does _) (by abel) ?_
  rintro texts w ⟨rfl, hl⟩
  refine (h ⟨s.read.1, s.read.2, ⟨a, b, texts⟩, props⟩ rfl rfl hl).cast ?_
  simp only [Received.blocks, TextsAt.blocks]
  abel

theorem release_bind {r : Received} {g : Unit → Prog α} {o : Res β} {Q} (he : own = r.blocks + rest)
    (h : Does rest (g ()) o Q) : Does own (r.release >>= g) o Q := by
  have : (r.release >>= g) = (destroyTexts r.args >>= fun _ => free r.props >>= fun _ => g ()) := by
    funext m
    simp only [Received.release, bind_apply]
    cases destroyTexts r.args m <;> rfl
  rw [this]
  refine destroyTexts_bind (rest := {r.props} + rest) (by rw [he, Received.blocks]; abel) ?_
  exact Does.free rfl h

end CMem
end Trax
