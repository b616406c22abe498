import Verif.Spec.Sockets

/-!
# Sockets and descriptors: lemmas
-/

namespace Trax.Net

open Spec

variable {σ : Type}

theorem close_opened {t : Table} {fd : Nat} (h : t fd = none) (f : File) : (t.opened fd f).close fd = t := by
  funext n
  unfold Table.close Table.opened
  by_cases e : n = fd
  · subst e; simp [h]
  · have : ¬ ((n : Int) = (fd : Int)) := by omega
    simp [e, this]

theorem isOpen_opened (t : Table) (fd : Nat) (f : File) : (t.opened fd f).isOpen fd = true := by
  simp [Table.isOpen, Table.opened]

theorem isOpen_neg (t : Table) : t.isOpen (-1) = false := by simp [Table.isOpen]

/-- The only change is a new descriptor for `f`, or none. -/
structure Step (f : File) (fd : Int) (t t' : Table) : Prop where
  keeps : ∀ n g, t n = some g → t' n = some g
  only : ∀ n g, t' n = some g → t n = some g ∨ g = f
  has : 0 ≤ fd → t' fd.toNat = some f ∧ t fd.toNat = none

/-- No descriptor has been opened except the result. -/
def Neat (f : File) (fd : Int) (t t' : Table) : Prop := ∀ n g, t' n = some g → t n = some g ∨ (g = f ∧ (n : Int) = fd)

theorem step_refl (f : File) (t : Table) : Step f (-1) t t := ⟨fun _ _ h => h, fun _ _ h => .inl h, fun h => absurd h (by decide)⟩

theorem step_opened {f : File} {fd : Nat} {t : Table} (h : t fd = none) : Step f fd t (t.opened fd f) := by
  refine ⟨fun n g hg => ?_, fun n g hg => ?_, fun _ => ⟨by simp [Table.opened], by simpa using h⟩⟩
  · unfold Table.opened
    by_cases e : n = fd
    · subst e; rw [h] at hg; cases hg
    · rw [if_neg e]; exact hg
  · unfold Table.opened at hg
    by_cases e : n = fd
    · rw [if_pos e] at hg; exact .inr (Option.some.inj hg).symm
    · rw [if_neg e] at hg; exact .inl hg

theorem neat_opened {f : File} {fd : Nat} {t : Table} : Neat f fd t (t.opened fd f) := by
  intro n g hg
  unfold Table.opened at hg
  by_cases e : n = fd
  · rw [if_pos e] at hg; exact .inr ⟨(Option.some.inj hg).symm, by rw [e]⟩
  · rw [if_neg e] at hg; exact .inl hg

theorem neat_refl (f : File) (fd : Int) (t : Table) : Neat f fd t t := fun _ _ h => .inl h

theorem Step.lost {f : File} {fd : Int} {t t' : Table} (h : Step f fd t t') : Step f (-1) t t' :=
  ⟨h.keeps, h.only, fun h => absurd h (by decide)⟩

/-- The result of `create_server_socket`. -/
theorem createServerSocket_spec {K : Kernel σ} (hK : Fresh K) (k : Nat) (t : Table) (w : σ) :
    let r := createServerSocket K k t w
    Step (.listener k) r.1 t r.2.1 ∧ -1 ≤ r.1 ∧ (Obliging K → r.1 ≠ 0 ∧ Neat (.listener k) r.1 t r.2.1) := by
  unfold createServerSocket
  have hs := hK.socket t w
  have hz : Obliging K → (K.socket t w).1 ≠ some 0 := fun ho => ho.zero t w
  generalize hq : K.socket t w = q at hs hz
  obtain ⟨o, w⟩ := q
  cases o with
  | none => exact ⟨step_refl _ t, by simp, fun _ => ⟨by simp, neat_refl _ _ t⟩⟩
  | some sid =>
    have hs := hs sid rfl
    have hz : Obliging K → sid ≠ 0 := fun ho e => hz ho (by simp [e])
    simp only [Kernel.on, isOpen_opened, Bool.and_true]
    have hr : Obliging K → (K.call .reuse w).1 = true := fun ho => ho.reuse w
    generalize K.call .reuse w = q at hr
    obtain ⟨b, w⟩ := q
    cases b with
    | false => exact ⟨(step_opened hs).lost, by simp, fun ho => by cases hr ho⟩
    | true =>
      dsimp only
      generalize K.call .bind w = q
      obtain ⟨b, w⟩ := q
      cases b with
      | false =>
        dsimp only
        rw [close_opened hs]
        exact ⟨step_refl _ t, by simp, fun _ => ⟨by simp, neat_refl _ _ t⟩⟩
      | true =>
        dsimp only
        generalize K.call .listen w = q
        obtain ⟨b, w⟩ := q
        cases b with
        | false =>
          dsimp only
          rw [close_opened hs]
          exact ⟨step_refl _ t, by simp, fun _ => ⟨by simp, neat_refl _ _ t⟩⟩
        | true =>
          dsimp only
          refine ⟨step_opened hs, by omega, fun ho => ⟨?_, neat_opened⟩⟩
          have := hz ho
          omega

theorem step_trans {f : File} {fd : Int} {t t₁ t' : Table} (h₁ : Step f (-1) t t₁) (h : Step f fd t₁ t') : Step f fd t t' := by
  refine ⟨fun n g hg => h.keeps n g (h₁.keeps n g hg), fun n g hg => ?_, fun hp => ⟨(h.has hp).1, ?_⟩⟩
  · rcases h.only n g hg with h2 | h2
    · exact h₁.only n g h2
    · exact .inr h2
  · cases e : t fd.toNat with
    | none => rfl
    | some g => rw [← (h.has hp).2, h₁.keeps _ _ e]

/-- The result of the loop of the constructor. -/
theorem attempts_spec {K : Kernel σ} (hK : Fresh K) (k : Nat) : ∀ (n : Nat) (sid : Int) (t t₀ : Table) (w : σ), -1 ≤ sid →
    Step (.listener k) sid t₀ t → (Obliging K → sid = -1 ∧ Neat (.listener k) (-1) t₀ t) →
    let r := attempts K k n sid t w
    Step (.listener k) r.1 t₀ r.2.1 ∧ -1 ≤ r.1 ∧ (Obliging K → Neat (.listener k) r.1 t₀ r.2.1)
  | 0, sid, t, t₀, w, h1, h2, h3 => ⟨h2, h1, fun ho => by obtain ⟨e, hn⟩ := h3 ho; rw [← e] at hn; exact hn⟩
  | n + 1, sid, t, t₀, w, h1, h2, h3 => by
    unfold attempts
    have hc := createServerSocket_spec hK k t w
    generalize createServerSocket K k t w = q at hc
    obtain ⟨sid', t', w'⟩ := q
    dsimp only at hc ⊢
    obtain ⟨c1, c2, c3⟩ := hc
    have hst := step_trans h2.lost c1
    have hne : Obliging K → Neat (.listener k) sid' t₀ t' := fun ho m g hg => by
      rcases (c3 ho).2 m g hg with h | h
      · rcases (h3 ho).2 m g h with h | ⟨-, h⟩
        · exact .inl h
        · omega
      · exact .inr h
    by_cases hp : sid' > 0
    · rw [if_pos hp]
      exact ⟨hst, c2, hne⟩
    · rw [if_neg hp]
      refine attempts_spec hK k n sid' t' t₀ w' c2 hst fun ho => ?_
      have : sid' = -1 := by have := (c3 ho).1; omega
      refine ⟨this, ?_⟩
      have := hne ho
      rwa [‹sid' = -1›] at this

/-- The result of `create_message_stream_socket_accept`. -/
theorem socketAccept_spec {K : Kernel σ} (hK : Fresh K) (h : Nat) (server : Int) (t : Table) (w : σ) :
    let r := socketAccept K h server t w
    (∃ fd, Step (.connection h) fd t r.2.1) ∧ (∀ s, r.1 = some s → ∃ fd : Nat, s = .socket fd ∧ Step (.connection h) fd t r.2.1 ∧ Neat (.connection h) fd t r.2.1) ∧
      (Obliging K → r.1 = none → r.2.1 = t) := by
  have hrefl : (∃ fd, Step (.connection h) fd t t) := ⟨-1, step_refl _ t⟩
  unfold socketAccept
  generalize K.on .listen t server w = q
  obtain ⟨b, w⟩ := q
  cases b with
  | false => exact ⟨hrefl, fun s hs => (by cases hs), fun _ _ => rfl⟩
  | true =>
    dsimp only
    generalize K.call .select w = q
    obtain ⟨b, w⟩ := q
    cases b with
    | false => exact ⟨hrefl, fun s hs => (by cases hs), fun _ _ => rfl⟩
    | true =>
      dsimp only
      have ha := hK.accept t w
      generalize K.accept t w = q at ha
      obtain ⟨o, w⟩ := q
      cases o with
      | none =>
        dsimp only
        simp only [Kernel.on, isOpen_neg, Bool.and_false]
        exact ⟨hrefl, fun s hs => (by cases hs), fun _ _ => trivial⟩
      | some fd =>
        dsimp only
        have ha := ha fd rfl
        simp only [Kernel.on, isOpen_opened, Bool.and_true]
        have hn : Obliging K → (K.call .nodelay w).1 = true := fun ho => ho.nodelay w
        generalize K.call .nodelay w = q at hn
        obtain ⟨b, w⟩ := q
        cases b with
        | false => exact ⟨⟨fd, step_opened ha⟩, fun s hs => (by cases hs), fun ho _ => (by cases hn ho)⟩
        | true =>
          refine ⟨⟨fd, step_opened ha⟩, fun s hs => ?_, fun _ hs => (by cases hs)⟩
          cases hs
          exact ⟨fd, rfl, step_opened ha, neat_opened⟩

/-- On a descriptor that is not open the loop never ends. -/
theorem connectLoop_closed {K : Kernel σ} {t : Table} {sid : Int} (h : t.isOpen sid = false) : ∀ (n : Nat) (w : σ), (connectLoop K t sid n w).1 = false
  | 0, _ => rfl
  | n + 1, w => by
    unfold connectLoop
    simp only [Kernel.on, h, Bool.and_false]
    exact connectLoop_closed h n _

/-- The result of `create_message_stream_socket_connect`. -/
theorem socketConnect_spec {K : Kernel σ} (hK : Fresh K) (h rounds : Nat) (t : Table) (w : σ) :
    let r := socketConnect K h rounds t w
    (∃ fd, Step (.connection h) fd t r.2.1) ∧
      ∀ s, r.1 = .connected s → ∃ fd : Nat, s = .socket fd ∧ Step (.connection h) fd t r.2.1 ∧ Neat (.connection h) fd t r.2.1 := by
  unfold socketConnect
  have hs := hK.socket t w
  generalize K.socket t w = q at hs
  obtain ⟨o, w⟩ := q
  cases o with
  | none => exact ⟨⟨-1, step_refl _ t⟩, fun s hs => by cases hs⟩
  | some sid =>
    have hs := hs sid rfl
    dsimp only
    simp only [Kernel.on, isOpen_opened, Bool.and_true]
    generalize K.call .nodelay w = q
    obtain ⟨b, w⟩ := q
    cases b with
    | false =>
      dsimp only
      rw [close_opened hs]
      have hl := connectLoop_closed (K := K) (t := t) (sid := sid) (by simp [Table.isOpen, hs]) rounds w
      generalize connectLoop K t sid rounds w = q at hl
      obtain ⟨b, w⟩ := q
      cases hl
      exact ⟨⟨-1, step_refl _ t⟩, fun s hs => by cases hs⟩
    | true =>
      dsimp only
      generalize connectLoop K (t.opened sid (.connection h)) sid rounds w = q
      obtain ⟨b, w⟩ := q
      cases b with
      | false => exact ⟨⟨sid, step_opened hs⟩, fun s hs => by cases hs⟩
      | true =>
        refine ⟨⟨sid, step_opened hs⟩, fun s hs' => ?_⟩
        cases hs'
        exact ⟨sid, rfl, step_opened hs, neat_opened⟩

/-! ## Programs -/

/-- What holds at every point of every program. -/
structure Inv (s : Sys σ) : Prop where
  listener : ∀ k fd, s.listeners k = some fd → 0 ≤ fd ∧ s.table fd.toNat = some (.listener k)
  handle : ∀ h fd, s.handles h = some (.socket fd) → 0 ≤ fd ∧ s.table fd.toNat = some (.connection h)

/-- Every descriptor has somebody who will close it. -/
structure Owned (s : Sys σ) : Prop where
  listener : ∀ n k, s.table n = some (.listener k) → s.listeners k = some (n : Int)
  handle : ∀ n h, s.table n = some (.connection h) → s.handles h = some (.socket n)

theorem Inv.grow {s : Sys σ} (hi : Inv s) {f : File} {fd : Int} {t : Table} (h : Step f fd s.table t) (w : σ) (b : Bool) :
    Inv { s with table := t, world := w, waiting := b } :=
  ⟨fun k n e => ⟨(hi.listener k n e).1, h.keeps _ _ (hi.listener k n e).2⟩, fun k n e => ⟨(hi.handle k n e).1, h.keeps _ _ (hi.handle k n e).2⟩⟩

theorem Inv.close {s : Sys σ} (hi : Inv s) {fd : Int} (hl : ∀ k, s.listeners k ≠ some fd) (hh : ∀ h, s.handles h ≠ some (.socket fd)) :
    Inv { s with table := s.table.close fd } := by
  refine ⟨fun k n e => ⟨(hi.listener k n e).1, ?_⟩, fun k n e => ⟨(hi.handle k n e).1, ?_⟩⟩
  · have := hi.listener k n e
    show (if ((n.toNat : Nat) : Int) = fd then none else s.table n.toNat) = _
    rw [if_neg (by rw [Int.toNat_of_nonneg this.1]; rintro rfl; exact hl k e)]
    exact this.2
  · have := hi.handle k n e
    show (if ((n.toNat : Nat) : Int) = fd then none else s.table n.toNat) = _
    rw [if_neg (by rw [Int.toNat_of_nonneg this.1]; rintro rfl; exact hh k e)]
    exact this.2

theorem upd_same {α : Type} (f : Nat → α) (k : Nat) (x : α) : upd f k x k = x := by simp [upd]
theorem upd_other {α : Type} (f : Nat → α) {k i : Nat} (x : α) (h : i ≠ k) : upd f k x i = f i := by simp [upd, h]

/-- A file of the user after a step, given whether it was there before. -/
def UserAfter (n : Nat) (before : Prop) : Op → Prop
  | .openFile fd => fd = n ∨ before
  | .closeFile fd => fd ≠ n ∧ before
  | _ => before

/-- What a step does to the files of the user, and that it keeps the invariant. -/
theorem step_inv {K : Kernel σ} (hK : Fresh K) {s s' : Sys σ} (hi : Inv s) {op : Op} (ho : InOrder s op) (h : step K s op = .ok s') :
    Inv s' ∧ ∀ n, s'.table n = some .user ↔ UserAfter n (s.table n = some .user) op := by
  have grown : ∀ {f fd} {t : Table}, Step f fd s.table t → f ≠ .user → ∀ n, t n = some .user ↔ s.table n = some .user := fun hs hf n =>
    ⟨fun h => by rcases hs.only n _ h with h | h; exact h; exact absurd h.symm hf, hs.keeps n _⟩
  cases op with
  | openFile fd =>
    cases h
    refine ⟨hi.grow (step_opened (f := .user) ho) s.world s.waiting, fun n => ?_⟩
    show (if n = fd then some File.user else s.table n) = _ ↔ _
    by_cases e : n = fd
    · simp [e, UserAfter]
    · simp [e, Ne.symm e, UserAfter]
  | closeFile fd =>
    cases h
    refine ⟨hi.close (fun k e => ?_) (fun k e => ?_), fun n => ?_⟩
    · have := (hi.listener k _ e).2
      simp only [Int.toNat_natCast] at this
      rw [show s.table fd = some .user from ho] at this
      cases this
    · have := (hi.handle k _ e).2
      simp only [Int.toNat_natCast] at this
      rw [show s.table fd = some .user from ho] at this
      cases this
    · show (if (n : Int) = (fd : Int) then none else s.table n) = _ ↔ _
      by_cases e : n = fd
      · simp [e, UserAfter]
      · have : ¬ ((n : Int) = (fd : Int)) := by omega
        simp [this, Ne.symm e, UserAfter]
  | construct k =>
    simp only [step] at h
    have ha := attempts_spec hK k 10 (-1) s.table s.table s.world (by omega) (step_refl _ _) (fun _ => ⟨rfl, neat_refl _ _ _⟩)
    generalize attempts K k 10 (-1) s.table s.world = q at ha h
    obtain ⟨sid, t, w⟩ := q
    dsimp only at ha h
    cases h
    obtain ⟨a1, a2, -⟩ := ha
    have hg := hi.grow a1 w s.waiting
    refine ⟨⟨fun i fd e => ?_, hg.handle⟩, grown a1 (by simp)⟩
    by_cases ei : i = k
    · subst ei
      simp only [upd_same] at e
      by_cases hn : sid < 0
      · rw [if_pos hn] at e; cases e
      · rw [if_neg hn] at e
        cases e
        exact ⟨by omega, (a1.has (by omega)).1⟩
    · simp only [upd_other _ _ ei] at e
      exact hg.listener i fd e
  | destroy k =>
    simp only [step] at h
    cases hl : s.listeners k with
    | none => rw [hl] at h; cases h; exact ⟨hi, fun _ => Iff.rfl⟩
    | some sid =>
      rw [hl] at h
      cases h
      obtain ⟨h0, ht⟩ := hi.listener k sid hl
      have hd : destroyServerSocket sid s.table = s.table.close sid := by unfold destroyServerSocket; rw [if_neg (by omega)]
      rw [hd]
      refine ⟨⟨fun i fd e => ?_, fun i fd e => ?_⟩, fun n => ?_⟩
      · by_cases ei : i = k
        · subst ei; simp only [upd_same] at e; cases e
        · simp only [upd_other _ _ ei] at e
          have := hi.listener i fd e
          refine ⟨this.1, ?_⟩
          show (if ((fd.toNat : Nat) : Int) = sid then none else s.table fd.toNat) = _
          rw [if_neg ?_]
          · exact this.2
          · rw [Int.toNat_of_nonneg this.1]
            rintro rfl
            rw [ht] at this
            simp only [Option.some.injEq, File.listener.injEq] at this
            exact ei this.2.symm
      · have := hi.handle i fd e
        refine ⟨this.1, ?_⟩
        show (if ((fd.toNat : Nat) : Int) = sid then none else s.table fd.toNat) = _
        rw [if_neg ?_]
        · exact this.2
        · rw [Int.toNat_of_nonneg this.1]
          rintro rfl
          rw [ht] at this
          simp at this
      · show (if (n : Int) = sid then none else s.table n) = _ ↔ _
        by_cases en : (n : Int) = sid
        · subst en
          simp only [Int.toNat_natCast] at ht
          simp [ht, UserAfter]
        · simp [en, UserAfter]
  | accept hd server =>
    simp only [step] at h
    have ha := socketAccept_spec hK hd server s.table s.world
    generalize socketAccept K hd server s.table s.world = q at ha h
    obtain ⟨o, t, w⟩ := q
    dsimp only at ha h
    obtain ⟨⟨fd, a1⟩, a2, -⟩ := ha
    cases o with
    | none => cases h; exact ⟨hi.grow a1 w s.waiting, grown a1 (by simp)⟩
    | some st =>
      dsimp only at h
      generalize K.call .hello w = q at h
      obtain ⟨b, w⟩ := q
      cases b with
      | false => cases h; exact ⟨hi.grow a1 w s.waiting, grown a1 (by simp)⟩
      | true =>
        cases h
        obtain ⟨fd', rfl, c1, -⟩ := a2 st rfl
        have hg := hi.grow c1 w s.waiting
        refine ⟨⟨hg.listener, fun i n e => ?_⟩, grown c1 (by simp)⟩
        by_cases ei : i = hd
        · subst ei
          simp only [upd_same] at e
          cases e
          exact ⟨by omega, (c1.has (by omega)).1⟩
        · simp only [upd_other _ _ ei] at e
          exact hg.handle i n e
  | files hd input output =>
    cases h
    refine ⟨⟨hi.listener, fun i n e => ?_⟩, fun _ => Iff.rfl⟩
    by_cases ei : i = hd
    · subst ei; simp only [upd_same] at e; cases e
    · simp only [upd_other _ _ ei] at e
      exact hi.handle i n e
  | connect hd rounds =>
    simp only [step] at h
    have ha := socketConnect_spec hK hd rounds s.table s.world
    generalize socketConnect K hd rounds s.table s.world = q at ha h
    obtain ⟨o, t, w⟩ := q
    dsimp only at ha h
    obtain ⟨⟨fd, a1⟩, a2⟩ := ha
    cases o with
    | failed => cases h
    | waiting => cases h; exact ⟨hi.grow a1 w true, grown a1 (by simp)⟩
    | connected st =>
      cases h
      obtain ⟨fd', rfl, c1, -⟩ := a2 st rfl
      have hg := hi.grow c1 w s.waiting
      refine ⟨⟨hg.listener, fun i n e => ?_⟩, grown c1 (by simp)⟩
      by_cases ei : i = hd
      · subst ei
        simp only [upd_same] at e
        cases e
        exact ⟨by omega, (c1.has (by omega)).1⟩
      · simp only [upd_other _ _ ei] at e
        exact hg.handle i n e
  | cleanup hd =>
    simp only [step] at h
    cases hl : s.handles hd with
    | none => rw [hl] at h; cases h; exact ⟨hi, fun _ => Iff.rfl⟩
    | some st =>
      rw [hl] at h
      cases h
      cases st with
      | files a b =>
        refine ⟨⟨hi.listener, fun i n e => ?_⟩, fun _ => Iff.rfl⟩
        by_cases ei : i = hd
        · subst ei; simp only [upd_same] at e; cases e
        · simp only [upd_other _ _ ei] at e
          exact hi.handle i n e
      | socket sid =>
        obtain ⟨h0, ht⟩ := hi.handle hd sid hl
        refine ⟨⟨fun i fd e => ?_, fun i fd e => ?_⟩, fun n => ?_⟩
        · have := hi.listener i fd e
          refine ⟨this.1, ?_⟩
          show (if ((fd.toNat : Nat) : Int) = sid then none else s.table fd.toNat) = _
          rw [if_neg ?_]
          · exact this.2
          · rw [Int.toNat_of_nonneg this.1]
            rintro rfl
            rw [ht] at this
            simp at this
        · by_cases ei : i = hd
          · subst ei; simp only [upd_same] at e; cases e
          · simp only [upd_other _ _ ei] at e
            have := hi.handle i fd e
            refine ⟨this.1, ?_⟩
            show (if ((fd.toNat : Nat) : Int) = sid then none else s.table fd.toNat) = _
            rw [if_neg ?_]
            · exact this.2
            · rw [Int.toNat_of_nonneg this.1]
              rintro rfl
              rw [ht] at this
              simp only [Option.some.injEq, File.connection.injEq] at this
              exact ei this.2.symm
        · show (if (n : Int) = sid then none else s.table n) = _ ↔ _
          by_cases en : (n : Int) = sid
          · subst en
            simp only [Int.toNat_natCast] at ht
            simp [ht, UserAfter]
          · simp [en, UserAfter]

theorem Owned.grow {s : Sys σ} (ho : Owned s) {f : File} {fd : Int} {t : Table} (h : Neat f fd s.table t) :
    (∀ n k, t n = some (.listener k) → s.listeners k = some (n : Int) ∨ (f = .listener k ∧ (n : Int) = fd)) ∧
    (∀ n k, t n = some (.connection k) → s.handles k = some (.socket n) ∨ (f = .connection k ∧ (n : Int) = fd)) := by
  constructor
  · intro n k e
    rcases h n _ e with e | ⟨e, en⟩
    · exact .inl (ho.listener n k e)
    · exact .inr ⟨e.symm, en⟩
  · intro n k e
    rcases h n _ e with e | ⟨e, en⟩
    · exact .inl (ho.handle n k e)
    · exact .inr ⟨e.symm, en⟩

/-- Nothing gets lost. -/
theorem step_owned {K : Kernel σ} (hK : Fresh K) (hO : Obliging K) {s s' : Sys σ} (hi : Inv s) (hw : Owned s) {op : Op} (ho : InOrder s op)
    (h : step K s op = .ok s') (hs : s'.waiting = false) : Owned s' := by
  cases op with
  | openFile fd =>
    cases h
    have := hw.grow (neat_opened (f := .user) (fd := fd) (t := s.table))
    refine ⟨fun n k e => ?_, fun n k e => ?_⟩
    · rcases this.1 n k e with h | ⟨h, -⟩; exact h; cases h
    · rcases this.2 n k e with h | ⟨h, -⟩; exact h; cases h
  | closeFile fd =>
    cases h
    have hcl : ∀ n f, s.table.close fd n = some f → s.table n = some f := fun n f e => by
      unfold Table.close at e; split at e; cases e; exact e
    exact ⟨fun n k e => hw.listener n k (hcl _ _ e), fun n k e => hw.handle n k (hcl _ _ e)⟩
  | construct k =>
    simp only [step] at h
    have ha := attempts_spec hK k 10 (-1) s.table s.table s.world (by omega) (step_refl _ _) (fun _ => ⟨rfl, neat_refl _ _ _⟩)
    generalize attempts K k 10 (-1) s.table s.world = q at ha h
    obtain ⟨sid, t, w⟩ := q
    dsimp only at ha h
    cases h
    have hg := hw.grow (ha.2.2 hO)
    refine ⟨fun n i e => ?_, fun n i e => ?_⟩
    · rcases hg.1 n i e with h | ⟨h, hn⟩
      · have : i ≠ k := by
          rintro rfl
          rw [show s.listeners i = none from ho] at h
          cases h
        simp only [upd_other _ _ this]
        exact h
      · cases h
        simp only [upd_same]
        rw [if_neg (by omega), hn]
    · rcases hg.2 n i e with h | ⟨h, -⟩
      · exact h
      · cases h
  | destroy k =>
    simp only [step] at h
    cases hl : s.listeners k with
    | none => rw [hl] at h; cases h; exact hw
    | some sid =>
      rw [hl] at h
      cases h
      obtain ⟨h0, ht⟩ := hi.listener k sid hl
      have hd : destroyServerSocket sid s.table = s.table.close sid := by unfold destroyServerSocket; rw [if_neg (by omega)]
      rw [hd]
      have hcl : ∀ n f, s.table.close sid n = some f → s.table n = some f ∧ (n : Int) ≠ sid := fun n f e => by
        unfold Table.close at e; split at e; cases e; exact ⟨e, by assumption⟩
      refine ⟨fun n i e => ?_, fun n i e => hw.handle n i (hcl _ _ e).1⟩
      have := hw.listener n i (hcl _ _ e).1
      have hne : i ≠ k := by
        rintro rfl
        rw [hl] at this
        exact (hcl _ _ e).2 (Option.some.inj this).symm
      simp only [upd_other _ _ hne]
      exact this
  | accept hd server =>
    simp only [step] at h
    have ha := socketAccept_spec hK hd server s.table s.world
    generalize socketAccept K hd server s.table s.world = q at ha h
    obtain ⟨o, t, w⟩ := q
    dsimp only at ha h
    obtain ⟨-, a2, a3⟩ := ha
    cases o with
    | none => cases h; rw [a3 hO rfl]; exact ⟨hw.listener, hw.handle⟩
    | some st =>
      dsimp only at h
      have hh := hO.hello w
      generalize K.call .hello w = q at h hh
      obtain ⟨b, w⟩ := q
      cases hh
      cases h
      obtain ⟨fd', rfl, -, c2⟩ := a2 st rfl
      have hg := hw.grow c2
      refine ⟨fun n i e => ?_, fun n i e => ?_⟩
      · rcases hg.1 n i e with h | ⟨h, hn⟩
        · exact h
        · cases h
      · rcases hg.2 n i e with h | ⟨h, hn⟩
        · have : i ≠ hd := by
            rintro rfl
            rw [show s.handles i = none from ho] at h
            cases h
          simp only [upd_other _ _ this]
          exact h
        · cases h
          simp only [upd_same]
          rw [hn]
  | files hd input output =>
    cases h
    refine ⟨hw.listener, fun n i e => ?_⟩
    have := hw.handle n i e
    have hne : i ≠ hd := by
      rintro rfl
      rw [show s.handles i = none from ho] at this
      cases this
    simp only [upd_other _ _ hne]
    exact this
  | connect hd rounds =>
    simp only [step] at h
    have ha := socketConnect_spec hK hd rounds s.table s.world
    generalize socketConnect K hd rounds s.table s.world = q at ha h
    obtain ⟨o, t, w⟩ := q
    dsimp only at ha h
    obtain ⟨-, a2⟩ := ha
    cases o with
    | failed => cases h
    | waiting => cases h; cases hs
    | connected st =>
      cases h
      obtain ⟨fd', rfl, -, c2⟩ := a2 st rfl
      have hg := hw.grow c2
      refine ⟨fun n i e => ?_, fun n i e => ?_⟩
      · rcases hg.1 n i e with h | ⟨h, hn⟩
        · exact h
        · cases h
      · rcases hg.2 n i e with h | ⟨h, hn⟩
        · have : i ≠ hd := by
            rintro rfl
            rw [show s.handles i = none from ho] at h
            cases h
          simp only [upd_other _ _ this]
          exact h
        · cases h
          simp only [upd_same]
          rw [hn]
  | cleanup hd =>
    simp only [step] at h
    cases hl : s.handles hd with
    | none => rw [hl] at h; cases h; exact hw
    | some st =>
      rw [hl] at h
      cases h
      cases st with
      | files a b =>
        refine ⟨hw.listener, fun n i e => ?_⟩
        have := hw.handle n i e
        have hne : i ≠ hd := by
          rintro rfl
          rw [hl] at this
          cases this
        simp only [upd_other _ _ hne]
        exact this
      | socket sid =>
        have hcl : ∀ n f, s.table.close sid n = some f → s.table n = some f ∧ (n : Int) ≠ sid := fun n f e => by
          unfold Table.close at e; split at e; cases e; exact ⟨e, by assumption⟩
        refine ⟨fun n i e => hw.listener n i (hcl _ _ e).1, fun n i e => ?_⟩
        have := hw.handle n i (hcl _ _ e).1
        have hne : i ≠ hd := by
          rintro rfl
          rw [hl] at this
          cases this
          exact (hcl _ _ e).2 rfl
        simp only [upd_other _ _ hne]
        exact this

end Trax.Net
