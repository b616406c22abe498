import Verif.Spec.Descriptors

/-!
# Lemmas on descriptors
-/

namespace Trax.Fds
open Trax.Fds.Spec

namespace Table

theorem get_put (t : Table) (n : Nat) (f : Option File) (m : Nat) : (t.put n f).get m = if m = n then f else t.get m := by
  induction t generalizing n m with
  | nil =>
    induction n generalizing m with
    | zero => cases m <;> simp [put, get]
    | succ n ih => cases m with
      | zero => simp [put, get]
      | succ m => simp [put, get, ih]
  | cons x r ih =>
    cases n with
    | zero => cases m <;> simp [put, get]
    | succ n => cases m with
      | zero => simp [put, get]
      | succ m => simp [put, get, ih]

theorem get_lowest (t : Table) : t.get t.lowest = none := by
  induction t with
  | nil => rfl
  | cons x r ih => cases x with
    | none => rfl
    | some f => exact ih

theorem lowest_min (t : Table) : ∀ m, m < t.lowest → t.get m ≠ none := by
  induction t with
  | nil => intro m h; simp [lowest] at h
  | cons x r ih => cases x with
    | none => intro m h; simp [lowest] at h
    | some f =>
      intro m h
      cases m with
      | zero => simp [get]
      | succ m => exact ih m (by simp [lowest] at h; omega)

theorem lowest_le {t : Table} {m : Nat} (h : t.get m = none) : t.lowest ≤ m := by
  by_cases hlt : m < t.lowest
  · exact absurd h (lowest_min t m hlt)
  · omega

theorem get_close (t : Table) (fd : Int) (m : Nat) : (t.close fd).get m = if (m : Int) = fd then none else t.get m := by
  unfold close
  by_cases h : fd < 0
  · rw [if_pos h, if_neg (by omega)]
  · rw [if_neg h, get_put]
    by_cases e : m = fd.toNat
    · rw [if_pos e, if_pos (by omega)]
    · rw [if_neg e, if_neg (by omega)]

/-- The six descriptors of three new pipes. -/
structure Three (t t' : Table) (n : Nat) (a b c d e f : Nat) : Prop where
  h1 : a < b
  h2 : b < c
  h3 : c < d
  h4 : d < e
  h5 : e < f
  low : ∀ m, m < a → t.get m ≠ none
  na : t.get a = none
  nb : t.get b = none
  nc : t.get c = none
  nd : t.get d = none
  ne : t.get e = none
  nf : t.get f = none
  get : ∀ m, t'.get m = if m = a then some (.readEnd n) else if m = b then some (.writeEnd n) else
    if m = c then some (.readEnd (n + 1)) else if m = d then some (.writeEnd (n + 1)) else
    if m = e then some (.readEnd (n + 2)) else if m = f then some (.writeEnd (n + 2)) else t.get m

theorem lowest_put {t : Table} {f : File} : t.lowest < (t.put t.lowest (some f)).lowest := by
  have h := get_lowest (t.put t.lowest (some f))
  rw [get_put] at h
  split at h
  · cases h
  · have := lowest_le h
    omega

theorem pipe_eq (t : Table) (n : Nat) : ∃ a b : Nat, (t.pipe n).2.1 = (a : Int) ∧ (t.pipe n).2.2 = (b : Int) ∧ a = t.lowest ∧ a < b ∧
    b < (t.pipe n).1.lowest ∧ t.get a = none ∧ t.get b = none ∧ ∀ m, (t.pipe n).1.get m =
      if m = a then some (.readEnd n) else if m = b then some (.writeEnd n) else t.get m := by
  have hlt := lowest_put (t := t) (f := .readEnd n)
  refine ⟨t.lowest, (t.put t.lowest (some (.readEnd n))).lowest, rfl, rfl, rfl, hlt, lowest_put, get_lowest t, ?_, ?_⟩
  · have := get_lowest (t.put t.lowest (some (.readEnd n)))
    rw [get_put, if_neg (by omega)] at this
    exact this
  · intro m
    show (Table.put _ _ _).get m = _
    rw [get_put, get_put]
    by_cases h1 : m = t.lowest
    · rw [if_pos h1, if_neg (by omega), if_pos h1]
    · rw [if_neg h1, if_neg h1]

theorem three_pipes (t : Table) (n : Nat) : ∃ a b c d e f : Nat,
    (t.pipe n).2 = ((a : Int), (b : Int)) ∧ ((t.pipe n).1.pipe (n + 1)).2 = ((c : Int), (d : Int)) ∧
    ((((t.pipe n).1.pipe (n + 1)).1).pipe (n + 2)).2 = ((e : Int), (f : Int)) ∧
    Three t ((((t.pipe n).1.pipe (n + 1)).1).pipe (n + 2)).1 n a b c d e f := by
  obtain ⟨a, b, ha, hb, hal, hab, hbl, na, nb, g1⟩ := pipe_eq t n
  obtain ⟨c, d, hc, hd, hcl, hcd, hdl, nc, nd, g2⟩ := pipe_eq (t.pipe n).1 (n + 1)
  obtain ⟨e, f, he, hf, hel, hef, hfl, ne, nf, g3⟩ := pipe_eq ((t.pipe n).1.pipe (n + 1)).1 (n + 2)
  refine ⟨a, b, c, d, e, f, Prod.ext ha hb, Prod.ext hc hd, Prod.ext he hf, hab, by omega, hcd, by omega, hef, ?_, na, nb, ?_, ?_, ?_, ?_, ?_⟩
  · intro m hm
    exact lowest_min t m (by omega)
  · rw [g1, if_neg (by omega), if_neg (by omega)] at nc; exact nc
  · rw [g1, if_neg (by omega), if_neg (by omega)] at nd; exact nd
  · rw [g2, if_neg (by omega), if_neg (by omega), g1, if_neg (by omega), if_neg (by omega)] at ne; exact ne
  · rw [g2, if_neg (by omega), if_neg (by omega), g1, if_neg (by omega), if_neg (by omega)] at nf; exact nf
  · intro m
    rw [g3, g2, g1]
    by_cases h1 : m = a
    · subst h1; repeat (first | rw [if_pos rfl] | rw [if_neg (by omega)])
    by_cases h2 : m = b
    · subst h2; repeat (first | rw [if_pos rfl] | rw [if_neg (by omega)])
    by_cases h3 : m = c
    · subst h3; repeat (first | rw [if_pos rfl] | rw [if_neg (by omega)])
    by_cases h4 : m = d
    · subst h4; repeat (first | rw [if_pos rfl] | rw [if_neg (by omega)])
    by_cases h5 : m = e
    · subst h5; repeat (first | rw [if_pos rfl] | rw [if_neg (by omega)])
    by_cases h6 : m = f
    · subst h6; repeat (first | rw [if_pos rfl] | rw [if_neg (by omega)])
    simp only [h1, h2, h3, h4, h5, h6, if_false]

end Table

/-- The six descriptors of an object. -/
def Proc.six (p : Proc) : List Int := [p.out0, p.err0, p.in1, p.out1, p.err1, p.in0]

theorem closeOne_get (t : Table) (fd : Int) (m : Nat) :
    (if fd ≠ -1 then t.close fd else t).get m = if (m : Int) = fd then none else t.get m := by
  by_cases h : fd = -1
  · subst h
    rw [if_neg (by omega), if_neg (by omega)]
  · rw [if_pos h, Table.get_close]

theorem cleanup_get (t : Table) (p : Proc) (m : Nat) :
    (Sys.cleanup t p).1.get m = if (m : Int) ∈ p.six then none else t.get m := by
  unfold Sys.cleanup
  dsimp only
  simp only [closeOne_get, Proc.six, List.mem_cons, List.not_mem_nil, or_false]
  generalize (m : Int) = q
  by_cases h6 : q = p.in0
  · rw [if_pos h6, if_pos (by omega)]
  rw [if_neg h6]
  by_cases h5 : q = p.err1
  · rw [if_pos h5, if_pos (by omega)]
  rw [if_neg h5]
  by_cases h4 : q = p.out1
  · rw [if_pos h4, if_pos (by omega)]
  rw [if_neg h4]
  by_cases h3 : q = p.in1
  · rw [if_pos h3, if_pos (by omega)]
  rw [if_neg h3]
  by_cases h2 : q = p.err0
  · rw [if_pos h2, if_pos (by omega)]
  rw [if_neg h2]
  by_cases h1 : q = p.out0
  · rw [if_pos h1, if_pos (by omega)]
  rw [if_neg h1, if_neg (by omega)]

theorem childTable_standard {t t' : Table} {n a b c d e f : Nat} (h : Table.Three t t' n a b c d e f) (p : Proc)
    (h0 : p.out0 = a) (h1 : p.out1 = b) (h2 : p.in0 = c) (h3 : p.in1 = d) (h4 : p.err0 = e) (h5 : p.err1 = f) :
    ∃ r, Sys.childTable false t' p = some r ∧ r.get 0 = some (.readEnd n) ∧ r.get 1 = some (.writeEnd (n + 1)) ∧
      r.get 2 = some (.writeEnd (n + 2)) ∧ ∀ m x, r.get m = some x → ∃ m', t'.get m' = some x := by
  obtain ⟨k1, k2, k3, k4, k5, _, _, _, _, _, _, _, hg⟩ := h
  have g0 : (((t'.close p.out1).close p.in0).close p.err0).get a = some (.readEnd n) := by
    rw [Table.get_close, Table.get_close, Table.get_close, if_neg (by omega), if_neg (by omega), if_neg (by omega), hg, if_pos rfl]
  have gd : (((t'.close p.out1).close p.in0).close p.err0).get d = some (.writeEnd (n + 1)) := by
    rw [Table.get_close, Table.get_close, Table.get_close, if_neg (by omega), if_neg (by omega), if_neg (by omega), hg,
      if_neg (by omega), if_neg (by omega), if_neg (by omega), if_pos rfl]
  have gf : (((t'.close p.out1).close p.in0).close p.err0).get f = some (.writeEnd (n + 2)) := by
    rw [Table.get_close, Table.get_close, Table.get_close, if_neg (by omega), if_neg (by omega), if_neg (by omega), hg,
      if_neg (by omega), if_neg (by omega), if_neg (by omega), if_neg (by omega), if_neg (by omega), if_pos rfl]
  have hd : d ≥ 3 := by omega
  have hf : f ≥ 5 := by omega
  have gx : ∀ m x, (((t'.close p.out1).close p.in0).close p.err0).get m = some x → t'.get m = some x := by
    intro m x hx
    rw [Table.get_close, Table.get_close, Table.get_close] at hx
    split at hx
    · cases hx
    · split at hx
      · cases hx
      · split at hx
        · cases hx
        · exact hx
  generalize hu : ((t'.close p.out1).close p.in0).close p.err0 = u at g0 gd gf gx
  have e1 : u.dup2 p.out0 0 = some (u.put 0 (some (.readEnd n))) := by
    unfold Table.dup2
    rw [h0, show ((a : Int)).toNat = a by omega, g0]; rfl
  have gd' : (u.put 0 (some (.readEnd n))).get d = some (.writeEnd (n + 1)) := by
    rw [Table.get_put, if_neg (by omega), gd]
  have e2 : (u.put 0 (some (.readEnd n))).dup2 p.in1 1 = some ((u.put 0 (some (.readEnd n))).put 1 (some (.writeEnd (n + 1)))) := by
    unfold Table.dup2
    rw [h3, show ((d : Int)).toNat = d by omega, gd']; rfl
  have gf' : ((u.put 0 (some (.readEnd n))).put 1 (some (.writeEnd (n + 1)))).get f = some (.writeEnd (n + 2)) := by
    rw [Table.get_put, if_neg (by omega), Table.get_put, if_neg (by omega), gf]
  have e3 : ((u.put 0 (some (.readEnd n))).put 1 (some (.writeEnd (n + 1)))).dup2 p.err1 2 =
      some (((u.put 0 (some (.readEnd n))).put 1 (some (.writeEnd (n + 1)))).put 2 (some (.writeEnd (n + 2)))) := by
    unfold Table.dup2
    rw [h5, show ((f : Int)).toNat = f by omega, gf']; rfl
  refine ⟨((u.put 0 (some (.readEnd n))).put 1 (some (.writeEnd (n + 1)))).put 2 (some (.writeEnd (n + 2))), ?_, ?_, ?_, ?_, ?_⟩
  · unfold Sys.childTable
    dsimp only
    rw [hu]
    show ((u.dup2 p.out0 0).bind fun t => t.dup2 p.in1 1).bind (fun t => t.dup2 p.err1 2) = _
    rw [e1]
    show ((u.put 0 (some (.readEnd n))).dup2 p.in1 1).bind (fun t => t.dup2 p.err1 2) = _
    rw [e2]
    exact e3
  · simp [Table.get_put]
  · simp [Table.get_put]
  · simp [Table.get_put]
  · intro m x hx
    rw [Table.get_put, Table.get_put, Table.get_put] at hx
    split at hx
    · cases hx; exact ⟨f, gx f _ gf⟩
    · split at hx
      · cases hx; exact ⟨d, gx d _ gd⟩
      · split at hx
        · cases hx; exact ⟨a, gx a _ g0⟩
        · exact ⟨m, gx m x hx⟩

theorem childTable_explicit {t t' : Table} {n a b c d e f : Nat} (h : Table.Three t t' n a b c d e f) (p : Proc)
    (h0 : p.out0 = a) (h1 : p.out1 = b) (h2 : p.in0 = c) (h3 : p.in1 = d) (h4 : p.err0 = e) (h5 : p.err1 = f) :
    ∃ r, Sys.childTable true t' p = some r ∧ (a ≠ 2 → r.get a = some (.readEnd n)) ∧ r.get d = some (.writeEnd (n + 1)) ∧
      r.get 2 = some (.writeEnd (n + 2)) ∧ ∀ m x, r.get m = some x → ∃ m', t'.get m' = some x := by
  obtain ⟨k1, k2, k3, k4, k5, _, _, _, _, _, _, _, hg⟩ := h
  have g0 : (((t'.close p.out1).close p.in0).close p.err0).get a = some (.readEnd n) := by
    rw [Table.get_close, Table.get_close, Table.get_close, if_neg (by omega), if_neg (by omega), if_neg (by omega), hg, if_pos rfl]
  have gd : (((t'.close p.out1).close p.in0).close p.err0).get d = some (.writeEnd (n + 1)) := by
    rw [Table.get_close, Table.get_close, Table.get_close, if_neg (by omega), if_neg (by omega), if_neg (by omega), hg,
      if_neg (by omega), if_neg (by omega), if_neg (by omega), if_pos rfl]
  have gf : (((t'.close p.out1).close p.in0).close p.err0).get f = some (.writeEnd (n + 2)) := by
    rw [Table.get_close, Table.get_close, Table.get_close, if_neg (by omega), if_neg (by omega), if_neg (by omega), hg,
      if_neg (by omega), if_neg (by omega), if_neg (by omega), if_neg (by omega), if_neg (by omega), if_pos rfl]
  have gx : ∀ m x, (((t'.close p.out1).close p.in0).close p.err0).get m = some x → t'.get m = some x := by
    intro m x hx
    rw [Table.get_close, Table.get_close, Table.get_close] at hx
    split at hx
    · cases hx
    · split at hx
      · cases hx
      · split at hx
        · cases hx
        · exact hx
  generalize hu : ((t'.close p.out1).close p.in0).close p.err0 = u at g0 gd gf gx
  have e3 : u.dup2 p.err1 2 = some (u.put 2 (some (.writeEnd (n + 2)))) := by
    unfold Table.dup2
    rw [h5, show ((f : Int)).toNat = f by omega, gf]; rfl
  refine ⟨u.put 2 (some (.writeEnd (n + 2))), ?_, ?_, ?_, ?_, ?_⟩
  · unfold Sys.childTable
    dsimp only
    rw [hu]
    exact e3
  · intro h2
    rw [Table.get_put, if_neg h2, g0]
  · rw [Table.get_put, if_neg (by omega), gd]
  · simp [Table.get_put]
  · intro m x hx
    rw [Table.get_put] at hx
    split at hx
    · cases hx; exact ⟨f, gx f _ gf⟩
    · exact ⟨m, gx m x hx⟩

/-- What a start does whose pipes are made. -/
theorem start_spec (explicit : Bool) (t : Table) (n : Nat) (p : Proc) (result : Start) (hr : ∀ k, result ≠ .noPipe k) :
    ∃ a b c d e f t', Table.Three t t' n a b c d e f ∧
    ((result = .started ∧ ∃ r, Sys.childTable explicit t' { p with out0 := a, out1 := b, in0 := c, in1 := d, err0 := e, err1 := f, stdin := -1, stdout := -1, stderr := -1 } = some r ∧
      Sys.start explicit t n p result =
        (t', { p with out0 := a, out1 := b, in0 := c, in1 := d, err0 := e, err1 := f, stdin := b, stdout := c, stderr := e, running := true }, n + 3, some r)) ∨
     (result = .noSpawn ∧ ∃ t'' p', Sys.start explicit t n p result = (t'', p', n + 3, none) ∧ (∀ fd ∈ p'.six, fd = -1) ∧ p'.running = false ∧
      ∀ m, t''.get m = t.get m)) := by
  obtain ⟨a, b, c, d, e, f, e1, e2, e3, h3⟩ := Table.three_pipes t n
  refine ⟨a, b, c, d, e, f, _, h3, ?_⟩
  have ea : (t.pipe n).2.1 = (a : Int) := by rw [e1]
  have eb : (t.pipe n).2.2 = (b : Int) := by rw [e1]
  have ec : ((t.pipe n).1.pipe (n + 1)).2.1 = (c : Int) := by rw [e2]
  have ed : ((t.pipe n).1.pipe (n + 1)).2.2 = (d : Int) := by rw [e2]
  have ee : ((((t.pipe n).1.pipe (n + 1)).1).pipe (n + 2)).2.1 = (e : Int) := by rw [e3]
  have ef : ((((t.pipe n).1.pipe (n + 1)).1).pipe (n + 2)).2.2 = (f : Int) := by rw [e3]
  cases result with
  | noPipe k => exact absurd rfl (hr k)
  | started =>
    left
    refine ⟨rfl, ?_⟩
    have hc : ∃ r, Sys.childTable explicit ((((t.pipe n).1.pipe (n + 1)).1).pipe (n + 2)).1
        { p with out0 := a, out1 := b, in0 := c, in1 := d, err0 := e, err1 := f, stdin := -1, stdout := -1, stderr := -1 } = some r := by
      cases explicit with
      | false => obtain ⟨r, hr, _⟩ := childTable_standard h3 { p with out0 := a, out1 := b, in0 := c, in1 := d, err0 := e, err1 := f, stdin := -1, stdout := -1, stderr := -1 } rfl rfl rfl rfl rfl rfl; exact ⟨r, hr⟩
      | true => obtain ⟨r, hr, _⟩ := childTable_explicit h3 { p with out0 := a, out1 := b, in0 := c, in1 := d, err0 := e, err1 := f, stdin := -1, stdout := -1, stderr := -1 } rfl rfl rfl rfl rfl rfl; exact ⟨r, hr⟩
    obtain ⟨r, hr⟩ := hc
    refine ⟨r, hr, ?_⟩
    unfold Sys.start
    dsimp only
    rw [ea, eb, ec, ed, ee, ef]
    rw [hr]
  | noSpawn =>
    right
    refine ⟨rfl, ?_⟩
    unfold Sys.start
    dsimp only
    rw [ea, eb, ec, ed, ee, ef]
    refine ⟨_, _, rfl, ?_, rfl, ?_⟩
    · intro fd hfd
      simpa [Proc.six, Sys.cleanup] using hfd
    · intro m
      rw [cleanup_get, h3.get]
      obtain ⟨k1, k2, k3, k4, k5, _, na, nb, nc, nd, ne, nf, _⟩ := h3
      simp only [Proc.six, List.mem_cons, List.not_mem_nil, or_false]
      by_cases h1 : m = a
      · subst h1; rw [if_pos (by omega), na]
      by_cases h2 : m = b
      · subst h2; rw [if_pos (by omega), nb]
      by_cases h3 : m = c
      · subst h3; rw [if_pos (by omega), nc]
      by_cases h4 : m = d
      · subst h4; rw [if_pos (by omega), nd]
      by_cases h5 : m = e
      · subst h5; rw [if_pos (by omega), ne]
      by_cases h6 : m = f
      · subst h6; rw [if_pos (by omega), nf]
      rw [if_neg (by omega)]
      simp only [h1, h2, h3, h4, h5, h6, if_false]

/-- The number of the pipe. -/
def below (n : Nat) : File → Prop
  | .user _ => True
  | .readEnd p => p < n
  | .writeEnd p => p < n

/-- What holds in every state. -/
structure Inv (s : Sys) : Prop where
  own : ∀ k p, s.procs k = some p → ∀ fd ∈ p.six, fd = -1 ∨ ∃ m f, fd = ((m : Nat) : Int) ∧ PipeEnd f ∧ s.table.get m = some f
  owned : ∀ m f, s.table.get m = some f → PipeEnd f → ∃ k p, s.procs k = some p ∧ (m : Int) ∈ p.six
  apart : ∀ k k' p p', s.procs k = some p → s.procs k' = some p' → ∀ fd ∈ p.six, fd ∈ p'.six → fd = -1 ∨ k = k'
  fresh : ∀ m f, s.table.get m = some f → below s.nextPipe f
  freshChild : ∀ k t, s.children k = some t → ∀ m f, t.get m = some f → below s.nextPipe f
  alive : ∀ k, s.children k ≠ none → ∃ p, s.procs k = some p ∧ p.running = true

theorem below_mono {n m : Nat} (h : n ≤ m) {f : File} (hb : below n f) : below m f := by
  cases f <;> simp only [below] at * <;> omega

theorem Inv.initial {s : Sys} (h : Initial s) : Inv s := by
  obtain ⟨h1, h2, h3⟩ := h
  refine ⟨?_, ?_, ?_, ?_, ?_, ?_⟩
  · intro k p hp; rw [h2] at hp; cases hp
  · intro m f hm hf; exact absurd hf (h1 m f hm)
  · intro k k' p p' hp; rw [h2] at hp; cases hp
  · intro m f hm
    have := h1 m f hm
    cases f with
    | user => trivial
    | readEnd => exact absurd trivial this
    | writeEnd => exact absurd trivial this
  · intro k t hk; rw [h3] at hk; cases hk
  · intro k hk; exact absurd (h3 k) hk

theorem upd_same {α : Type} (f : Nat → α) (k : Nat) (x : α) : upd f k x k = x := by simp [upd]

theorem upd_ne {α : Type} (f : Nat → α) {k i : Nat} (x : α) (h : i ≠ k) : upd f k x i = f i := by simp [upd, h]

/-- The state after a start whose pipes are made: either it failed and the table is as before, or it has
six more descriptors. -/
theorem launch_spec (s : Sys) (k : Nat) (explicit : Bool) (g : Proc) (result : Start) (hr : ∀ n, result ≠ .noPipe n) :
    (∃ t' p, s.launch k explicit g result = ⟨t', s.nextPipe + 3, upd s.procs k (some p), upd s.children k none⟩ ∧ result = .noSpawn ∧
      (∀ fd ∈ p.six, fd = -1) ∧ ∀ m, t'.get m = s.table.get m) ∨
    (∃ t' p r a b c d e f, s.launch k explicit g result = ⟨t', s.nextPipe + 3, upd s.procs k (some p), upd s.children k (some r)⟩ ∧
      result = .started ∧ Table.Three s.table t' s.nextPipe a b c d e f ∧ Sys.childTable explicit t' p = some r ∧
      p.out0 = (a : Int) ∧ p.out1 = (b : Int) ∧ p.in0 = (c : Int) ∧ p.in1 = (d : Int) ∧ p.err0 = (e : Int) ∧ p.err1 = (f : Int) ∧
      p.stdin = (b : Int) ∧ p.stdout = (c : Int) ∧ p.stderr = (e : Int) ∧ p.running = true) := by
  obtain ⟨a, b, c, d, e, f, t', h3, h⟩ := start_spec explicit s.table s.nextPipe (Sys.construct g) result hr
  rcases h with ⟨h1, r, h2, h4⟩ | ⟨h1, t'', p', h2, h4, h5, h6⟩
  · right
    refine ⟨t', Proc.mk a b c d e f b c e true, r, a, b, c, d, e, f, ?_, h1, h3, ?_, rfl, rfl, rfl, rfl, rfl, rfl, rfl, rfl, rfl, rfl⟩
    · unfold Sys.launch
      rw [h4]
    · exact h2
  · left
    refine ⟨t'', p', ?_, h1, h4, h6⟩
    unfold Sys.launch
    rw [h2]

theorem child_files {explicit : Bool} {t t' : Table} {n a b c d e f : Nat} (h : Table.Three t t' n a b c d e f) (p : Proc)
    (h0 : p.out0 = a) (h1 : p.out1 = b) (h2 : p.in0 = c) (h3 : p.in1 = d) (h4 : p.err0 = e) (h5 : p.err1 = f)
    {r : Table} (hr : Sys.childTable explicit t' p = some r) : ∀ m x, r.get m = some x → ∃ m', t'.get m' = some x := by
  cases explicit with
  | false =>
    obtain ⟨r', hr', _, _, _, h⟩ := childTable_standard h p h0 h1 h2 h3 h4 h5
    rw [hr] at hr'; cases hr'; exact h
  | true =>
    obtain ⟨r', hr', _, _, _, h⟩ := childTable_explicit h p h0 h1 h2 h3 h4 h5
    rw [hr] at hr'; cases hr'; exact h

theorem Table.Three.cases {t t' : Table} {n a b c d e f : Nat} (h : Table.Three t t' n a b c d e f) {m : Nat} {x : File}
    (hx : t'.get m = some x) : (t.get m = some x ∧ m ≠ a ∧ m ≠ b ∧ m ≠ c ∧ m ≠ d ∧ m ≠ e ∧ m ≠ f) ∨
      ((m = a ∨ m = b ∨ m = c ∨ m = d ∨ m = e ∨ m = f) ∧ PipeEnd x ∧ below (n + 3) x ∧ ¬ below n x) := by
  rw [h.get] at hx
  split at hx
  · cases hx; refine .inr ⟨by omega, trivial, ?_, ?_⟩ <;> simp only [below] <;> omega
  · split at hx
    · cases hx; refine .inr ⟨by omega, trivial, ?_, ?_⟩ <;> simp only [below] <;> omega
    · split at hx
      · cases hx; refine .inr ⟨by omega, trivial, ?_, ?_⟩ <;> simp only [below] <;> omega
      · split at hx
        · cases hx; refine .inr ⟨by omega, trivial, ?_, ?_⟩ <;> simp only [below] <;> omega
        · split at hx
          · cases hx; refine .inr ⟨by omega, trivial, ?_, ?_⟩ <;> simp only [below] <;> omega
          · split at hx
            · cases hx; refine .inr ⟨by omega, trivial, ?_, ?_⟩ <;> simp only [below] <;> omega
            · left; exact ⟨hx, by assumption, by assumption, by assumption, by assumption, by assumption, by assumption⟩

theorem Table.Three.old {t t' : Table} {n a b c d e f : Nat} (h : Table.Three t t' n a b c d e f) {m : Nat} {x : File}
    (hx : t.get m = some x) : t'.get m = some x := by
  obtain ⟨_, _, _, _, _, _, na, nb, nc, nd, ne, nf, hg⟩ := h
  rw [hg]
  rw [if_neg (by rintro rfl; rw [na] at hx; cases hx), if_neg (by rintro rfl; rw [nb] at hx; cases hx),
    if_neg (by rintro rfl; rw [nc] at hx; cases hx), if_neg (by rintro rfl; rw [nd] at hx; cases hx),
    if_neg (by rintro rfl; rw [ne] at hx; cases hx), if_neg (by rintro rfl; rw [nf] at hx; cases hx)]
  exact hx

theorem Inv.launch {s : Sys} (h : Inv s) {k : Nat} (hk : s.procs k = none) (explicit : Bool) (g : Proc) {result : Start}
    (hr : ∀ n, result ≠ .noPipe n) : Inv (s.launch k explicit g result) := by
  rcases launch_spec s k explicit g result hr with ⟨t', p, he, _, hp, ht⟩ | ⟨t', p, r, a, b, c, d, e, f, he, _, h3, hc, e0, e1, e2, e3, e4, e5, _, _, _, hrun⟩
  · rw [he]
    refine ⟨?_, ?_, ?_, ?_, ?_, ?_⟩ <;> dsimp only
    · intro i q hq fd hfd
      by_cases hi : i = k
      · subst hi; rw [upd_same] at hq; cases hq; exact .inl (hp fd hfd)
      · rw [upd_ne _ _ hi] at hq
        rcases h.own i q hq fd hfd with h1 | ⟨m, f, h1, h2, h3⟩
        · exact .inl h1
        · exact .inr ⟨m, f, h1, h2, by rw [ht]; exact h3⟩
    · intro m f hm hf
      rw [ht] at hm
      obtain ⟨i, q, hq, hm'⟩ := h.owned m f hm hf
      have hi : i ≠ k := by rintro rfl; rw [hk] at hq; cases hq
      exact ⟨i, q, by rw [upd_ne _ _ hi]; exact hq, hm'⟩
    · intro i j q q' hq hq' fd hfd hfd'
      by_cases hi : i = k
      · subst hi; rw [upd_same] at hq; cases hq; exact .inl (hp fd hfd)
      · by_cases hj : j = k
        · subst hj; rw [upd_same] at hq'; cases hq'; exact .inl (hp fd hfd')
        · rw [upd_ne _ _ hi] at hq
          rw [upd_ne _ _ hj] at hq'
          exact h.apart i j q q' hq hq' fd hfd hfd'
    · intro m f hm
      rw [ht] at hm
      exact below_mono (by omega) (h.fresh m f hm)
    · intro i t hi m f hm
      by_cases hik : i = k
      · subst hik; rw [upd_same] at hi; cases hi
      · rw [upd_ne _ _ hik] at hi
        exact below_mono (by omega) (h.freshChild i t hi m f hm)
    · intro i hi
      by_cases hik : i = k
      · subst hik; rw [upd_same] at hi; exact absurd rfl hi
      · rw [upd_ne _ _ hik] at hi ⊢
        exact h.alive i hi
  · rw [he]
    have hsix : ∀ fd, fd ∈ p.six ↔ fd = (a : Int) ∨ fd = (e : Int) ∨ fd = (d : Int) ∨ fd = (b : Int) ∨ fd = (f : Int) ∨ fd = (c : Int) := by
      intro fd
      simp only [Proc.six, e0, e1, e2, e3, e4, e5, List.mem_cons, List.not_mem_nil, or_false]
    have hnone : ∀ m : Nat, (m : Int) ∈ p.six → s.table.get m = none := by
      intro m hm
      obtain ⟨_, _, _, _, _, _, na, nb, nc, nd, ne, nf, _⟩ := h3
      rw [hsix] at hm
      rcases hm with hm | hm | hm | hm | hm | hm <;> (have hm := Int.ofNat.inj hm; subst hm; assumption)
    refine ⟨?_, ?_, ?_, ?_, ?_, ?_⟩ <;> dsimp only
    · intro i q hq fd hfd
      by_cases hi : i = k
      · subst hi; rw [upd_same] at hq; cases hq
        right
        obtain ⟨k1, k2, k3, k4, k5, _, na, nb, nc, nd, ne, nf, hg⟩ := h3
        rcases (hsix fd).1 hfd with rfl | rfl | rfl | rfl | rfl | rfl
        · exact ⟨a, .readEnd s.nextPipe, rfl, trivial, by rw [hg, if_pos rfl]⟩
        · exact ⟨e, .readEnd (s.nextPipe + 2), rfl, trivial, by
            rw [hg, if_neg (by omega), if_neg (by omega), if_neg (by omega), if_neg (by omega), if_pos rfl]⟩
        · exact ⟨d, .writeEnd (s.nextPipe + 1), rfl, trivial, by
            rw [hg, if_neg (by omega), if_neg (by omega), if_neg (by omega), if_pos rfl]⟩
        · exact ⟨b, .writeEnd s.nextPipe, rfl, trivial, by rw [hg, if_neg (by omega), if_pos rfl]⟩
        · exact ⟨f, .writeEnd (s.nextPipe + 2), rfl, trivial, by
            rw [hg, if_neg (by omega), if_neg (by omega), if_neg (by omega), if_neg (by omega), if_neg (by omega), if_pos rfl]⟩
        · exact ⟨c, .readEnd (s.nextPipe + 1), rfl, trivial, by rw [hg, if_neg (by omega), if_neg (by omega), if_pos rfl]⟩
      · rw [upd_ne _ _ hi] at hq
        rcases h.own i q hq fd hfd with h1 | ⟨m, f, h1, h2, h4⟩
        · exact .inl h1
        · exact .inr ⟨m, f, h1, h2, h3.old h4⟩
    · intro m x hm hx
      rcases h3.cases hm with ⟨h1, _⟩ | ⟨h1, _⟩
      · obtain ⟨i, q, hq, hm'⟩ := h.owned m x h1 hx
        have hi : i ≠ k := by rintro rfl; rw [hk] at hq; cases hq
        exact ⟨i, q, by rw [upd_ne _ _ hi]; exact hq, hm'⟩
      · exact ⟨k, p, upd_same _ _ _, by rw [hsix]; omega⟩
    · intro i j q q' hq hq' fd hfd hfd'
      by_cases hi : i = k
      · by_cases hj : j = k
        · exact .inr (hi.trans hj.symm)
        · subst hi; rw [upd_same] at hq; cases hq
          rw [upd_ne _ _ hj] at hq'
          rcases h.own j q' hq' fd hfd' with h1 | ⟨m, x, rfl, h2, h4⟩
          · exact .inl h1
          · rw [hnone m hfd] at h4; cases h4
      · by_cases hj : j = k
        · subst hj; rw [upd_same] at hq'; cases hq'
          rw [upd_ne _ _ hi] at hq
          rcases h.own i q hq fd hfd with h1 | ⟨m, x, rfl, h2, h4⟩
          · exact .inl h1
          · rw [hnone m hfd'] at h4; cases h4
        · rw [upd_ne _ _ hi] at hq
          rw [upd_ne _ _ hj] at hq'
          exact h.apart i j q q' hq hq' fd hfd hfd'
    · intro m x hm
      rcases h3.cases hm with ⟨h1, _⟩ | ⟨_, _, h1, _⟩
      · exact below_mono (by omega) (h.fresh m x h1)
      · exact h1
    · intro i t hi m x hm
      by_cases hik : i = k
      · subst hik; rw [upd_same] at hi; cases hi
        obtain ⟨m', hm'⟩ := child_files h3 p e0 e1 e2 e3 e4 e5 hc m x hm
        rcases h3.cases hm' with ⟨h1, _⟩ | ⟨_, _, h1, _⟩
        · exact below_mono (by omega) (h.fresh m' x h1)
        · exact h1
      · rw [upd_ne _ _ hik] at hi
        exact below_mono (by omega) (h.freshChild i t hi m x hm)
    · intro i hi
      by_cases hik : i = k
      · subst hik; exact ⟨p, upd_same _ _ _, hrun⟩
      · rw [upd_ne _ _ hik] at hi ⊢
        exact h.alive i hi

theorem Inv.exit {s : Sys} (h : Inv s) (k : Nat) : Inv (s.exit k) := by
  refine ⟨h.own, h.owned, h.apart, h.fresh, ?_, ?_⟩
  · intro i t hi
    simp only [Sys.exit] at hi
    by_cases hik : i = k
    · subst hik; rw [upd_same] at hi; cases hi
    · rw [upd_ne _ _ hik] at hi; exact h.freshChild i t hi
  · intro i hi
    simp only [Sys.exit] at hi
    by_cases hik : i = k
    · subst hik; rw [upd_same] at hi; exact absurd rfl hi
    · rw [upd_ne _ _ hik] at hi; exact h.alive i hi

theorem reap_spec (s : Sys) (k : Nat) : s.reap k = s ∨ ∃ p, s.procs k = some p ∧ s.children k = none ∧
    s.reap k = { s with procs := upd s.procs k (some { p with running := false }) } := by
  unfold Sys.reap
  split
  · next p h1 h2 => exact .inr ⟨p, h1, h2, rfl⟩
  · exact .inl rfl

theorem Inv.reap {s : Sys} (h : Inv s) (k : Nat) : Inv (s.reap k) := by
  rcases reap_spec s k with e | ⟨p, hp, hc, e⟩
  · rw [e]; exact h
  · rw [e]
    have back : ∀ i q, upd s.procs k (some { p with running := false }) i = some q → ∃ q', s.procs i = some q' ∧ q'.six = q.six := by
      intro i q hq
      by_cases hi : i = k
      · subst hi; rw [upd_same] at hq; cases hq; exact ⟨p, hp, rfl⟩
      · rw [upd_ne _ _ hi] at hq; exact ⟨q, hq, rfl⟩
    refine ⟨?_, ?_, ?_, h.fresh, h.freshChild, ?_⟩ <;> dsimp only
    · intro i q hq fd hfd
      obtain ⟨q', hq', e⟩ := back i q hq
      exact h.own i q' hq' fd (by rw [e]; exact hfd)
    · intro m f hm hf
      obtain ⟨i, q, hq, hm'⟩ := h.owned m f hm hf
      by_cases hi : i = k
      · subst hi; rw [hp] at hq; cases hq
        exact ⟨i, _, upd_same _ _ _, hm'⟩
      · exact ⟨i, q, by rw [upd_ne _ _ hi]; exact hq, hm'⟩
    · intro i j q q' hq hq' fd hfd hfd'
      obtain ⟨r, hr, e⟩ := back i q hq
      obtain ⟨r', hr', e'⟩ := back j q' hq'
      exact h.apart i j r r' hr hr' fd (by rw [e]; exact hfd) (by rw [e']; exact hfd')
    · intro i hi
      by_cases hik : i = k
      · subst hik; exact absurd hc hi
      · rw [upd_ne _ _ hik]; exact h.alive i hi

theorem destroy_spec (s : Sys) (k : Nat) (h : Inv s) : (s.procs k = none ∧ s.destroy k = s) ∨ ∃ p, s.procs k = some p ∧
    (s.destroy k).table = (Sys.cleanup s.table p).1 ∧ (s.destroy k).nextPipe = s.nextPipe ∧ (s.destroy k).procs = upd s.procs k none ∧
    (s.destroy k).children = upd s.children k none := by
  unfold Sys.destroy
  cases hp : s.procs k with
  | none => exact .inl ⟨rfl, rfl⟩
  | some p =>
    right
    refine ⟨p, rfl, ?_⟩
    dsimp only
    by_cases hr : p.running = true
    · rw [if_pos hr]; exact ⟨rfl, rfl, rfl, rfl⟩
    · rw [if_neg hr]
      refine ⟨rfl, rfl, rfl, ?_⟩
      have : s.children k = none := by
        cases hc : s.children k with
        | none => rfl
        | some t =>
          obtain ⟨q, hq, hq'⟩ := h.alive k (by rw [hc]; simp)
          rw [hp] at hq; cases hq; exact absurd hq' hr
      funext i
      by_cases hi : i = k
      · subst hi; rw [upd_same]; exact this
      · rw [upd_ne _ _ hi]

theorem Inv.destroy {s : Sys} (h : Inv s) (k : Nat) : Inv (s.destroy k) := by
  rcases destroy_spec s k h with ⟨_, e⟩ | ⟨p, hp, e1, e2, e3, e4⟩
  · rw [e]; exact h
  · refine ⟨?_, ?_, ?_, ?_, ?_, ?_⟩
    · intro i q hq fd hfd
      rw [e3] at hq
      have hi : i ≠ k := by rintro rfl; rw [upd_same] at hq; cases hq
      rw [upd_ne _ _ hi] at hq
      rcases h.own i q hq fd hfd with h1 | ⟨m, f, rfl, h2, h4⟩
      · exact .inl h1
      · refine .inr ⟨m, f, rfl, h2, ?_⟩
        rw [e1, cleanup_get, if_neg, h4]
        intro hm
        rcases h.apart i k q p hq hp m hfd hm with h5 | h5
        · omega
        · exact hi h5
    · intro m f hm hf
      rw [e1, cleanup_get] at hm
      split at hm
      · cases hm
      · next hn =>
        obtain ⟨i, q, hq, hm'⟩ := h.owned m f hm hf
        have hi : i ≠ k := by rintro rfl; rw [hp] at hq; cases hq; exact hn hm'
        exact ⟨i, q, by rw [e3, upd_ne _ _ hi]; exact hq, hm'⟩
    · intro i j q q' hq hq'
      rw [e3] at hq hq'
      have hi : i ≠ k := by rintro rfl; rw [upd_same] at hq; cases hq
      have hj : j ≠ k := by rintro rfl; rw [upd_same] at hq'; cases hq'
      rw [upd_ne _ _ hi] at hq
      rw [upd_ne _ _ hj] at hq'
      exact h.apart i j q q' hq hq'
    · intro m f hm
      rw [e1, cleanup_get] at hm
      rw [e2]
      split at hm
      · cases hm
      · exact h.fresh m f hm
    · intro i t hi
      rw [e4] at hi
      rw [e2]
      have hik : i ≠ k := by rintro rfl; rw [upd_same] at hi; cases hi
      rw [upd_ne _ _ hik] at hi
      exact h.freshChild i t hi
    · intro i hi
      rw [e4] at hi
      have hik : i ≠ k := by rintro rfl; rw [upd_same] at hi; exact hi rfl
      rw [upd_ne _ _ hik] at hi
      rw [e3, upd_ne _ _ hik]
      exact h.alive i hi

theorem Inv.userOpen {s : Sys} (h : Inv s) (id : Nat) : Inv (s.userOpen id) := by
  have hn := Table.get_lowest s.table
  have hg : ∀ m, (s.userOpen id).table.get m = if m = s.table.lowest then some (.user id) else s.table.get m := fun m => Table.get_put _ _ _ m
  refine ⟨?_, ?_, h.apart, ?_, h.freshChild, h.alive⟩
  · intro i q hq fd hfd
    rcases h.own i q hq fd hfd with h1 | ⟨m, f, rfl, h2, h4⟩
    · exact .inl h1
    · refine .inr ⟨m, f, rfl, h2, ?_⟩
      rw [hg, if_neg, h4]
      rintro rfl
      rw [hn] at h4; cases h4
  · intro m f hm hf
    rw [hg] at hm
    split at hm
    · cases hm; exact absurd hf (by simp [PipeEnd])
    · exact h.owned m f hm hf
  · intro m f hm
    rw [hg] at hm
    split at hm
    · cases hm; trivial
    · exact h.fresh m f hm

theorem Inv.userClose {s : Sys} (h : Inv s) {fd : Nat} (hc : ∀ f, s.table.get fd = some f → ¬ PipeEnd f) : Inv (s.userClose fd) := by
  have hg : ∀ m, (s.userClose fd).table.get m = if m = fd then none else s.table.get m := fun m => Table.get_put _ _ _ m
  refine ⟨?_, ?_, h.apart, ?_, h.freshChild, h.alive⟩
  · intro i q hq x hx
    rcases h.own i q hq x hx with h1 | ⟨m, f, rfl, h2, h4⟩
    · exact .inl h1
    · refine .inr ⟨m, f, rfl, h2, ?_⟩
      rw [hg, if_neg, h4]
      rintro rfl
      exact hc f h4 h2
  · intro m f hm hf
    rw [hg] at hm
    split at hm
    · cases hm
    · exact h.owned m f hm hf
  · intro m f hm
    rw [hg] at hm
    split at hm
    · cases hm
    · exact h.fresh m f hm

theorem Inv.step {s : Sys} (h : Inv s) {o : Op} (hc : Careful s o) : Inv (s.step o) := by
  cases o with
  | launch k x g r => exact h.launch hc.1 x g hc.2
  | exit k => exact h.exit k
  | reap k => exact h.reap k
  | destroy k => exact h.destroy k
  | userOpen id => exact h.userOpen id
  | userClose fd => exact h.userClose hc

theorem Inv.run {s : Sys} (h : Inv s) {l : List Op} (hc : CarefulRun s l) : Inv (s.run l) := by
  induction l generalizing s with
  | nil => exact h
  | cons o l ih => exact ih (h.step hc.1) hc.2

theorem Inv.reachable {s : Sys} (h : Reachable s) : Inv s := by
  obtain ⟨s0, l, h1, h2, rfl⟩ := h
  exact (Inv.initial h1).run h2

end Trax.Fds
