import Verif.Model.ClientLocks

/-!
# C175: the threads of a client do not wait for each other forever
-/

namespace Trax.ClientLocks

/-! ## The order of the mutexes -/

def rank : Mutex → Nat
  | .watchdog => 0
  | .processState => 1
  | .object => 2
  | .logger => 3
  | .console => 4
  | .signal => 5

theorem rank_inj {a b : Mutex} (h : rank a = rank b) : a = b := by cases a <;> cases b <;> first | rfl | (simp [rank] at h)

/-- A mutex may be acquired by a thread that holds these. -/
def May (held : List Mutex) (m : Mutex) : Prop := (m ∈ held ∧ m.recursive = true) ∨ ∀ x ∈ held, rank x < rank m

/-- The accesses keep to the order, and give everything back. -/
def Ok : List Mutex → List Act → Prop
  | held, [] => held = []
  | held, .acquire m :: rest => May held m ∧ Ok (m :: held) rest
  | [], .release _ :: _ => False
  | x :: held, .release m :: rest => x = m ∧ Ok held rest
  | held, .work :: rest => Ok held rest
  | held, .join _ :: rest => held = [] ∧ Ok held rest

theorem ok_done {held : List Mutex} (h : Ok held []) : held = [] := by cases held <;> simpa [Ok] using h

theorem ok_work (held : List Mutex) (rest : List Act) : Ok held (.work :: rest) = Ok held rest := by cases held <;> rfl
theorem ok_acquire (held : List Mutex) (m : Mutex) (rest : List Act) : Ok held (.acquire m :: rest) = (May held m ∧ Ok (m :: held) rest) := by cases held <;> rfl
theorem ok_join (held : List Mutex) (t : Nat) (rest : List Act) : Ok held (.join t :: rest) = (held = [] ∧ Ok held rest) := by cases held <;> rfl

/-- Accesses that a thread with these mutexes may make, and that leave it with the same ones; they wait for no thread. -/
structure Bal (held : List Mutex) (f : List Act) : Prop where
  ok : ∀ rest, Ok held rest → Ok held (f ++ rest)
  nojoin : ∀ t, .join t ∉ f

theorem bal_nil (held : List Mutex) : Bal held [] := ⟨fun _ h => h, fun _ h => (by cases h)⟩

theorem bal_append {held : List Mutex} {f g : List Act} (hf : Bal held f) (hg : Bal held g) : Bal held (f ++ g) :=
  ⟨fun rest h => by rw [List.append_assoc]; exact hf.ok _ (hg.ok _ h), fun t h => (List.mem_append.1 h).elim (hf.nojoin t) (hg.nojoin t)⟩

theorem bal_work {held : List Mutex} {f : List Act} (hf : Bal held f) : Bal held (.work :: f) :=
  ⟨fun rest h => by rw [List.cons_append, ok_work]; exact hf.ok _ h, fun t h => (by
    rcases List.mem_cons.1 h with h | h
    · cases h
    · exact hf.nojoin t h)⟩

theorem bal_locked {held : List Mutex} {m : Mutex} {f : List Act} (hm : May held m) (hf : Bal (m :: held) f) : Bal held (locked m f) :=
  ⟨fun rest h => by
    unfold locked
    rw [List.cons_append, ok_acquire, List.append_assoc]
    exact ⟨hm, hf.ok _ ⟨rfl, h⟩⟩, fun t h => (by
    unfold locked at h
    rcases List.mem_cons.1 h with h | h
    · cases h
    · rcases List.mem_append.1 h with h | h
      · exact hf.nojoin t h
      · cases List.mem_singleton.1 h)⟩

theorem bal_flatten {held : List Mutex} : ∀ {l : List (List Act)}, (∀ f ∈ l, Bal held f) → Bal held l.flatten
  | [], _ => bal_nil held
  | f :: l, h => by
    rw [List.flatten_cons]
    exact bal_append (h f (by simp)) (bal_flatten fun g hg => h g (by simp [hg]))

theorem bal_replicate {held : List Mutex} {f : List Act} (n : Nat) (h : Bal held f) : Bal held (List.replicate n f).flatten :=
  bal_flatten fun g hg => by rw [List.eq_of_mem_replicate hg]; exact h

theorem bal_ite {held : List Mutex} {b : Bool} {f g : List Act} (hf : Bal held f) (hg : Bal held g) : Bal held (if b = true then f else g) := by
  cases b <;> assumption

/-- All of these are below the mutex. -/
def Below (held : List Mutex) (n : Nat) : Prop := ∀ x ∈ held, rank x < n

theorem Below.may {held : List Mutex} {m : Mutex} (h : Below held (rank m)) : May held m := .inr h

theorem Below.cons {held : List Mutex} {m : Mutex} {n : Nat} (h : Below held n) (hm : rank m < n) : Below (m :: held) n := by
  intro x hx
  rcases List.mem_cons.1 hx with rfl | hx
  · exact hm
  · exact h x hx

theorem Below.mono {held : List Mutex} {n k : Nat} (h : Below held n) (hk : n ≤ k) : Below held k := fun x hx => Nat.lt_of_lt_of_le (h x hx) hk

theorem below_nil (n : Nat) : Below [] n := fun _ h => (by cases h)

/-! ## The functions -/

theorem bal_writeLog (e : Env) {held : List Mutex} (h : Below held 4) : Bal held (writeLog e) :=
  bal_ite (bal_locked (m := .console) (Below.may h) (bal_work (bal_nil _))) (bal_work (bal_nil _))

theorem bal_line (e : Env) {held : List Mutex} (h : Below held 3) : Bal held (locked .logger (writeLog e)) :=
  bal_locked (m := .logger) (Below.may h) (bal_writeLog e (Below.cons (Below.mono h (by decide)) (by decide)))

theorem bal_printDebug (e : Env) {held : List Mutex} (h : Below held 3) : Bal held (printDebug e) :=
  bal_ite (bal_work (bal_line e h)) (bal_nil _)

theorem bal_clientLogger (e : Env) (n : Nat) {held : List Mutex} (h : Below held 3) : Bal held (clientLogger e n) :=
  bal_replicate n (bal_work (bal_line e h))

theorem bal_resetLogger {held : List Mutex} (h : Below held 3) : Bal held resetLogger :=
  bal_locked (m := .logger) (Below.may h) (bal_work (bal_nil _))

theorem bal_ask {held : List Mutex} (h : Below held 2) : Bal held ask :=
  bal_locked (m := .object) (Below.may h) (bal_work (bal_nil _))

theorem bal_endProcess (r : Bool) {held : List Mutex} (h : Below held 2) : Bal held (endProcess r) :=
  bal_locked (m := .object) (Below.may h) (bal_ite (bal_work (bal_locked (m := .object) (.inl ⟨by simp, rfl⟩) (bal_work (bal_nil _)))) (bal_nil _))

theorem bal_destroyProcess (r : Bool) {held : List Mutex} (h : Below held 2) : Bal held (destroyProcess r) :=
  bal_append (bal_append (bal_endProcess r h) (bal_locked (m := .object) (Below.may h) (bal_work (bal_nil _)))) (bal_work (bal_nil _))

theorem bal_processRunning (there : Bool) {held : List Mutex} (h : Below held 1) : Bal held (processRunning there) :=
  bal_locked (m := .processState) (Below.may h) (bal_ite (bal_ask (Below.cons (Below.mono h (by decide)) (by decide))) (bal_nil _))

theorem bal_signal {held : List Mutex} {f : List Act} (h : Below held 5) (hf : Bal (.signal :: held) f) : Bal held (locked .signal f) := bal_locked (m := .signal) (Below.may h) hf

theorem bal_signalWait {held : List Mutex} (h : Below held 5) : Bal held signalWait :=
  bal_append (bal_append (bal_signal h (bal_nil _)) (bal_work (bal_nil _))) (bal_signal h (bal_nil _))

theorem bal_signalNotify {held : List Mutex} (h : Below held 5) : Bal held signalNotify := bal_signal h (bal_work (bal_nil _))

theorem bal_flushStreams (e : Env) (reads : List Nat) {held : List Mutex} (h : Below held 2) : Bal held (flushStreams e reads) :=
  bal_append (bal_append (bal_append (bal_printDebug e (Below.mono h (by decide))) (bal_flatten fun f hf => by
    obtain ⟨n, _, rfl⟩ := List.mem_map.1 hf
    exact bal_append (bal_append (bal_append (bal_ask h) (bal_work (bal_nil _))) (bal_clientLogger e n (Below.mono h (by decide)))) (bal_work (bal_nil _))))
    (bal_ask h)) (bal_signalWait (Below.mono h (by decide)))

theorem bal_stopProcess (e : Env) (c : Stop) {held : List Mutex} (h : Below held 1) : Bal held (stopProcess e c) := by
  have h2 : Below (.processState :: held) 2 := Below.cons (Below.mono h (by decide)) (by decide)
  have h3 : Below (.processState :: held) 3 := Below.mono h2 (by decide)
  refine bal_locked (m := .processState) (Below.may h) (bal_append ?_ (bal_ite ?_ (bal_nil _)))
  · cases c.client with
    | none => exact bal_nil _
    | some n => exact bal_append (bal_append (bal_printDebug e h3) (bal_work (bal_nil _))) (bal_clientLogger e n h3)
  · refine bal_append (bal_append (bal_append (bal_append (bal_append (bal_append (bal_append (bal_append (bal_replicate _ (bal_ask h2)) (bal_ask h2)) (bal_ite ?_ (bal_nil _))) (bal_flushStreams e _ h2)) (bal_destroyProcess _ h2))
      (bal_printDebug e h3)) (bal_resetLogger h3)) (bal_printDebug e h3)) (bal_printDebug e h3)
    exact bal_append (bal_append (bal_append (bal_append (bal_printDebug e h3) (bal_endProcess _ h2)) (bal_replicate _ (bal_ask h2))) (bal_ask h2))
      (bal_ite (bal_append (bal_append (bal_append (bal_printDebug e h3) (bal_endProcess _ h2)) (bal_work (bal_nil _))) (bal_ask h2)) (bal_nil _))

theorem bal_startProcess (e : Env) (c : Start) : Bal [] (startProcess e c) := by
  have h := below_nil 3
  have a : Bal [] ask := bal_ask (below_nil 2)
  have p := bal_printDebug e h
  have w : Bal [] [.work] := bal_work (bal_nil _)
  refine bal_append (bal_processRunning _ (below_nil 1)) (bal_ite (bal_nil _) ?_)
  refine bal_append (bal_append (bal_append (bal_append (bal_append (bal_append (bal_append ?_ p) ?_) w) (bal_resetLogger h)) p) a) ?_
  · cases c.stale with
    | none => exact bal_nil _
    | some n => exact bal_append (bal_clientLogger e n h) p
  · exact bal_locked (m := .processState) (Below.may (below_nil _)) (bal_work (bal_ite (bal_append (bal_printDebug e (Below.cons (below_nil _) (by decide))) (bal_work (bal_nil _))) (bal_nil _)))
  · refine bal_ite (bal_append a (bal_ite ?_ p)) p
    exact bal_append (bal_append (bal_append (bal_append p a) a) (bal_clientLogger e _ h)) (bal_ite (bal_append (bal_append (bal_append a p) w) p) p)

theorem bal_register : Bal [] register := bal_locked (m := .watchdog) (Below.may (below_nil _)) (bal_work (bal_nil _))

theorem bal_watchdogTurn (e : Env) (c : Turn) (hc : .register ∉ c.callbacks) : Bal [] (watchdogTurn e c) := by
  have h : Below [.watchdog] 1 := Below.cons (below_nil _) (by decide)
  refine bal_work (bal_locked (m := .watchdog) (Below.may (below_nil _)) (bal_append (bal_append (bal_processRunning _ h) (bal_flatten fun f hf => ?_)) ?_))
  · obtain ⟨b, hb, rfl⟩ := List.mem_map.1 hf
    cases b with
    | plain => exact bal_work (bal_nil _)
    | ready there => exact bal_append (bal_processRunning _ h) (bal_work (bal_nil _))
    | register => exact absurd hb hc
  · cases c.stop with
    | none => exact bal_work (bal_nil _)
    | some stop => exact bal_stopProcess e stop h

theorem bal_loggerTurn (e : Env) (c : LoggerTurn) : Bal [] (loggerTurn e c) := by
  have w : Bal [] [.work] := bal_work (bal_nil _)
  refine bal_append ?_ (bal_ite (bal_append (bal_append w ?_) (bal_ite (bal_append (bal_line e (below_nil _)) (bal_ite (bal_signalNotify (below_nil _)) (bal_nil _))) (bal_nil _))) w)
  · match c.search with
    | none => exact bal_nil _
    | some (there, running) => exact bal_append (bal_processRunning _ (below_nil _)) (bal_ite (bal_ask (below_nil _)) (bal_signalNotify (below_nil _)))
  · match c.failed with
    | none => exact w
    | some there => exact bal_processRunning _ (below_nil _)

theorem bal_call (e : Env) (c : Call) : Bal [] (call e c) := by
  have w : Bal [] [.work] := bal_work (bal_nil _)
  cases c with
  | start c => exact bal_startProcess e c
  | stop c => exact bal_stopProcess e c (below_nil _)
  | running there => exact bal_processRunning _ (below_nil _)
  | talk n => exact bal_append (bal_append w (bal_clientLogger e n (below_nil _))) w
  | message => exact bal_printDebug e (below_nil _)
  | register => exact bal_register
  | push => exact bal_locked (m := .console) (Below.may (below_nil _)) (bal_work (bal_nil _))

/-! ## The invariant -/

/-- The mutexes that the threads hold are those that they may hold, and only the main thread waits for threads. -/
structure Inv (s : State) (held : Nat → List Mutex) : Prop where
  ok : ∀ t, Ok (held t) (s.todo t)
  owner : ∀ m t, s.owner m = some t ↔ m ∈ held t
  depth : ∀ m t, s.owner m = some t → s.depth m = (held t).count m
  join : ∀ t u, .join u ∈ s.todo t → t = 0 ∧ u ≠ 0
  few : ∀ t, 3 ≤ t → s.todo t = []

theorem set_same {α β : Type} [DecidableEq α] (f : α → β) (a : α) (b : β) : set f a b a = b := by unfold set; rw [if_pos rfl]
theorem set_other {α β : Type} [DecidableEq α] (f : α → β) (a : α) (b : β) {x : α} (h : x ≠ a) : set f a b x = f x := by unfold set; rw [if_neg h]

theorem inv_same {s : State} {held : Nat → List Mutex} {t : Nat} {x : Act} {rest : List Act} (h : Inv s held) (ht : s.todo t = x :: rest) (hok : Ok (held t) rest) : Inv ⟨set s.todo t rest, s.owner, s.depth⟩ held := by
  refine ⟨fun u => ?_, h.owner, h.depth, fun u v hv => ?_, fun u hu => ?_⟩
  · by_cases hu : u = t
    · subst hu; show Ok _ (set s.todo u rest u); rw [set_same]; exact hok
    · show Ok _ (set s.todo t rest u); rw [set_other _ _ _ hu]; exact h.ok u
  · by_cases hu : u = t
    · subst hu
      have hv : .join v ∈ set s.todo u rest u := hv
      rw [set_same] at hv
      exact h.join u v (by rw [ht]; exact List.mem_cons_of_mem _ hv)
    · have hv : .join v ∈ set s.todo t rest u := hv
      rw [set_other _ _ _ hu] at hv
      exact h.join u v hv
  · have hne : u ≠ t := fun e => by subst e; rw [h.few u hu] at ht; cases ht
    show set s.todo t rest u = []
    rw [set_other _ _ _ hne]; exact h.few u hu

theorem inv_step {s : State} {held : Nat → List Mutex} (h : Inv s held) (t : Nat) : ∃ held', Inv (step t s) held' := by
  unfold step
  split
  · exact ⟨held, h⟩
  · rename_i m rest ht
    have hok := h.ok t
    rw [ht, ok_acquire] at hok
    have base : ∀ (ow : Mutex → Option Nat) (d : Mutex → Nat), (∀ m' u, ow m' = some u ↔ m' ∈ set held t (m :: held t) u) → (∀ m' u, ow m' = some u → d m' = (set held t (m :: held t) u).count m') →
        Inv ⟨set s.todo t rest, ow, d⟩ (set held t (m :: held t)) := by
      intro ow d h1 h2
      refine ⟨fun u => ?_, h1, h2, fun u v hv => ?_, fun u hu => ?_⟩
      · by_cases hu : u = t
        · subst hu; show Ok _ (set s.todo u rest u); rw [set_same, set_same]; exact hok.2
        · show Ok _ (set s.todo t rest u); rw [set_other _ _ _ hu, set_other _ _ _ hu]; exact h.ok u
      · by_cases hu : u = t
        · subst hu
          have hv : .join v ∈ set s.todo u rest u := hv
          rw [set_same] at hv
          exact h.join u v (by rw [ht]; exact List.mem_cons_of_mem _ hv)
        · have hv : .join v ∈ set s.todo t rest u := hv
          rw [set_other _ _ _ hu] at hv
          exact h.join u v hv
      · have hne : u ≠ t := fun e => by subst e; rw [h.few u hu] at ht; cases ht
        show set s.todo t rest u = []
        rw [set_other _ _ _ hne]; exact h.few u hu
    split
    · rename_i hm
      have hno : ∀ u, m ∉ held u := fun u hu => by rw [(h.owner m u).2 hu] at hm; cases hm
      refine ⟨_, base _ _ (fun m' u => ?_) (fun m' u e => ?_)⟩
      · by_cases hmm : m' = m
        · subst hmm
          rw [set_same]
          by_cases hu : u = t
          · subst hu; rw [set_same]; simp
          · rw [set_other _ _ _ hu]; simp [hno u, Ne.symm hu]
        · rw [set_other _ _ _ hmm, h.owner]
          by_cases hu : u = t
          · subst hu; rw [set_same]; simp [hmm]
          · rw [set_other _ _ _ hu]
      · by_cases hmm : m' = m
        · subst hmm
          rw [set_same] at e
          cases e
          rw [set_same, set_same, List.count_cons_self, List.count_eq_zero.2 (hno _)]
        · rw [set_other _ _ _ hmm] at e ⊢
          rw [h.depth m' u e]
          by_cases hu : u = t
          · subst hu; rw [set_same, List.count_cons_of_ne (fun e => hmm e.symm)]
          · rw [set_other _ _ _ hu]
    · rename_i v hm
      split
      · rename_i hv
        obtain ⟨rfl, hrec⟩ := hv
        have hin := (h.owner m v).1 hm
        refine ⟨_, base _ _ (fun m' u => ?_) (fun m' u e => ?_)⟩
        · rw [h.owner]
          by_cases hu : u = v
          · subst hu
            rw [set_same]
            constructor
            · exact fun h => List.mem_cons_of_mem _ h
            · intro hx
              rcases List.mem_cons.1 hx with rfl | hx
              · exact hin
              · exact hx
          · rw [set_other _ _ _ hu]
        · by_cases hmm : m' = m
          · subst hmm
            rw [hm] at e
            cases e
            rw [set_same, set_same, List.count_cons_self, h.depth _ _ hm]
          · rw [set_other _ _ _ hmm, h.depth m' u e]
            by_cases hu : u = v
            · subst hu; rw [set_same, List.count_cons_of_ne (fun e => hmm e.symm)]
            · rw [set_other _ _ _ hu]
      · exact ⟨held, h⟩
  · rename_i m rest ht
    have hok := h.ok t
    rw [ht] at hok
    cases hh : held t with
    | nil => rw [hh] at hok; exact absurd hok (by simp [Ok])
    | cons x below =>
      rw [hh] at hok
      obtain ⟨rfl, hok⟩ := hok
      have hm : s.owner x = some t := (h.owner x t).2 (by rw [hh]; simp)
      have hd := h.depth x t hm
      rw [hh, List.count_cons_self] at hd
      have base : ∀ (ow : Mutex → Option Nat) (d : Mutex → Nat), (∀ m' u, ow m' = some u ↔ m' ∈ set held t below u) → (∀ m' u, ow m' = some u → d m' = (set held t below u).count m') →
          Inv ⟨set s.todo t rest, ow, d⟩ (set held t below) := by
        intro ow d h1 h2
        refine ⟨fun u => ?_, h1, h2, fun u v hv => ?_, fun u hu => ?_⟩
        · by_cases hu : u = t
          · subst hu; show Ok _ (set s.todo u rest u); rw [set_same, set_same]; exact hok
          · show Ok _ (set s.todo t rest u); rw [set_other _ _ _ hu, set_other _ _ _ hu]; exact h.ok u
        · by_cases hu : u = t
          · subst hu
            have hv : .join v ∈ set s.todo u rest u := hv
            rw [set_same] at hv
            exact h.join u v (by rw [ht]; exact List.mem_cons_of_mem _ hv)
          · have hv : .join v ∈ set s.todo t rest u := hv
            rw [set_other _ _ _ hu] at hv
            exact h.join u v hv
        · have hne : u ≠ t := fun e => by subst e; rw [h.few u hu] at ht; cases ht
          show set s.todo t rest u = []
          rw [set_other _ _ _ hne]; exact h.few u hu
      rw [if_pos hm]
      -- another thread does not hold the mutex
      have hno : ∀ u, u ≠ t → x ∉ held u := fun u hu hx => by
        have := (h.owner x u).2 hx
        rw [hm] at this
        exact hu (Option.some.inj this).symm
      have same : ∀ m', m' ≠ x → ∀ u, (m' ∈ held u ↔ m' ∈ set held t below u) ∧ (held u).count m' = (set held t below u).count m' := by
        intro m' hmm u
        by_cases hu : u = t
        · subst hu; rw [set_same, hh]; exact ⟨by simp [hmm], List.count_cons_of_ne (fun e => hmm e.symm)⟩
        · rw [set_other _ _ _ hu]; exact ⟨Iff.rfl, rfl⟩
      split
      · rename_i hle
        have hzero : x ∉ below := List.count_eq_zero.1 (by omega)
        refine ⟨_, base _ _ (fun m' u => ?_) (fun m' u e => ?_)⟩
        · by_cases hmm : m' = x
          · subst hmm
            rw [set_same]
            by_cases hu : u = t
            · subst hu; rw [set_same]; simp [hzero]
            · rw [set_other _ _ _ hu]; simp [hno u hu]
          · rw [set_other _ _ _ hmm, h.owner]; exact (same m' hmm u).1
        · by_cases hmm : m' = x
          · subst hmm; rw [set_same] at e; cases e
          · rw [set_other _ _ _ hmm] at e ⊢
            rw [h.depth m' u e]; exact (same m' hmm u).2
      · rename_i hle
        have hin : x ∈ below := List.count_pos_iff.1 (by omega)
        refine ⟨_, base _ _ (fun m' u => ?_) (fun m' u e => ?_)⟩
        · by_cases hmm : m' = x
          · subst hmm
            rw [h.owner]
            by_cases hu : u = t
            · subst hu; rw [set_same, hh]; simp [hin]
            · rw [set_other _ _ _ hu]
          · rw [h.owner]; exact (same m' hmm u).1
        · by_cases hmm : m' = x
          · subst hmm
            rw [hm] at e
            cases e
            rw [set_same, set_same, hd]; rfl
          · rw [set_other _ _ _ hmm, h.depth m' u e]; exact (same m' hmm u).2
  · rename_i rest ht
    have hok := h.ok t
    rw [ht, ok_work] at hok
    exact ⟨held, inv_same h ht hok⟩
  · rename_i u rest ht
    have hok := h.ok t
    rw [ht, ok_join] at hok
    split
    · exact ⟨held, inv_same h ht hok.2⟩
    · exact ⟨held, h⟩

/-! ## Some thread can always go on -/

/-- The number of steps that are left. -/
def size (s : State) : Nat := (s.todo 0).length + (s.todo 1).length + (s.todo 2).length

theorem size_set {s : State} {held : Nat → List Mutex} (h : Inv s held) {t : Nat} {x : Act} {rest : List Act} (ht : s.todo t = x :: rest) (ow : Mutex → Option Nat) (d : Mutex → Nat) :
    size ⟨set s.todo t rest, ow, d⟩ < size s := by
  have hlen : (s.todo t).length = rest.length + 1 := by rw [ht]; rfl
  unfold size set
  dsimp only
  match t with
  | 0 => rw [if_pos rfl, if_neg (by decide), if_neg (by decide)]; omega
  | 1 => rw [if_pos rfl, if_neg (by decide), if_neg (by decide)]; omega
  | 2 => rw [if_pos rfl, if_neg (by decide), if_neg (by decide)]; omega
  | t + 3 => rw [h.few (t + 3) (by omega)] at ht; cases ht

theorem step_size {s : State} {held : Nat → List Mutex} (h : Inv s held) (t : Nat) : step t s = s ∨ size (step t s) < size s := by
  unfold step
  split
  · exact .inl rfl
  · rename_i m rest ht
    split
    · exact .inr (size_set h ht _ _)
    · split
      · exact .inr (size_set h ht _ _)
      · exact .inl rfl
  · rename_i m rest ht
    split
    · split <;> exact .inr (size_set h ht _ _)
    · exact .inr (size_set h ht _ _)
  · rename_i rest ht
    exact .inr (size_set h ht _ _)
  · rename_i u rest ht
    split
    · exact .inr (size_set h ht _ _)
    · exact .inl rfl

theorem set_ne {s : State} {t : Nat} {x : Act} {rest : List Act} (ht : s.todo t = x :: rest) (ow : Mutex → Option Nat) (d : Mutex → Nat) : (⟨set s.todo t rest, ow, d⟩ : State) ≠ s := by
  intro e
  have := congrArg (fun s : State => (s.todo t).length) e
  dsimp only at this
  rw [set_same, ht] at this
  simp at this

/-- A thread that cannot go on waits for a mutex that another one holds, or for a thread. -/
theorem stuck_head {s : State} {held : Nat → List Mutex} (h : Inv s held) {t : Nat} (hst : step t s = s) (hne : s.todo t ≠ []) :
    (∃ m rest u, s.todo t = .acquire m :: rest ∧ m ∈ held u ∧ ∀ x ∈ held t, rank x < rank m) ∨ ∃ u rest, s.todo t = .join u :: rest ∧ s.todo u ≠ [] ∧ held t = [] := by
  have hok := h.ok t
  unfold step at hst
  split at hst
  · rename_i ht; exact absurd ht hne
  · rename_i m rest ht
    rw [ht, ok_acquire] at hok
    split at hst
    · exact absurd hst (set_ne ht _ _)
    · rename_i u hm
      split at hst
      · exact absurd hst (set_ne ht _ _)
      · rename_i hu
        refine .inl ⟨m, rest, u, ht, (h.owner m u).1 hm, ?_⟩
        rcases hok.1 with ⟨hin, hrec⟩ | hlt
        · have := (h.owner m t).2 hin
          rw [hm] at this
          exact absurd ⟨Option.some.inj this, hrec⟩ hu
        · exact hlt
  · rename_i m rest ht
    split at hst
    · split at hst <;> exact absurd hst (set_ne ht _ _)
    · exact absurd hst (set_ne ht _ _)
  · rename_i rest ht
    exact absurd hst (set_ne ht _ _)
  · rename_i u rest ht
    rw [ht, ok_join] at hok
    split at hst
    · exact absurd hst (set_ne ht _ _)
    · rename_i hu; exact .inr ⟨u, rest, ht, hu, hok.1⟩

theorem progress {s : State} {held : Nat → List Mutex} (h : Inv s held) (hall : ∀ t, step t s = s) : ∀ t, s.todo t = [] := by
  have rank_le : ∀ m, rank m ≤ 5 := by intro m; cases m <;> decide
  have nobody : ∀ (k : Nat) (m : Mutex) (u : Nat), 5 - rank m ≤ k → m ∈ held u → False := by
    intro k
    induction k with
    | zero =>
      intro m u hk hm
      have hne : s.todo u ≠ [] := fun e => by
        have := h.ok u
        rw [e] at this
        have : held u = [] := ok_done this
        rw [this] at hm; cases hm
      rcases stuck_head h (hall u) hne with ⟨m', rest, v, _, _, hlt⟩ | ⟨v, rest, _, _, hh⟩
      · have := hlt m hm
        have := rank_le m'
        omega
      · rw [hh] at hm; cases hm
    | succ k ih =>
      intro m u hk hm
      have hne : s.todo u ≠ [] := fun e => by
        have := h.ok u
        rw [e] at this
        have : held u = [] := ok_done this
        rw [this] at hm; cases hm
      rcases stuck_head h (hall u) hne with ⟨m', rest, v, _, hv, hlt⟩ | ⟨v, rest, _, _, hh⟩
      · have := hlt m hm
        exact ih m' v (by omega) hv
      · rw [hh] at hm; cases hm
  intro t
  apply Decidable.byContradiction
  intro hne
  rcases stuck_head h (hall t) hne with ⟨m, rest, u, _, hu, _⟩ | ⟨u, rest, ht, hu, _⟩
  · exact nobody _ m u (Nat.le_refl _) hu
  · obtain ⟨_, hu0⟩ := h.join t u (by rw [ht]; simp)
    rcases stuck_head h (hall u) hu with ⟨m, rest', v, _, hv, _⟩ | ⟨v, rest', hj, _, _⟩
    · exact nobody _ m v (Nat.le_refl _) hv
    · exact hu0 (h.join u v (by rw [hj]; simp)).1

theorem inv_run (schedule : Nat → Nat) : ∀ (n : Nat) {s : State} {held : Nat → List Mutex}, Inv s held → ∃ held', Inv (run schedule n s) held'
  | 0, _, held, h => ⟨held, h⟩
  | n + 1, _, _, h => by
    obtain ⟨held', h'⟩ := inv_run schedule n h
    exact inv_step h' _

theorem ok_nil {f : List Act} (h : Bal [] f) : Ok [] f := by
  have := h.ok [] rfl
  rwa [List.append_nil] at this

theorem inv_begin (e : Env) (calls : List Call) (last : Stop) (turns : List Turn) (loggerTurns : List LoggerTurn) (hreg : ∀ c ∈ turns, .register ∉ c.callbacks) :
    Inv (begin e calls last turns loggerTurns) (fun _ => []) := by
  have b1 : Bal [] (turns.map (watchdogTurn e)).flatten := bal_flatten fun f hf => by
    obtain ⟨c, hc, rfl⟩ := List.mem_map.1 hf
    exact bal_watchdogTurn e c (hreg c hc)
  have b2 : Bal [] ((loggerTurns.map (loggerTurn e)).flatten ++ printDebug e) := bal_append (bal_flatten fun f hf => by
    obtain ⟨c, hc, rfl⟩ := List.mem_map.1 hf
    exact bal_loggerTurn e c) (bal_printDebug e (below_nil _))
  have b0 : Bal [] (calls.map (call e)).flatten := bal_flatten fun f hf => by
    obtain ⟨c, hc, rfl⟩ := List.mem_map.1 hf
    exact bal_call e c
  have p := bal_printDebug e (held := []) (below_nil _)
  have q : Bal [] (stopProcess e last ++ [.work] ++ printDebug e) := bal_append (bal_append (bal_stopProcess e last (below_nil _)) (bal_work (bal_nil _))) p
  have ed : destroy e last = printDebug e ++ ([.work, .join 1, .join 2] ++ (stopProcess e last ++ [.work] ++ printDebug e)) := by unfold destroy; simp [List.append_assoc]
  refine ⟨fun t => ?_, fun m t => ⟨fun h => (by cases h), fun h => (by cases h)⟩, fun m t h => (by cases h), fun t u hj => ?_, fun t ht => ?_⟩
  · match t with
    | 0 =>
      show Ok [] ((calls.map (call e)).flatten ++ destroy e last)
      rw [ed]
      refine b0.ok _ (p.ok _ ?_)
      exact ⟨rfl, rfl, ok_nil q⟩
    | 1 => exact ok_nil b1
    | 2 => exact ok_nil b2
    | t + 3 => rfl
  · match t with
    | 0 =>
      have hj : .join u ∈ (calls.map (call e)).flatten ++ destroy e last := hj
      rw [ed] at hj
      refine ⟨rfl, ?_⟩
      rcases List.mem_append.1 hj with hj | hj
      · exact absurd hj (b0.nojoin u)
      · rcases List.mem_append.1 hj with hj | hj
        · exact absurd hj (p.nojoin u)
        · rcases List.mem_append.1 hj with hj | hj
          · simp at hj; omega
          · exact absurd hj (q.nojoin u)
    | 1 => exact absurd hj (b1.nojoin u)
    | 2 => exact absurd hj (b2.nojoin u)
    | t + 3 => cases hj
  · match t with
    | 0 => omega
    | 1 => omega
    | 2 => omega
    | t + 3 => rfl

/-- A schedule in which each of the three threads gets its turn again and again. -/
def Fair (schedule : Nat → Nat) : Prop := ∀ t, t < 3 → ∀ n, ∃ k, n ≤ k ∧ schedule k = t

/-- **C175.** Whatever the calls of a client, the turns of its watchdog and its logger do, and in whatever order their threads run: in each schedule in which no thread is forgotten, all calls return, both threads and the destructor end, and no mutex is
left locked. Missing from the full claim: callbacks that register a callback (`C175_register_false`). -/
theorem C175_ends_partial (e : Env) (calls : List Call) (last : Stop) (turns : List Turn) (loggerTurns : List LoggerTurn) (hreg : ∀ c ∈ turns, .register ∉ c.callbacks) (schedule : Nat → Nat) (hfair : Fair schedule) :
    ∃ n, ∀ k, n ≤ k → (∀ t, (run schedule k (begin e calls last turns loggerTurns)).todo t = []) ∧ ∀ m, (run schedule k (begin e calls last turns loggerTurns)).owner m = none := by
  have hinv := fun n => inv_run schedule n (inv_begin e calls last turns loggerTurns hreg)
  generalize begin e calls last turns loggerTurns = s at *
  have later : ∀ n j, run schedule (n + j) s = run schedule n s ∨ size (run schedule (n + j) s) < size (run schedule n s) := by
    intro n j
    induction j with
    | zero => exact .inl rfl
    | succ j ih =>
      obtain ⟨held, h⟩ := hinv (n + j)
      have one := step_size h (schedule (n + j))
      show step (schedule (n + j)) (run schedule (n + j) s) = _ ∨ size (step (schedule (n + j)) (run schedule (n + j) s)) < _
      rcases ih with e | lt
      · rw [← e]; exact one
      · rcases one with e | lt'
        · rw [e]; exact .inr lt
        · exact .inr (Nat.lt_trans lt' lt)
  have main : ∀ k n, size (run schedule n s) ≤ k → ∃ n', ∀ t, (run schedule n' s).todo t = [] := by
    intro k
    induction k with
    | zero =>
      intro n hk
      obtain ⟨held, h⟩ := hinv n
      refine ⟨n, fun t => ?_⟩
      unfold size at hk
      match t with
      | 0 => exact List.eq_nil_of_length_eq_zero (by omega)
      | 1 => exact List.eq_nil_of_length_eq_zero (by omega)
      | 2 => exact List.eq_nil_of_length_eq_zero (by omega)
      | t + 3 => exact h.few _ (by omega)
    | succ k ih =>
      intro n hk
      obtain ⟨held, h⟩ := hinv n
      by_cases hall : ∀ t, step t (run schedule n s) = run schedule n s
      · exact ⟨n, progress h hall⟩
      · obtain ⟨t, ht⟩ := Classical.not_forall.1 hall
        have h3 : t < 3 := Nat.lt_of_not_le fun h3 => ht (by unfold step; rw [h.few t h3])
        obtain ⟨j, hj, hs⟩ := hfair t h3 n
        obtain ⟨d, rfl⟩ := Nat.exists_eq_add_of_le hj
        rcases later n d with e | lt
        · have := (step_size h t).resolve_left ht
          refine ih (n + d + 1) ?_
          show size (step (schedule (n + d)) (run schedule (n + d) s)) ≤ k
          rw [hs, e]
          omega
        · exact ih (n + d) (by omega)
  obtain ⟨n, hn⟩ := main _ 0 (Nat.le_refl _)
  refine ⟨n, fun k hk => ?_⟩
  obtain ⟨d, rfl⟩ := Nat.exists_eq_add_of_le hk
  have hdone : ∀ t, (run schedule (n + d) s).todo t = [] := by
    rcases later n d with e | lt
    · rw [e]; exact hn
    · exfalso
      unfold size at lt
      rw [hn 0, hn 1, hn 2] at lt
      simp at lt
  refine ⟨hdone, fun m => ?_⟩
  obtain ⟨held, h⟩ := hinv (n + d)
  cases ho : (run schedule (n + d) s).owner m with
  | none => rfl
  | some t =>
    have hm := (h.owner m t).1 ho
    have := h.ok t
    rw [hdone t] at this
    have : held t = [] := ok_done this
    rw [this] at hm; cases hm

/-! ## A callback that registers a callback -/

/-- What the watchdog does until it waits for itself. -/
def fatal (rest : List Act) : List Act := .work :: .acquire .watchdog :: .acquire .processState :: .release .processState :: .acquire .watchdog :: rest

/-- The watchdog will wait, or waits, for itself, and the main thread for the watchdog. -/
def Doomed (rest : List Act) (s : State) : Prop :=
  (∃ i, i ≤ 4 ∧ s.todo 1 = (fatal rest).drop i ∧ (2 ≤ i → s.owner .watchdog = some 1)) ∧ .join 1 ∈ s.todo 0

theorem doomed_next {rest : List Act} {s : State} (hj : .join 1 ∈ s.todo 0) (i : Nat) (hi : i ≤ 4) (ow : Mutex → Option Nat) (d : Mutex → Nat) (ho : 2 ≤ i → ow .watchdog = some 1) :
    Doomed rest ⟨set s.todo 1 ((fatal rest).drop i), ow, d⟩ := by
  refine ⟨⟨i, hi, set_same s.todo 1 _, ho⟩, ?_⟩
  have e : set s.todo 1 ((fatal rest).drop i) 0 = s.todo 0 := set_other s.todo 1 _ (by decide)
  show .join 1 ∈ set s.todo 1 ((fatal rest).drop i) 0
  rw [e]
  exact hj

theorem doomed_step {rest : List Act} {s : State} (h : Doomed rest s) (t : Nat) : Doomed rest (step t s) := by
  have keep := h
  obtain ⟨⟨i, hi, h1, ho⟩, hj⟩ := h
  by_cases ht : t = 1
  · subst ht
    match i, hi with
    | 0, _ =>
      have h1 : s.todo 1 = .work :: (fatal rest).drop 1 := h1
      unfold step
      rw [h1]
      exact doomed_next hj 1 (by decide) _ _ (fun h => absurd h (by decide))
    | 1, _ =>
      have h1 : s.todo 1 = .acquire .watchdog :: (fatal rest).drop 2 := h1
      unfold step
      rw [h1]
      dsimp only
      split
      · exact doomed_next hj 2 (by decide) _ _ (fun _ => set_same s.owner .watchdog (some 1))
      · rw [if_neg (by simp [Mutex.recursive])]; exact keep
    | 2, _ =>
      have h1 : s.todo 1 = .acquire .processState :: (fatal rest).drop 3 := h1
      unfold step
      rw [h1]
      dsimp only
      split
      · exact doomed_next hj 3 (by decide) _ _ (fun _ => (set_other s.owner .processState (some 1) (by decide)).trans (ho (by decide)))
      · rw [if_neg (by simp [Mutex.recursive])]; exact keep
    | 3, _ =>
      have h1 : s.todo 1 = .release .processState :: (fatal rest).drop 4 := h1
      have ho := ho (by decide)
      unfold step
      rw [h1]
      dsimp only
      split
      · split
        · exact doomed_next hj 4 (by decide) _ _ (fun _ => (set_other s.owner .processState none (by decide)).trans ho)
        · exact doomed_next hj 4 (by decide) _ _ (fun _ => ho)
      · exact doomed_next hj 4 (by decide) _ _ (fun _ => ho)
    | 4, _ =>
      have h1 : s.todo 1 = .acquire .watchdog :: rest := h1
      unfold step
      rw [h1]
      dsimp only
      rw [ho (by decide)]
      dsimp only
      rw [if_neg (by simp [Mutex.recursive])]
      exact keep
    | i + 5, h => omega
  · have h1' : ∀ r, set s.todo t r 1 = s.todo 1 := fun r => set_other _ _ _ (fun e => ht e.symm)
    have hne : s.todo 1 ≠ [] := by
      rw [h1]
      match i, hi with
      | 0, _ => simp [fatal]
      | 1, _ => simp [fatal]
      | 2, _ => simp [fatal]
      | 3, _ => simp [fatal]
      | 4, _ => simp [fatal]
      | i + 5, h => omega
    -- what the main thread has left after a step that does not wait for the watchdog
    have hj' : ∀ x rest', s.todo t = x :: rest' → x ≠ .join 1 → .join 1 ∈ set s.todo t rest' 0 := by
      intro x rest' e hx
      by_cases h0 : 0 = t
      · subst h0
        rw [set_same]
        rw [e] at hj
        rcases List.mem_cons.1 hj with hj | hj
        · exact absurd hj.symm hx
        · exact hj
      · rw [set_other _ _ _ h0]; exact hj
    unfold step
    split
    · exact keep
    · rename_i m rest' e
      split
      · rename_i hm
        refine ⟨⟨i, hi, (h1' _).trans h1, fun h => ?_⟩, hj' _ _ e (by simp)⟩
        have ho := ho h
        by_cases hmm : Mutex.watchdog = m
        · subst hmm; rw [hm] at ho; cases ho
        · exact (set_other _ _ _ hmm).trans ho
      · split
        · exact ⟨⟨i, hi, (h1' _).trans h1, ho⟩, hj' _ _ e (by simp)⟩
        · exact keep
    · rename_i m rest' e
      split
      · rename_i hm
        split
        · refine ⟨⟨i, hi, (h1' _).trans h1, fun h => ?_⟩, hj' _ _ e (by simp)⟩
          have ho := ho h
          by_cases hmm : Mutex.watchdog = m
          · subst hmm; rw [hm] at ho; exact absurd (Option.some.inj ho) ht
          · exact (set_other _ _ _ hmm).trans ho
        · exact ⟨⟨i, hi, (h1' _).trans h1, ho⟩, hj' _ _ e (by simp)⟩
      · exact ⟨⟨i, hi, (h1' _).trans h1, ho⟩, hj' _ _ e (by simp)⟩
    · rename_i rest' e
      exact ⟨⟨i, hi, (h1' _).trans h1, ho⟩, hj' _ _ e (by simp)⟩
    · rename_i u rest' e
      split
      · rename_i hu
        refine ⟨⟨i, hi, (h1' _).trans h1, ho⟩, hj' _ _ e ?_⟩
        intro e'
        cases e'
        exact hne hu
      · exact keep

/-- **C175 for callbacks that register a callback** (false). The watchdog then waits for a mutex that it holds itself, in every schedule: neither it nor the destructor of the `TrackerProcess`, which waits for it, ever ends. -/
theorem C175_register_false (e : Env) (calls : List Call) (last : Stop) (callbacks : List Callback) (stop : Option Stop) (turns : List Turn) (loggerTurns : List LoggerTurn) (schedule : Nat → Nat) (n : Nat) :
    (run schedule n (begin e calls last (⟨false, .register :: callbacks, stop⟩ :: turns) loggerTurns)).todo 0 ≠ [] ∧ (run schedule n (begin e calls last (⟨false, .register :: callbacks, stop⟩ :: turns) loggerTurns)).todo 1 ≠ [] := by
  have start : ∃ rest, Doomed rest (begin e calls last (⟨false, .register :: callbacks, stop⟩ :: turns) loggerTurns) := by
    refine ⟨?_, ⟨0, by omega, ?_, fun h => absurd h (by decide)⟩, ?_⟩
    rotate_left
    · show (watchdogTurn e ⟨false, .register :: callbacks, stop⟩ ++ (turns.map (watchdogTurn e)).flatten) = _
      rfl
    · show _ ∈ (calls.map (call e)).flatten ++ destroy e last
      apply List.mem_append_right
      unfold destroy
      simp
  obtain ⟨rest, h⟩ := start
  generalize begin e calls last (⟨false, .register :: callbacks, stop⟩ :: turns) loggerTurns = s at *
  have all : ∀ n, Doomed rest (run schedule n s) := by
    intro n
    induction n with
    | zero => exact h
    | succ n ih => exact doomed_step ih _
  obtain ⟨⟨i, hi, h1, _⟩, hj⟩ := all n
  refine ⟨fun e => (by rw [e] at hj; cases hj), ?_⟩
  rw [h1]
  match i, hi with
  | 0, _ => simp [fatal]
  | 1, _ => simp [fatal]
  | 2, _ => simp [fatal]
  | 3, _ => simp [fatal]
  | 4, _ => simp [fatal]
  | i + 5, h => omega

/-! ## A concrete case -/

namespace Demo

/-- A tracker that has to be killed, with a line in its error stream. -/
def stop : Stop := ⟨some 1, true, 5, true, true, 5, true, [1]⟩

/-- The tracker is started, talked to and asked for. -/
def calls : List Call := [.start ⟨true, false, some 1, true, true, true, 2, true⟩, .register, .running true, .talk 3, .push]

/-- The watchdog stops the tracker, too. -/
def turns : List Turn := [⟨false, [], none⟩, ⟨true, [.plain, .ready true], some stop⟩]

def loggerTurns : List LoggerTurn := [⟨some (true, true), true, none, true, false⟩, ⟨none, true, some true, true, true⟩, ⟨some (false, false), false, none, false, false⟩]

/-- Each thread in turn. -/
def schedule (n : Nat) : Nat := n % 3

end Demo

/-- After 1200 steps everything has ended. -/
example : (run Demo.schedule 1200 (begin ⟨true, true⟩ Demo.calls Demo.stop Demo.turns Demo.loggerTurns)).todo 0 = [] := by decide +kernel

theorem fair_demo : Fair Demo.schedule := fun t ht n => ⟨3 * n + t, by omega, by unfold Demo.schedule; omega⟩

example : ∃ n, ∀ k, n ≤ k → (∀ t, (run Demo.schedule k (begin ⟨true, true⟩ Demo.calls Demo.stop Demo.turns Demo.loggerTurns)).todo t = []) ∧
    ∀ m, (run Demo.schedule k (begin ⟨true, true⟩ Demo.calls Demo.stop Demo.turns Demo.loggerTurns)).owner m = none :=
  C175_ends_partial _ _ _ _ _ (by decide +kernel) _ fair_demo

end Trax.ClientLocks
