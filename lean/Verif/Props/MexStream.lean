import Verif.Spec.MexStream

/-!
# C174: the log on the console of MATLAB
-/

namespace Trax.MexStream
open Trax.MexStream.Spec

theorem texts_append (a b : List Op) : texts (a ++ b) = texts a ++ texts b := by
  induction a with
  | nil => rfl
  | cons x a ih => cases x <;> simp [texts, ih]

theorem cstr_plain {s : List UInt8} (h : (0 : UInt8) ∉ s) : cstr s = s := by
  unfold cstr
  induction s with
  | nil => rfl
  | cons c s ih =>
    have h1 : c ≠ 0 := fun e => h (by simp [e])
    rw [List.takeWhile_cons, if_pos (by simpa using h1), ih (fun e => h (by simp [e]))]

/-- The call whose text has been written, although it has not returned. -/
def now : PC → List Op → List Op
  | .finished, x :: _ => [x]
  | _, _ => []

/-- What is on the console and in the buffer. -/
def Shows (s : State) (text : List UInt8) : PC → Prop
  | .took r => r = s.buffer ∧ s.console ++ s.buffer = text
  | .shown => s.console = text
  | _ => s.console ++ s.buffer = text

/-- What the thread that holds the mutex is doing. -/
def Doing : PC → List Op → Prop
  | .idle, _ => False
  | .took _, x :: _ => x = .push
  | .shown, x :: _ => x = .push
  | _, todo => todo ≠ []

/-- The invariant. -/
def Inv (program : Nat → List Op) (s : State) : Prop :=
  ∃ order : List (Nat × List UInt8),
    (∀ t, ∃ past, program t = past ++ s.todo t ∧ (order.filter (·.1 == t)).map (·.2) = texts (past ++ now (s.pc t) (s.todo t))) ∧
    ((∀ t, s.pc t = .idle) ∧ s.mutex = none ∧ s.console ++ s.buffer = (order.map (·.2)).flatten ∨
      ∃ h, s.mutex = some h ∧ (∀ u, u ≠ h → s.pc u = .idle) ∧ Doing (s.pc h) (s.todo h) ∧ Shows s (order.map (·.2)).flatten (s.pc h))

theorem inv_begin (program : Nat → List Op) : Inv program (begin program) :=
  ⟨[], fun t => ⟨[], rfl, rfl⟩, .inl ⟨fun _ => rfl, rfl, rfl⟩⟩

theorem mem_texts_suffix {a b : List Op} {x : List UInt8} (h : x ∈ texts b) : x ∈ texts (a ++ b) := by
  rw [texts_append]; exact List.mem_append_right _ h

/-- All texts of an order are plain if all programs are. -/
theorem order_plain {program : Nat → List Op} (hp : ∀ t, Plain (program t)) {s : State} {order : List (Nat × List UInt8)}
    (h : ∀ t, ∃ past, program t = past ++ s.todo t ∧ (order.filter (·.1 == t)).map (·.2) = texts (past ++ now (s.pc t) (s.todo t))) : (0 : UInt8) ∉ (order.map (·.2)).flatten := by
  intro h0
  obtain ⟨x, hx, h0⟩ := List.mem_flatten.1 h0
  obtain ⟨⟨t, y⟩, hy, e⟩ := List.mem_map.1 hx
  dsimp only at e
  subst e
  obtain ⟨past, e1, e2⟩ := h t
  have : y ∈ (order.filter (·.1 == t)).map (·.2) := List.mem_map.2 ⟨(t, y), List.mem_filter.2 ⟨hy, by simp⟩, rfl⟩
  rw [e2] at this
  refine hp t y ?_ h0
  rw [e1, texts_append]
  rw [texts_append] at this
  rcases List.mem_append.1 this with h | h
  · exact List.mem_append_left _ h
  · apply List.mem_append_right
    revert h
    cases s.pc t <;> cases s.todo t with
    | nil => simp [now, texts]
    | cons a l => cases a <;> simp +contextual [now, texts]

/-- A call writes its text. -/
theorem inv_write {program : Nat → List Op} {s : State} {t : Nat} {x : Op} {rest : List Op} {text : List UInt8} (hpc : s.pc t = .locked) (htd : s.todo t = x :: rest) (hx : texts [x] = [text]) (h : Inv program s) :
    Inv program { s with buffer := s.buffer ++ text, pc := set s.pc t .finished } := by
  obtain ⟨order, h1, ⟨h2, _⟩ | ⟨u, m, others, doing, shows⟩⟩ := h
  · rw [h2 t] at hpc; cases hpc
  · have hu : u = t := Decidable.byContradiction fun hne => by rw [others t (fun e => hne e.symm)] at hpc; cases hpc
    subst hu
    rw [hpc] at shows
    refine ⟨order ++ [(u, text)], fun v => ?_, .inr ⟨u, m, fun v hv => ?_, ?_, ?_⟩⟩
    · obtain ⟨past, e1, e2⟩ := h1 v
      refine ⟨past, e1, ?_⟩
      rw [List.filter_append, List.map_append, e2]
      dsimp only
      unfold set
      by_cases hv : v = u
      · subst hv
        rw [if_pos rfl, hpc, htd]
        simp only [now, List.append_nil, List.filter_cons, List.filter_nil, beq_self_eq_true, if_true, List.map_cons, List.map_nil]
        rw [texts_append, hx]
      · rw [if_neg hv]
        have : (u == v) = false := by simpa using fun e => hv e.symm
        simp [List.filter_cons, this]
    · dsimp only; unfold set; rw [if_neg hv]; exact others v hv
    · dsimp only; unfold set; rw [if_pos rfl, htd]; simp [Doing]
    · dsimp only
      unfold set
      rw [if_pos rfl]
      show s.console ++ (s.buffer ++ text) = _
      have shows : s.console ++ s.buffer = _ := shows
      rw [← List.append_assoc, shows]
      simp

theorem inv_step {program : Nat → List Op} (hp : ∀ t, Plain (program t)) {s : State} (h : Inv program s) (t : Nat) : Inv program (step t s) := by
  have keep := h
  obtain ⟨order, h1, h2⟩ := h
  have nul := order_plain hp h1
  have holder : s.pc t ≠ .idle → s.mutex = some t ∧ (∀ u, u ≠ t → s.pc u = .idle) ∧ Doing (s.pc t) (s.todo t) ∧ Shows s (order.map (·.2)).flatten (s.pc t) := by
    intro hne
    rcases h2 with ⟨h2, _⟩ | ⟨u, m, others, doing, shows⟩
    · exact absurd (h2 t) hne
    · have hu : u = t := Decidable.byContradiction fun hn => hne (others t (fun e => hn e.symm))
      subst hu
      exact ⟨m, others, doing, shows⟩
  -- the past does not change while no text is written
  have same : ∀ (pc' : PC), now pc' (s.todo t) = now (s.pc t) (s.todo t) →
      ∀ v, ∃ past, program v = past ++ s.todo v ∧ (order.filter (·.1 == v)).map (·.2) = texts (past ++ now (set s.pc t pc' v) (s.todo v)) := by
    intro pc' e v
    obtain ⟨past, e1, e2⟩ := h1 v
    refine ⟨past, e1, ?_⟩
    rw [e2]
    unfold set
    by_cases hv : v = t
    · subst hv; rw [if_pos rfl, e]
    · rw [if_neg hv]
  have setself : ∀ pc', set s.pc t pc' t = pc' := fun _ => by unfold set; rw [if_pos rfl]
  have setother : ∀ pc' u, u ≠ t → set s.pc t pc' u = s.pc u := fun _ u hu => by unfold set; rw [if_neg hu]
  unfold step
  split
  · exact keep
  · rename_i x rest hpc htd
    split
    · rename_i hm
      rcases h2 with ⟨h2, _, e⟩ | ⟨u, m, _⟩
      · refine ⟨order, same .locked (by rw [hpc]; rfl), .inr ⟨t, rfl, fun u hu => ?_, ?_, ?_⟩⟩
        · rw [← h2 u]; exact setother _ u hu
        · show Doing (set s.pc t .locked t) (s.todo t); rw [setself, htd]; simp [Doing]
        · show Shows _ _ (set s.pc t .locked t); rw [setself]; exact e
      · rw [hm] at m; cases m
    · exact keep
  · rename_i c rest hpc htd
    exact inv_write hpc htd rfl keep
  · rename_i text rest hpc htd
    exact inv_write hpc htd rfl keep
  · rename_i rest hpc htd
    obtain ⟨m, others, doing, shows⟩ := holder (by rw [hpc]; simp)
    rw [hpc] at shows
    refine ⟨order, same _ (by rw [hpc]; rfl), .inr ⟨t, m, fun u hu => ?_, ?_, ?_⟩⟩
    · rw [← others u hu]; exact setother _ u hu
    · show Doing (set s.pc t _ t) (s.todo t); rw [setself, htd]; rfl
    · show Shows _ _ (set s.pc t _ t); rw [setself]; exact ⟨rfl, shows⟩
  · rename_i r x rest hpc htd
    obtain ⟨m, others, doing, shows⟩ := holder (by rw [hpc]; simp)
    rw [hpc] at shows doing
    rw [htd] at doing
    obtain ⟨er, e⟩ := shows
    refine ⟨order, same _ (by rw [hpc]; rfl), .inr ⟨t, m, fun u hu => ?_, ?_, ?_⟩⟩
    · rw [← others u hu]; exact setother _ u hu
    · show Doing (set s.pc t _ t) (s.todo t); rw [setself, htd]; exact doing
    · show Shows _ _ (set s.pc t _ t); rw [setself]
      show s.console ++ cstr r = _
      rw [cstr_plain, er, e]
      rw [← e] at nul
      rw [er]
      exact fun h => nul (List.mem_append_right _ h)
  · rename_i x rest hpc htd
    obtain ⟨m, others, doing, shows⟩ := holder (by rw [hpc]; simp)
    rw [hpc, htd] at doing
    rw [hpc] at shows
    have hx : x = .push := doing
    refine ⟨order, ?_, .inr ⟨t, m, fun u hu => ?_, ?_, ?_⟩⟩
    · intro v
      obtain ⟨past, e1, e2⟩ := h1 v
      refine ⟨past, e1, ?_⟩
      rw [e2]
      dsimp only
      by_cases hv : v = t
      · subst hv; rw [setself, hpc, htd, hx]; simp [now, texts_append, texts]
      · rw [setother _ v hv]
    · rw [← others u hu]; exact setother _ u hu
    · show Doing (set s.pc t _ t) (s.todo t); rw [setself, htd]; simp [Doing]
    · show Shows _ _ (set s.pc t _ t); rw [setself]
      show s.console ++ [] = _
      rw [List.append_nil]; exact shows
  · rename_i x rest hpc htd
    obtain ⟨m, others, doing, shows⟩ := holder (by rw [hpc]; simp)
    rw [hpc] at shows
    refine ⟨order, fun v => ?_, .inl ⟨fun u => ?_, rfl, shows⟩⟩
    · obtain ⟨past, e1, e2⟩ := h1 v
      dsimp only
      by_cases hv : v = t
      · subst hv
        refine ⟨past ++ [x], ?_, ?_⟩
        · rw [e1, htd]; unfold set; simp
        · rw [e2, setself, hpc, htd]; unfold set; simp [now]
      · refine ⟨past, ?_, ?_⟩
        · rw [e1]; unfold set; rw [if_neg hv]
        · rw [e2, setother _ v hv]; unfold set; rw [if_neg hv]
    · by_cases hu : u = t
      · subst hu; exact setself _
      · rw [← others u hu]; exact setother _ u hu

theorem inv_run {program : Nat → List Op} (hp : ∀ t, Plain (program t)) : ∀ (schedule : List Nat) {s : State}, Inv program s → Inv program (run schedule s)
  | [], _, h => h
  | t :: rest, _, h => inv_run hp rest (inv_step hp h t)

/-- **C174 for every moment.** Whenever no call is running, the console and the buffer together hold the texts of all calls that have returned: nothing is lost, twice or torn, and each thread's texts are in its order. Missing from the full claim:
texts with a zero (`C174_zero_false`), and that what is in the buffer is printed in the end (`C174_end_false`). -/
theorem C174_order_partial (program : Nat → List Op) (hp : ∀ t, Plain (program t)) (schedule : List Nat) (hidle : ∀ t, (run schedule (begin program)).pc t = .idle) :
    ∃ past : Nat → List Op, (∀ t, program t = past t ++ (run schedule (begin program)).todo t) ∧ Order past ((run schedule (begin program)).console ++ (run schedule (begin program)).buffer) := by
  obtain ⟨order, h1, h2⟩ := inv_run hp schedule (inv_begin program)
  generalize run schedule (begin program) = s at *
  have e : s.console ++ s.buffer = (order.map (·.2)).flatten := by
    rcases h2 with ⟨_, _, e⟩ | ⟨u, _, _, doing, _⟩
    · exact e
    · rw [hidle u] at doing; exact absurd doing (by simp [Doing])
  refine ⟨fun t => Classical.choose (h1 t), fun t => (Classical.choose_spec (h1 t)).1, order, e, fun t => ?_⟩
  have hn : now (s.pc t) (s.todo t) = [] := by rw [hidle t]; rfl
  exact ((Classical.choose_spec (h1 t)).2.trans (congrArg (fun z => texts (Classical.choose (h1 t) ++ z)) hn)).trans (by rw [List.append_nil])

/-- **C174 for a call of push.** At every moment at which no call is running, a call of `push` by a thread prints all that has been written so far. -/
theorem C174_push_partial (program : Nat → List Op) (hp : ∀ t, Plain (program t)) (schedule : List Nat) (hidle : ∀ t, (run schedule (begin program)).pc t = .idle) (t : Nat) (rest : List Op)
    (ht : (run schedule (begin program)).todo t = .push :: rest) :
    (run (schedule ++ [t, t, t, t, t]) (begin program)).console = (run schedule (begin program)).console ++ (run schedule (begin program)).buffer ∧ (run (schedule ++ [t, t, t, t, t]) (begin program)).buffer = [] ∧
      (run (schedule ++ [t, t, t, t, t]) (begin program)).todo t = rest := by
  have happ : ∀ (a b : List Nat) (s : State), run (a ++ b) s = run b (run a s) := by
    intro a b
    induction a with
    | nil => intro s; rfl
    | cons x a ih => intro s; exact ih _
  rw [happ]
  obtain ⟨order, h1, h2⟩ := inv_run hp schedule (inv_begin program)
  generalize run schedule (begin program) = s at *
  have nul := order_plain hp h1
  rcases h2 with ⟨_, m, e⟩ | ⟨u, _, _, doing, _⟩
  · have hb : cstr s.buffer = s.buffer := cstr_plain (by rw [← e] at nul; exact fun h => nul (List.mem_append_right _ h))
    obtain ⟨mutex, buffer, console, pc, todo⟩ := s
    dsimp only at *
    subst m
    have hi := hidle t
    refine ⟨?_, ?_, ?_⟩ <;> simp [run, step, hi, ht, set, hb]
  · rw [hidle u] at doing; exact absurd doing (by simp [Doing])

/-- **C174 for zeros** (false). What follows a zero in the buffer is never printed: `push` prints up to the zero, and clears the buffer. -/
theorem C174_zero_false (a b : List UInt8) (ha : (0 : UInt8) ∉ a) :
    (run [0, 0, 0, 0, 0, 0, 0, 0] (begin (set (fun _ => []) 0 [.write (a ++ 0 :: b), .push]))).console = a ∧ (run [0, 0, 0, 0, 0, 0, 0, 0] (begin (set (fun _ => []) 0 [.write (a ++ 0 :: b), .push]))).buffer = [] := by
  have h : cstr (a ++ 0 :: b) = a := by
    unfold cstr
    induction a with
    | nil => simp
    | cons c a ih =>
      have h1 : c ≠ 0 := fun e => ha (by simp [e])
      rw [List.cons_append, List.takeWhile_cons, if_pos (by simpa using h1), ih (fun e => ha (by simp [e]))]
  refine ⟨?_, ?_⟩ <;> simp [run, step, begin, set, h]

theorem run_append (a b : List Nat) (s : State) : run (a ++ b) s = run b (run a s) := by
  induction a generalizing s with
  | nil => rfl
  | cons x a ih => exact ih _

/-- A thread writes texts while nobody else does anything. -/
theorem run_writes (t : Nat) : ∀ (l : List (List UInt8)) (rest : List Op) (s : State), s.mutex = none → s.pc t = .idle → s.todo t = l.map .write ++ rest →
    ∃ s', run (List.replicate (3 * l.length) t) s = s' ∧ s'.mutex = none ∧ s'.pc t = .idle ∧ s'.todo t = rest ∧ s'.buffer = s.buffer ++ l.flatten ∧ s'.console = s.console
  | [], rest, s, h1, h2, h3 => ⟨s, rfl, h1, h2, h3, by simp, rfl⟩
  | a :: l, rest, s, h1, h2, h3 => by
    obtain ⟨mutex, buffer, console, pc, todo⟩ := s
    dsimp only at h1 h2 h3
    subst h1
    have one : run [t, t, t] ⟨none, buffer, console, pc, todo⟩ = ⟨none, buffer ++ a, console, set (set (set pc t .locked) t .finished) t .idle, set todo t (l.map .write ++ rest)⟩ := by
      simp [run, step, h2, h3, set]
    have e : List.replicate (3 * (a :: l).length) t = [t, t, t] ++ List.replicate (3 * l.length) t := rfl
    rw [e, run_append, one]
    obtain ⟨s', r1, r2, r3, r4, r5, r6⟩ := run_writes t l rest ⟨none, buffer ++ a, console, set (set (set pc t .locked) t .finished) t .idle, set todo t (l.map .write ++ rest)⟩ rfl (by simp [set]) (by simp [set])
    exact ⟨s', r1, r2, r3, r4, by rw [r5]; simp, r6⟩

/-- A thread pushes while nobody else does anything. -/
theorem run_push (t : Nat) (rest : List Op) (s : State) (h1 : s.mutex = none) (h2 : s.pc t = .idle) (h3 : s.todo t = .push :: rest) :
    ∃ s', run [t, t, t, t, t] s = s' ∧ s'.mutex = none ∧ s'.pc t = .idle ∧ s'.todo t = rest ∧ s'.buffer = [] ∧ s'.console = s.console ++ cstr s.buffer := by
  obtain ⟨mutex, buffer, console, pc, todo⟩ := s
  dsimp only at h1 h2 h3
  subst h1
  exact ⟨_, rfl, by simp [run, step, h2, h3, set], by simp [run, step, h2, h3, set], by simp [run, step, h2, h3, set], by simp [run, step, h2, h3, set], by simp [run, step, h2, h3, set]⟩

/-- **C174 for the end** (false). If `mexFunction` ends without an error, what is logged while the tracker is stopped, which is after the last `push`, stays in the buffer and is never printed. -/
theorem C174_end_false (before after : List (List UInt8)) (hp : (0 : UInt8) ∉ before.flatten) :
    let s := run (List.replicate (3 * before.length) 0 ++ [0, 0, 0, 0, 0] ++ List.replicate (3 * after.length) 0) (begin (set (fun _ => []) 0 (farewell before after)))
    s.todo 0 = [] ∧ s.console = before.flatten ∧ s.buffer = after.flatten := by
  intro s
  obtain ⟨s1, a1, a2, a3, a4, a5, a6⟩ := run_writes 0 before (.push :: after.map .write) (begin (set (fun _ => []) 0 (farewell before after))) rfl rfl (by simp [begin, set, farewell])
  obtain ⟨s2, b1, b2, b3, b4, b5, b6⟩ := run_push 0 (after.map .write) s1 a2 a3 a4
  obtain ⟨s3, c1, c2, c3, c4, c5, c6⟩ := run_writes 0 after [] s2 b2 b3 (by rw [b4]; simp)
  have hs : s = s3 := by
    show run _ _ = _
    rw [run_append, run_append, a1, b1, c1]
  have e1 : s1.buffer = before.flatten := by rw [a5]; rfl
  refine ⟨by rw [hs, c4], ?_, by rw [hs, c5, b5]; rfl⟩
  rw [hs, c6, b6, a6, e1, cstr_plain hp]
  rfl

/-- **C174 for the end after an error.** Then the tracker is stopped first, and all that was logged is printed. -/
theorem C174_failure (before after : List (List UInt8)) (hp : (0 : UInt8) ∉ (before ++ after).flatten) :
    let s := run (List.replicate (3 * (before ++ after).length) 0 ++ [0, 0, 0, 0, 0]) (begin (set (fun _ => []) 0 (failure before after)))
    s.todo 0 = [] ∧ s.console = (before ++ after).flatten ∧ s.buffer = [] := by
  intro s
  obtain ⟨s1, a1, a2, a3, a4, a5, a6⟩ := run_writes 0 (before ++ after) [.push] (begin (set (fun _ => []) 0 (failure before after))) rfl rfl (by simp [begin, set, failure])
  obtain ⟨s2, b1, b2, b3, b4, b5, b6⟩ := run_push 0 [] s1 a2 a3 a4
  have hs : s = s2 := by
    show run _ _ = _
    rw [run_append, a1, b1]
  have e1 : s1.buffer = (before ++ after).flatten := by rw [a5]; rfl
  refine ⟨by rw [hs, b4], ?_, by rw [hs, b5]⟩
  rw [hs, b6, a6, e1, cstr_plain hp]
  rfl

/-! ## A concrete case -/

namespace Demo

/-- The main thread writes and pushes, the thread of the log writes. -/
def program : Nat → List Op
  | 0 => [.write [65, 66], .push, .put 10, .push]
  | 1 => [.write [97, 98], .put 10]
  | _ => []

/-- Both threads run at the same time. -/
def schedule : List Nat := [1, 0, 1, 0, 1, 0, 0, 1, 0, 0, 0, 1, 0, 0, 0, 1, 1, 1, 0, 0, 0, 0, 0, 0, 0, 0]

end Demo

example : (run Demo.schedule (begin Demo.program)).console = [97, 98, 65, 66, 10, 10] ∧ (run Demo.schedule (begin Demo.program)).buffer = [] := by decide +kernel

example : ∃ past : Nat → List Op, (∀ t, Demo.program t = past t ++ (run Demo.schedule (begin Demo.program)).todo t) ∧ Order past ((run Demo.schedule (begin Demo.program)).console ++ (run Demo.schedule (begin Demo.program)).buffer) :=
  C174_order_partial Demo.program (by
    intro t
    match t with
    | 0 => exact (by decide : ∀ s ∈ [[65, 66], [10]], (0 : UInt8) ∉ s)
    | 1 => exact (by decide : ∀ s ∈ [[97, 98], [10]], (0 : UInt8) ∉ s)
    | t + 2 => intro s hs; cases hs) Demo.schedule (by
    intro t
    match t with
    | 0 => decide +kernel
    | 1 => decide +kernel
    | t + 2 => simp [Demo.schedule, run, step, begin, Demo.program, set])

end Trax.MexStream
