import Verif.Model.Debug

/-!
# C176: messages for debugging
-/

namespace Trax.Debug

/-! ## Specification -/

/-- The text of a C string: no NUL in it. -/
def Text (s : Str) : Prop := ∀ c ∈ s, c ≠ 0

/-- The name of a source file in a message: without the directory of the sources if it is there. -/
def NameIn (root file name : Str) : Prop := file = root ++ name ∨ ((¬ ∃ rest, file = root ++ rest) ∧ name = file)

/-- The stream for messages once debugging is on: the one set last, and the standard output if none is set. -/
def Target (calls : List Op) (f : Stream) : Prop :=
  (∃ before later g, calls = before ++ [.target g] ++ later ∧ (∀ o ∈ later, ∀ h, o ≠ .target h) ∧ (g = some f ∨ (g = Option.none ∧ f = stdout))) ∨
  ((∀ o ∈ calls, ∀ h, o ≠ .target h) ∧ f = stdout)

/-- A message: the file, the line and the text. -/
abbrev Message := Str × Nat × Str

/-- The call of a message. -/
def Message.call (m : Message) : Op := .message m.1 m.2.1 m.2.2

/-- What all messages leave in the stream. -/
inductive Lines (root : Str) (f : Stream) : List Message → List (Stream × Str) → Prop where
  | nil : Lines root f [] []
  | cons (file name text : Str) (line : Nat) (rest : List Message) (out : List (Stream × Str)) :
      NameIn root file name → Lines root f rest out →
      Lines root f ((file, line, text) :: rest) ((f, name ++ b!"(" ++ fmtInt line ++ b!"): ") :: (f, text) :: out)

/-! ## Lemmas -/

theorem at?_mid (done : Str) (c : UInt8) (rest : Str) : at? (done ++ c :: rest) done.length = some c := by
  simp [at?]

theorem at?_end (done : Str) : at? done done.length = some 0 := by
  simp [at?]

theorem compareFrom_eq (fuel : Nat) : ∀ (done s p : Str), Text s → Text p → p.length < fuel →
    compareFrom fuel (done ++ s) (done ++ p) done.length = some (p.isPrefixOf s) := by
  induction fuel with
  | zero => intro done s p _ _ h; omega
  | succ fuel ih =>
    intro done s p hs hp h
    rw [compareFrom.eq_def]; dsimp only
    cases p with
    | nil =>
      rw [List.append_nil, at?_end]
      cases s with
      | nil => rw [List.append_nil, at?_end]; simp [List.isPrefixOf]
      | cons a s =>
        rw [at?_mid]
        have ha : a ≠ 0 := hs a (by simp)
        simp [ha, List.isPrefixOf]
    | cons b p =>
      have hb : b ≠ 0 := hp b (by simp)
      rw [at?_mid]
      cases s with
      | nil =>
        rw [List.append_nil, at?_end]
        have h0 : (0 : UInt8) ≠ b := fun e => hb e.symm
        simp [h0, hb, List.isPrefixOf]
      | cons a s =>
        rw [at?_mid]
        dsimp only
        by_cases hab : a = b
        · subst hab
          rw [if_pos rfl, if_neg hb]
          have := ih (done ++ [a]) s p (fun c hc => hs c (by simp [hc])) (fun c hc => hp c (by simp [hc])) (by simp at h; omega)
          simp only [List.append_assoc, List.singleton_append, List.length_append, List.length_singleton] at this
          rw [this]
          simp [List.isPrefixOf]
        · rw [if_neg hab]
          have hba : ¬ b = a := fun e => hab e.symm
          have e1 : (b == 0) = false := by simpa using hb
          have e2 : (b == a) = false := by simpa using hba
          simp [e1, e2, List.isPrefixOf]

theorem shortFrom_eq (file : Str) : ∀ (root done s : Str), Text s → Text root →
    ∃ i, shortFrom (done ++ root) (done ++ s) root.length done.length = some i ∧
      ((∃ rest, s = root ++ rest ∧ i = done.length + root.length) ∨ ((¬ ∃ rest, s = root ++ rest) ∧ i = 0)) := by
  intro root
  induction root with
  | nil => intro done s _ _; exact ⟨done.length, rfl, .inl ⟨s, rfl, rfl⟩⟩
  | cons r root ih =>
    intro done s hs hr
    have h0 : r ≠ 0 := hr r (by simp)
    rw [List.length_cons, shortFrom.eq_def]; dsimp only
    rw [at?_mid]
    cases s with
    | nil =>
      rw [List.append_nil, at?_end]
      exact ⟨0, by simp, .inr ⟨by simp, rfl⟩⟩
    | cons a s =>
      rw [at?_mid]
      dsimp only
      have ha : a ≠ 0 := hs a (by simp)
      rw [if_neg ha]
      by_cases hra : r = a
      · subst hra
        rw [if_neg (by simp)]
        obtain ⟨i, h1, h2⟩ := ih (done ++ [r]) s (fun c hc => hs c (by simp [hc])) (fun c hc => hr c (by simp [hc]))
        simp only [List.append_assoc, List.singleton_append, List.length_append, List.length_singleton] at h1
        refine ⟨i, h1, ?_⟩
        rcases h2 with ⟨rest, e, hi⟩ | ⟨n, hi⟩
        · exact .inl ⟨rest, by rw [e]; rfl, by simp at hi ⊢; omega⟩
        · refine .inr ⟨?_, hi⟩
          rintro ⟨rest, e⟩
          exact n ⟨rest, by simpa using e⟩
      · rw [if_pos hra]
        refine ⟨0, rfl, .inr ⟨?_, rfl⟩⟩
        rintro ⟨rest, e⟩
        simp at e
        exact hra e.1.symm

theorem shortFileName_eq (b : Build) (s : State) (file : Str) (hf : Text file) (hr : Text b.root) (hl : s.rootLen = b.root.length) :
    ∃ name, shortFileName b s file = some name ∧ NameIn b.root file name := by
  obtain ⟨i, h1, h2⟩ := shortFrom_eq file b.root [] file hf hr
  simp only [List.nil_append, List.length_nil, Nat.zero_add] at h1 h2
  unfold shortFileName
  rw [hl, h1]
  refine ⟨_, rfl, ?_⟩
  rcases h2 with ⟨rest, e, hi⟩ | ⟨n, hi⟩
  · subst e; subst hi; left; simp
  · subst hi; right; exact ⟨n, rfl⟩

theorem run_append (b : Build) (env : Bool) (x y : List Op) : ∀ s, run b env s (x ++ y) =
    match run b env s x with
    | .ok s => run b env s y
    | .abort => .abort
    | .ub => .ub := by
  induction x with
  | nil => intro s; rfl
  | cons o x ih =>
    intro s
    rw [List.cons_append, run, run]
    cases step b env s o with
    | ok s => exact ih s
    | abort => rfl
    | ub => rfl

theorem isEnabled_stream (env : Bool) (s : State) : (isEnabled env s).2.stream = s.stream := by
  unfold isEnabled; dsimp only; split <;> rfl

theorem message_stream {b : Build} {env : Bool} {file : Str} {line : Nat} {text : Str} {s s' : State}
    (h : message b env file line text s = .ok s') : s'.stream = s.stream := by
  have hi := isEnabled_stream env s
  unfold message at h
  generalize isEnabled env s = x at h hi
  obtain ⟨on, t⟩ := x
  dsimp only at h hi
  rw [← hi]
  split at h
  · split at h
    · split at h
      · cases h; rfl
      · cases h
    · cases h; rfl
  · cases h; exact hi.symm

theorem step_stream {b : Build} {env : Bool} {s s' : State} {o : Op} (h : step b env s o = .ok s') (n : ∀ g, o ≠ .target g) :
    s'.stream = s.stream ∨ (o = .enable ∧ s.stream = Option.none ∧ s'.stream = some stdout) := by
  cases o with
  | enable =>
    cases h
    cases e : s.stream with
    | none => right; simp [enable, e]
    | some f => left; simp [enable, e]
  | disable => cases h; left; rfl
  | ask => cases h; left; unfold isEnabled; dsimp only; split <;> rfl
  | target g => exact absurd rfl (n g)
  | message file line text => left; exact message_stream h

theorem run_stream {b : Build} {env : Bool} (ops : List Op) : ∀ {s s' : State}, run b env s ops = .ok s' → (∀ o ∈ ops, ∀ g, o ≠ .target g) →
    s'.stream = s.stream ∨ (s.stream = Option.none ∧ s'.stream = some stdout ∧ Op.enable ∈ ops) := by
  induction ops with
  | nil => intro s s' h _; cases h; exact .inl rfl
  | cons o ops ih =>
    intro s s' h n
    rw [run] at h
    cases e : step b env s o with
    | abort => rw [e] at h; cases h
    | ub => rw [e] at h; cases h
    | ok t =>
      rw [e] at h
      rcases step_stream e (n o (by simp)) with h1 | ⟨h1, h2, h3⟩
      · rcases ih h (fun o ho => n o (by simp [ho])) with h4 | ⟨h4, h5, h6⟩
        · exact .inl (h4.trans h1)
        · exact .inr ⟨h1 ▸ h4, h5, by simp [h6]⟩
      · rcases ih h (fun o ho => n o (by simp [ho])) with h4 | ⟨h4, h5, h6⟩
        · exact .inr ⟨h2, h4.trans h3, by simp [h1]⟩
        · rw [h3] at h4; cases h4

/-- The stream after `enable`. -/
theorem enable_stream {b : Build} {env : Bool} {calls : List Op} {s : State} {f : Stream} (h : run b env (start b) calls = .ok s) (t : Target calls f) :
    (enable b s).stream = some f := by
  rcases t with ⟨x, y, g, e, n, hg⟩ | ⟨n, hf⟩
  · subst e
    rw [run_append, run_append] at h
    cases e : run b env (start b) x with
    | abort => rw [e] at h; cases h
    | ub => rw [e] at h; cases h
    | ok u =>
      rw [e] at h
      have h : run b env (setTarget g u) y = .ok s := h
      rcases run_stream y h n with h1 | ⟨h1, h2, _⟩
      · have h1 : s.stream = g := h1
        unfold enable
        dsimp only
        rw [h1]
        rcases hg with hg | ⟨hg, hf⟩
        · rw [hg]
        · rw [hg, hf]
      · have h1 : g = Option.none := h1
        rcases hg with hg | ⟨_, hf⟩
        · rw [hg] at h1; cases h1
        · unfold enable; dsimp only; rw [h2, hf]
  · subst hf
    rcases run_stream calls h n with h1 | ⟨_, h1, _⟩
    · have h1 : s.stream = Option.none := h1
      unfold enable; dsimp only; rw [h1]
    · unfold enable; dsimp only; rw [h1]

theorem run_on (b : Build) (env : Bool) (f : Stream) (hd : b.debug = true) (hr : Text b.root) (ms : List Message) : ∀ (s : State), (∀ m ∈ ms, Text m.1) →
    s.level = 1 → s.stream = some f → s.rootLen = b.root.length →
    ∃ s' out, run b env s (ms.map Message.call) = .ok s' ∧ Lines b.root f ms out ∧ s'.written = s.written ++ out := by
  induction ms with
  | nil => intro s _ _ _ _; exact ⟨s, [], rfl, .nil, by simp⟩
  | cons m ms ih =>
    intro s hm h1 h2 h3
    obtain ⟨file, line, text⟩ := m
    obtain ⟨name, hn, hN⟩ := shortFileName_eq b s file (hm (file, line, text) (by simp)) hr h3
    have e : step b env s (Message.call (file, line, text)) =
        .ok { s with written := s.written ++ [(f, name ++ b!"(" ++ fmtInt line ++ b!"): "), (f, text)] } := by
      show message b env file line text s = _
      have hi : isEnabled env s = (true, s) := by unfold isEnabled; simp [h1]
      unfold message
      rw [hi]
      simp only [hd, h2, hn, if_true]
    obtain ⟨s', out, r1, r2, r3⟩ := ih { s with written := s.written ++ [(f, name ++ b!"(" ++ fmtInt line ++ b!"): "), (f, text)] }
      (fun m hm' => hm m (by simp [hm'])) h1 h2 h3
    refine ⟨s', _, ?_, .cons file name text line ms out hN r2, ?_⟩
    · rw [List.map_cons, run, e]; exact r1
    · rw [r3]; simp

theorem run_off (b : Build) (env : Bool) (ms : List Message) : ∀ (s : State), s.level = 0 → run b env s (ms.map Message.call) = .ok s := by
  induction ms with
  | nil => intro s _; rfl
  | cons m ms ih =>
    intro s h
    have e : step b env s m.call = .ok s := by
      show message b env m.1 m.2.1 m.2.2 s = _
      unfold message isEnabled
      simp [h]
    rw [List.map_cons, run, e]
    exact ih s h

/-! ## C176 -/

/-- **C176** (prefix): whether a text begins with another is always found, without a read behind the end of one of them. -/
theorem C176_prefix (str pre : Str) (hs : Text str) (hp : Text pre) :
    ∃ r, comparePrefix str pre = some r ∧ (r = true ↔ ∃ rest, str = pre ++ rest) := by
  refine ⟨pre.isPrefixOf str, ?_, ?_⟩
  · have := compareFrom_eq (str.length + pre.length + 1) [] str pre hs hp (by omega)
    simpa [comparePrefix] using this
  · rw [List.isPrefixOf_iff_prefix]
    exact ⟨fun ⟨r, e⟩ => ⟨r, e.symm⟩, fun ⟨r, e⟩ => ⟨r, e.symm⟩⟩

example : comparePrefix b!"//tmp/a.jpg" b!"//" = some true ∧ comparePrefix b!"/tmp/a.jpg" b!"//" = some false ∧ comparePrefix b!"/" b!"//" = some false := by decide +kernel

/-- **C176** (silent): a library that is not built for debugging writes no message, whatever is called; one that is built for it writes none until debugging is switched on, if `TRAX_DEBUG` is not in the environment. -/
theorem C176_silent (b : Build) (env : Bool) (ops : List Op) (h : b.debug = false ∨ (b.enabled = false ∧ env = false ∧ Op.enable ∉ ops)) :
    ∃ s, run b env (start b) ops = .ok s ∧ s.written = [] := by
  rcases h with h | ⟨h1, h2, h3⟩
  · have gen : ∀ s : State, ∃ s', run b env s ops = .ok s' ∧ s'.written = s.written := by
      induction ops with
      | nil => intro s; exact ⟨s, rfl, rfl⟩
      | cons o ops ih =>
        intro s
        have : ∃ t, step b env s o = .ok t ∧ t.written = s.written := by
          cases o with
          | enable => exact ⟨_, rfl, rfl⟩
          | disable => exact ⟨_, rfl, rfl⟩
          | ask => refine ⟨_, rfl, ?_⟩; unfold isEnabled; dsimp only; split <;> rfl
          | target g => exact ⟨_, rfl, rfl⟩
          | message file line text => exact ⟨s, by simp [step, message, h], rfl⟩
        obtain ⟨t, e, w⟩ := this
        obtain ⟨s', e', w'⟩ := ih t
        exact ⟨s', by rw [run, e]; exact e', w'.trans w⟩
    exact gen (start b)
  · subst h2
    have gen : ∀ s : State, s.level ≤ 0 → ∃ s', run b false s ops = .ok s' ∧ s'.written = s.written := by
      induction ops with
      | nil => intro s _; exact ⟨s, rfl, rfl⟩
      | cons o ops ih =>
        intro s hl
        have hz : ∀ s : State, s.level ≤ 0 → (isEnabled false s).1 = false ∧ (isEnabled false s).2.level = 0 ∧ (isEnabled false s).2.written = s.written := by
          intro s hl
          unfold isEnabled
          by_cases h0 : s.level < 0
          · simp [h0]
          · have : s.level = 0 := by omega
            simp [this]
        have : ∃ t, step b false s o = .ok t ∧ t.written = s.written ∧ t.level ≤ 0 := by
          cases o with
          | enable => exact absurd (List.mem_cons_self ..) h3
          | disable => exact ⟨_, rfl, rfl, Int.le_refl 0⟩
          | ask => exact ⟨_, rfl, (hz s hl).2.2, by rw [(hz s hl).2.1]; exact Int.le_refl 0⟩
          | target g => exact ⟨_, rfl, rfl, hl⟩
          | message file line text =>
            by_cases hd : b.debug = true
            · refine ⟨(isEnabled false s).2, ?_, (hz s hl).2.2, by rw [(hz s hl).2.1]; exact Int.le_refl 0⟩
              show message b false file line text s = _
              unfold message
              simp [hd, (hz s hl).1]
            · exact ⟨s, by simp [step, message, hd], rfl, hl⟩
        obtain ⟨t, e, w, l⟩ := this
        obtain ⟨s', e', w'⟩ := ih (fun h => h3 (List.mem_cons_of_mem _ h)) t l
        exact ⟨s', by rw [run, e]; exact e', w'.trans w⟩
    apply gen
    unfold start
    dsimp only
    rw [h1]
    split <;> simp

example : run ⟨false, true, b!"/src/"⟩ true (start ⟨false, true, b!"/src/"⟩) [.enable, .message b!"/src/trax.c" 581 b!"x"] = .ok ⟨1, some 1, 5, []⟩ := by decide +kernel

/-- **C176** (written, partial): from the call that switches debugging on until it is switched off, every message is written, in order, to the stream that was set last (to the standard output if none was), with the line and the name of the
file below the directory of the sources; none is written after it has been switched off. What is missing: that this is so when debugging is switched on by the environment or at compile time, see `C176_environment_false`. -/
theorem C176_written_partial (b : Build) (env : Bool) (calls : List Op) (s : State) (f : Stream) (ms later : List Message)
    (hd : b.debug = true) (hr : Text b.root) (hm : ∀ m ∈ ms, Text m.1)
    (hs : run b env (start b) calls = .ok s) (ht : Target calls f) :
    ∃ s' out, run b env (start b) (calls ++ [.enable] ++ ms.map Message.call ++ [.disable] ++ later.map Message.call) = .ok s' ∧
      Lines b.root f ms out ∧ s'.written = s.written ++ out := by
  obtain ⟨u, out, r1, r2, r3⟩ := run_on b env f hd hr ms (enable b s) hm rfl (enable_stream hs ht) rfl
  refine ⟨disable u, out, ?_, r2, r3⟩
  rw [List.append_assoc, List.append_assoc, List.append_assoc, run_append, hs]
  show run b env (enable b s) (ms.map Message.call ++ ([.disable] ++ later.map Message.call)) = _
  rw [run_append, r1]
  exact run_off b env later (disable u) rfl

/-- Two messages, one from a file that is not below the directory of the sources, into stream 7. -/
example : run ⟨true, false, b!"/src/"⟩ false (start ⟨true, false, b!"/src/"⟩) [.target (some 7), .enable, .message b!"/src/trax.c" 581 b!"a", .message b!"/srd" 2 b!"b"]
    = .ok ⟨1, some 7, 5, [(7, b!"trax.c(581): "), (7, b!"a"), (7, b!"/srd(2): "), (7, b!"b")]⟩ := by decide +kernel

example : Target [.target (some 7), .ask] 7 := .inl ⟨[], [.ask], some 7, rfl, by simp, .inl rfl⟩

/-- **C176** (environment, false): with `TRAX_DEBUG` in the environment, or a library built with `TRAX_ENABLE_DEBUG`, the first message is undefined behaviour (a null pointer for the stream), unless the program has
called the functions for debugging before, which the library itself never does. -/
theorem C176_environment_false (b : Build) (env : Bool) (ops : List Op) (hd : b.debug = true) (he : b.enabled = true ∨ env = true)
    (hn : ∀ o ∈ ops, o ≠ .enable ∧ o ≠ .disable ∧ ∀ f, o ≠ .target (some f)) (file : Str) (line : Nat) (text : Str) (hm : Op.message file line text ∈ ops) :
    run b env (start b) ops = .ub := by
  have gen : ∀ s : State, s.stream = Option.none → (s.level = 1 ∨ (s.level = -1 ∧ env = true)) → run b env s ops = .ub := by
    induction ops with
    | nil => cases hm
    | cons o ops ih =>
      intro s h1 h2
      have hon : (isEnabled env s).1 = true ∧ (isEnabled env s).2.stream = Option.none ∧ (isEnabled env s).2.level = 1 := by
        unfold isEnabled
        rcases h2 with h2 | ⟨h2, h3⟩
        · simp [h2, h1]
        · simp [h2, h3, h1]
      obtain ⟨n1, n2, n3⟩ := hn o (by simp)
      cases o with
      | enable => exact absurd rfl n1
      | disable => exact absurd rfl n2
      | ask =>
        rw [run]
        show run b env (isEnabled env s).2 ops = .ub
        exact ih (fun o ho => hn o (by simp [ho])) (by simpa using hm) _ hon.2.1 (.inl hon.2.2)
      | target g =>
        cases g with
        | some f => exact absurd rfl (n3 f)
        | none =>
          rw [run]
          show run b env (setTarget Option.none s) ops = .ub
          exact ih (fun o ho => hn o (by simp [ho])) (by simpa using hm) _ rfl h2
      | message file line text =>
        have e : step b env s (.message file line text) = .ub := by
          show message b env file line text s = _
          unfold message
          simp [hd, hon.1, hon.2.1]
        rw [run, e]
  apply gen _ rfl
  unfold start
  dsimp only
  rw [hd]
  rcases he with he | he
  · left; rw [he]; rfl
  · cases b.enabled with
    | true => left; rfl
    | false => right; exact ⟨rfl, he⟩

example : run ⟨true, false, b!""⟩ true (start ⟨true, false, b!""⟩) [.ask, .message b!"trax.c" 581 b!"Unable to parse hello message."] = .ub := by decide +kernel

end Trax.Debug
