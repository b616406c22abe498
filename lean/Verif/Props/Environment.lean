import Verif.Lemmas.Environment
import Verif.Lemmas.Command
import Verif.Props.Command

/-!
# Property theorems C94–C96: the command, the environment and the connection of a tracker
-/

namespace Trax.Environ
open Trax.Spec (EnvName Sets Unset HasValue LastValue LastGiven NotGiven Quotable Word commandLine Separated spaces)

/-! ## C94 -/

/-- **C94** (partial): the arguments given to the command line tool after its switches are the
program and the arguments the tracker is started with, byte for byte, spaces and empty arguments
included.

Missing: arguments with a quote that does not come after an apostrophe, arguments that end in an
apostrophe, and arguments longer than 1023 bytes, for which it is false (`C94_arguments_false`). -/
theorem C94_arguments_partial (arguments : List Str) (hne : arguments ≠ []) (hq : ∀ a ∈ arguments, Quotable a) :
    processCommand (trackerCommand arguments) = .ok arguments := by
  have key : ∀ l : List Str, l ≠ [] → trackerCommand l =
      commandLine ((l.take 1).map (fun a => (1, Word.quoted a)) ++ (l.drop 1).map (fun a => (2, Word.quoted a))) ++ spaces 1 := by
    have h2 : ∀ l : List Str, b!" " ++ trackerCommand l = commandLine (l.map fun a => (2, Word.quoted a)) ++ spaces 1 := by
      intro l
      induction l with
      | nil => rfl
      | cons a l ih =>
        have : trackerCommand (a :: l) = b!" \"" ++ a ++ b!"\"" ++ (b!" " ++ trackerCommand l) := by
          simp [trackerCommand]
        rw [this, ih]
        simp [commandLine, spaces, Word.write, List.replicate_succ]
    intro l hl
    cases l with
    | nil => exact absurd rfl hl
    | cons a l =>
      have : trackerCommand (a :: l) = b!" \"" ++ a ++ b!"\"" ++ (b!" " ++ trackerCommand l) := by
        simp [trackerCommand]
      rw [this, h2]
      simp [commandLine, spaces, Word.write, List.replicate_succ]
  rw [key arguments hne]
  have h := (C69_words_partial ((arguments.take 1).map (fun a => (1, Word.quoted a)) ++
    (arguments.drop 1).map (fun a => (2, Word.quoted a))) 1 ?_ ?_ ?_ (Nat.le_refl _)).2
  · rw [h]
    congr 1
    cases arguments with
    | nil => exact absurd rfl hne
    | cons a l => simp [Word.text, Function.comp_def]
  · cases arguments with
    | nil => exact absurd rfl hne
    | cons a l => simp
  · intro w hw
    rcases List.mem_append.1 hw with hw | hw
    · obtain ⟨a, ha, rfl⟩ := List.mem_map.1 hw
      exact hq a (List.mem_of_mem_take ha)
    · obtain ⟨a, ha, rfl⟩ := List.mem_map.1 hw
      exact hq a (List.mem_of_mem_drop ha)
  · cases arguments with
    | nil => exact absurd rfl hne
    | cons a l =>
      intro w hw
      simp only [List.take_succ_cons, List.take_zero, List.map_cons, List.map_nil, List.drop_succ_cons, List.drop_zero,
        List.nil_append] at hw
      obtain ⟨b, _, rfl⟩ := List.mem_map.1 hw
      show 0 < 2
      omega

/-- An argument without quotes is quotable. -/
theorem quotable_plain {a : Str} (h : ch%'"' ∉ a) (h2 : a.getLast? ≠ some ch%'\'') (h3 : a.length ≤ 1023) : Quotable a :=
  ⟨fun x y e => absurd (by rw [e]; simp) h, h2, h3⟩

/-- A program with an argument that contains spaces and an empty one. -/
example : processCommand (trackerCommand [b!"python", b!"my tracker.py", b!""]) = .ok [b!"python", b!"my tracker.py", b!""] := by
  refine C94_arguments_partial _ (by simp) ?_
  intro a ha
  simp only [List.mem_cons, List.not_mem_nil, or_false] at ha
  rcases ha with rfl | rfl | rfl <;> exact quotable_plain (by decide) (by decide) (by decide)

/-- The full claim of C94 is false: an argument that contains a quote, or ends in an apostrophe, is
handed over changed, and such an argument at the end, or one of 1024 bytes, makes the tool use a null pointer. -/
theorem C94_arguments_false :
    processCommand (trackerCommand [b!"matlab", b!"run(\"a b\")"]) = .ok [b!"matlab", b!"run(", b!"b\")\""] ∧
    processCommand (trackerCommand [b!"matlab", b!"disp 'x'", b!"y z"]) = .ok [b!"matlab", b!"disp 'x'\"  ", b!"z\""] ∧
    processCommand (trackerCommand [b!"matlab", b!"run 'a'"]) = .ub ∧
    processCommand (trackerCommand [List.replicate 1024 ch%'a']) = .ub := by
  refine ⟨by decide +kernel, by decide +kernel, by decide +kernel, by decide +kernel⟩

/-! ## C95 -/

theorem trackerEnviron_mem (mode : Mode) (environ : List Str) (given : EnvMap) (port : Int) (n v : Str) (hn : EnvName n)
    (hs : mode = .sockets → n ≠ b!"TRAX_SOCKET") :
    (n, v) ∈ processMap mode environ given port ↔ LastGiven given n v ∨ (NotGiven given n ∧ LastValue environ n v) := by
  have h0 : (n, v) ∈ copyEnvironment [] environ ↔ LastValue environ n v := by
    rw [copy_eq, mem_assign _ sorted_nil, lastGiven_filterMap hn.2.1]
    simp
  have hso : Sorted (copyEnvironment [] environ) := by
    rw [copy_eq]; exact assign_sorted sorted_nil _
  have h1 : (n, v) ∈ given.foldl (fun m e => EnvMap.set e.1 e.2 m) (copyEnvironment [] environ) ↔
      LastGiven given n v ∨ (NotGiven given n ∧ LastValue environ n v) := by
    rw [← h0]
    exact mem_assign given hso n v
  unfold processMap
  dsimp only
  split
  · next hm =>
    rw [← h1]
    refine (mem_set (assign_sorted hso given) _ _ n v).trans ?_
    constructor
    · rintro (⟨e, _⟩ | ⟨_, h⟩)
      · exact absurd e (hs hm)
      · exact h
    · intro h
      exact .inr ⟨hs hm, h⟩
  · exact h1

theorem environ_clean (mode : Mode) (environ : List Str) (given : EnvMap) (port : Int)
    (hz : ∀ e ∈ environ, (0 : UInt8) ∉ e) (hg : ∀ p ∈ given, EnvName p.1 ∧ (0 : UInt8) ∉ p.2) :
    Clean (processMap mode environ given port) := by
  have hso : Sorted (copyEnvironment [] environ) := by
    rw [copy_eq]; exact assign_sorted sorted_nil _
  have h0 : Clean (copyEnvironment [] environ) := by
    intro k v h
    rw [copy_eq, mem_assign _ sorted_nil] at h
    rcases h with h | ⟨_, h⟩
    · obtain ⟨e, he, hs⟩ := List.mem_filterMap.1 (LastGiven.mem h)
      obtain ⟨g1, g2⟩ := splitVar_some.1 hs
      have := hz e he
      rw [g2] at this
      simp only [List.mem_append, List.mem_cons, not_or] at this
      exact ⟨g1, this.1, this.2.2⟩
    · simp at h
  have h1 : Clean (given.foldl (fun m e => EnvMap.set e.1 e.2 m) (copyEnvironment [] environ)) := by
    intro k v h
    rcases (mem_assign given hso k v).1 h with h | ⟨_, h⟩
    · obtain ⟨g1, g2⟩ := hg _ (LastGiven.mem h)
      exact ⟨g1.2.1, g1.2.2, g2⟩
    · exact h0 k v h
  unfold processMap
  dsimp only
  split
  · intro k v h
    rcases (mem_set (assign_sorted hso given) _ _ k v).1 h with ⟨rfl, rfl⟩ | ⟨_, h⟩
    · refine ⟨by decide, by decide, ?_⟩
      intro h'
      rcases fmtInt_chars port _ h' with h' | h'
      · exact absurd h' (by decide)
      · exact absurd h' (by decide)
    · exact h1 k v h
  · exact h1

theorem childEnviron_fd (m : EnvMap) (a b : Int) : childEnviron false m a b = childEnviron false m 0 0 := rfl

theorem noNul_fmtInt (n : Int) : (0 : UInt8) ∉ fmtInt n := by
  intro h'
  rcases fmtInt_chars n _ h' with h' | h'
  · exact absurd h' (by decide)
  · exact absurd h' (by decide)

theorem childEnviron_explicit (m : EnvMap) (a b : Int) : childEnviron true m a b =
    childEnviron false m 0 0 ++ [b!"TRAX_OUT=" ++ fmtInt b, b!"TRAX_IN=" ++ fmtInt a] := by
  have h : ∀ s : Str, (0 : UInt8) ∉ s → ∀ n, (0 : UInt8) ∉ s ++ fmtInt n := by
    intro s hs n
    rw [List.mem_append, not_or]
    exact ⟨hs, noNul_fmtInt n⟩
  simp only [childEnviron, if_true, Bool.false_eq_true, if_false, List.map_append, List.map_cons, List.map_nil,
    List.append_assoc]
  rw [cstr_eq (h _ (by decide) b), cstr_eq (h _ (by decide) a)]
  rfl

theorem tracker_sets (mode : Mode) (environ : List Str) (given : EnvMap) (port fdIn fdOut : Int) (n v : Str) (hn : EnvName n)
    (hz : ∀ e ∈ environ, (0 : UInt8) ∉ e) (hg : ∀ p ∈ given, EnvName p.1 ∧ (0 : UInt8) ∉ p.2)
    (hx : mode = .explicit → n ≠ b!"TRAX_IN" ∧ n ≠ b!"TRAX_OUT") :
    (∃ e ∈ trackerEnviron mode environ given port fdIn fdOut, Sets e n v) ↔ (n, v) ∈ processMap mode environ given port := by
  have hc := environ_clean mode environ given port hz hg
  unfold trackerEnviron
  by_cases hm : mode = .explicit
  · rw [show decide (mode = Mode.explicit) = true by simp [hm], childEnviron_explicit, ← child_mem hc hn.2.1]
    constructor
    · rintro ⟨e, he, hs⟩
      rcases List.mem_append.1 he with he | he
      · exact ⟨e, he, hs⟩
      · exfalso
        simp only [List.mem_cons, List.not_mem_nil, or_false] at he
        rcases he with rfl | rfl
        · have h1 : splitVar (b!"TRAX_OUT=" ++ fmtInt fdOut) = some (b!"TRAX_OUT", fmtInt fdOut) :=
            splitVar_some.2 ⟨by decide, by simp⟩
          rw [splitVar_sets hn.2.1, h1] at hs
          cases hs
          exact (hx hm).2 rfl
        · have h1 : splitVar (b!"TRAX_IN=" ++ fmtInt fdIn) = some (b!"TRAX_IN", fmtInt fdIn) :=
            splitVar_some.2 ⟨by decide, by simp⟩
          rw [splitVar_sets hn.2.1, h1] at hs
          cases hs
          exact (hx hm).1 rfl
    · rintro ⟨e, he, hs⟩
      exact ⟨e, List.mem_append_left _ he, hs⟩
  · rw [show decide (mode = Mode.explicit) = false by simp [hm], childEnviron_fd, ← child_mem hc hn.2.1]

/-- **C95**: whatever the environment of the client and the variables the user gives, a variable has
exactly one value in the environment of the tracker if the user gives it one (the last one counts), or
else if it has one in the environment of the client, and it has no value otherwise. This holds for every
name but the ones the library uses for the connection. -/
theorem C95_environment (mode : Mode) (environ : List Str) (given : List (Str × Str)) (port fdIn fdOut : Int)
    (hz : ∀ e ∈ environ, (0 : UInt8) ∉ e) (hg : ∀ p ∈ given, EnvName p.1 ∧ (0 : UInt8) ∉ p.2)
    (n : Str) (hn : EnvName n) (hs : mode = .sockets → n ≠ b!"TRAX_SOCKET")
    (hx : mode = .explicit → n ≠ b!"TRAX_IN" ∧ n ≠ b!"TRAX_OUT") :
    (∀ v, LastGiven given n v → HasValue (trackerEnviron mode environ given port fdIn fdOut) n v) ∧
    (NotGiven given n →
      (∀ v, LastValue environ n v → HasValue (trackerEnviron mode environ given port fdIn fdOut) n v) ∧
      (Unset environ n → Unset (trackerEnviron mode environ given port fdIn fdOut) n)) := by
  have key : ∀ v, (∃ e ∈ trackerEnviron mode environ given port fdIn fdOut, Sets e n v) ↔
      LastGiven given n v ∨ (NotGiven given n ∧ LastValue environ n v) := fun v => by
    rw [tracker_sets mode environ given port fdIn fdOut n v hn hz hg hx, trackerEnviron_mem mode environ given port n v hn hs]
  refine ⟨fun v hv => ⟨(key v).2 (.inl hv), fun e he w hw => ?_⟩, fun hng => ⟨fun v hv => ⟨(key v).2 (.inr ⟨hng, hv⟩), fun e he w hw => ?_⟩, fun hu e he w hw => ?_⟩⟩
  · rcases (key w).1 ⟨e, he, hw⟩ with h | ⟨h, _⟩
    · exact LastGiven.unique h hv
    · exact (NotGiven.not h hv).elim
  · rcases (key w).1 ⟨e, he, hw⟩ with h | ⟨_, h⟩
    · exact (NotGiven.not hng h).elim
    · rw [← lastGiven_filterMap hn.2.1] at h hv
      exact LastGiven.unique h hv
  · rcases (key w).1 ⟨e, he, hw⟩ with h | ⟨_, h⟩
    · exact (NotGiven.not hng h).elim
    · rw [← lastGiven_filterMap hn.2.1] at h
      exact NotGiven.not ((notGiven_filterMap hn.2.1).2 hu) h

/-- A variable of the client that the user replaces, one that is kept, and one that is new. -/
example : trackerEnviron .standard [b!"PATH=/bin", b!"HOME=/root"] [(b!"HOME", b!"/tmp"), (b!"A", b!"1=2")] 9090 5 6 =
    [b!"A=1=2", b!"HOME=/tmp", b!"PATH=/bin"] := by decide +kernel

example : HasValue (trackerEnviron .standard [b!"PATH=/bin", b!"HOME=/root"] [(b!"HOME", b!"/tmp"), (b!"A", b!"1=2")] 9090 5 6)
    b!"HOME" b!"/tmp" :=
  (C95_environment .standard _ _ 9090 5 6 (by decide +kernel) (by
    intro p hp
    simp only [List.mem_cons, List.not_mem_nil, or_false] at hp
    rcases hp with rfl | rfl <;> exact ⟨⟨by decide, by decide, by decide⟩, by decide⟩) b!"HOME" ⟨by decide, by decide, by decide⟩
    (by intro h; cases h) (by intro h; cases h)).1 _ ⟨[], [(b!"A", b!"1=2")], rfl, by decide⟩

/-- **C95**, the switches `-e` of the command line tool: the text before the first equals sign is the
name, the text after it the value; the last switch for a name counts, and a switch without an equals
sign changes nothing. -/
theorem C95_switches (switches : List Str) (n v : Str) (hn : ch%'=' ∉ n) :
    (n, v) ∈ environmentOptions switches ↔ LastValue switches n v := by
  rw [options_eq, mem_assign _ sorted_nil, lastGiven_filterMap hn]
  simp

example : (b!"A", b!"2=3") ∈ environmentOptions [b!"A=1", b!"B", b!"A=2=3"] :=
  (C95_switches _ _ _ (by decide)).2 ⟨[b!"A=1", b!"B"], b!"A=2=3", [], rfl, rfl, by intro e he; cases he⟩

/-! ## C96 -/

theorem atoi_fmtInt (n : Int) (h : InInt32 n) : atoi (fmtInt n) = n := by
  have hr := strtol_fmtInt n [] (by intro c hc; cases hc) h
  rw [List.append_nil] at hr
  unfold atoi
  rw [hr]
  exact wrap32_id h

/-- **C96**, first part: with the connection over a socket the tracker connects to the port of the
client, whatever the two environments contain. -/
theorem C96_socket (environ : List Str) (given : List (Str × Str)) (port fdIn fdOut : Int) (hp : InInt32 port)
    (hz : ∀ e ∈ environ, (0 : UInt8) ∉ e) (hg : ∀ p ∈ given, EnvName p.1 ∧ (0 : UInt8) ∉ p.2) :
    serverConnection (trackerEnviron .sockets environ given port fdIn fdOut) = .socket port := by
  have hn : EnvName b!"TRAX_SOCKET" := ⟨by decide, by decide, by decide⟩
  have hso : Sorted (assign (copyEnvironment [] environ) given) := by
    rw [copy_eq]; exact assign_sorted (assign_sorted sorted_nil _) _
  have hm : ∀ v, (b!"TRAX_SOCKET", v) ∈ processMap .sockets environ given port ↔ v = fmtInt port := by
    intro v
    have := mem_set hso b!"TRAX_SOCKET" (fmtInt port) b!"TRAX_SOCKET" v
    simpa [processMap, assign] using this
  have hv : HasValue (trackerEnviron .sockets environ given port fdIn fdOut) b!"TRAX_SOCKET" (fmtInt port) := by
    have key := fun v => tracker_sets .sockets environ given port fdIn fdOut b!"TRAX_SOCKET" v hn hz hg (by intro h; cases h)
    exact ⟨(key _).2 ((hm _).2 rfl), fun e he w hw => (hm w).1 ((key w).1 ⟨e, he, hw⟩)⟩
  unfold serverConnection
  rw [getenv_some hv]
  exact congrArg _ (atoi_fmtInt port hp)

example : serverConnection (trackerEnviron .sockets [b!"TRAX_SOCKET=1", b!"TRAX_IN=7"] [] 9091 5 6) = .socket 9091 :=
  C96_socket _ _ _ _ _ (by decide) (by decide +kernel) (by intro p hp; cases hp)

/-- **C96**, second part (partial): with the other two kinds of connection the tracker uses the
descriptors of its standard streams, or the two descriptors made for it, if neither the environment of
the client nor the variables given by the user contain any of the three names the library uses.

Missing: environments that contain one of these names, as those of trackers, for which it is false
(`C96_nested_false`). -/
theorem C96_streams_partial (environ : List Str) (given : List (Str × Str)) (port fdIn fdOut : Int)
    (hi : InInt32 fdIn) (ho : InInt32 fdOut)
    (hz : ∀ e ∈ environ, (0 : UInt8) ∉ e) (hg : ∀ p ∈ given, EnvName p.1 ∧ (0 : UInt8) ∉ p.2)
    (hu : ∀ n ∈ [b!"TRAX_SOCKET", b!"TRAX_IN", b!"TRAX_OUT"], Unset environ n ∧ NotGiven given n) :
    serverConnection (trackerEnviron .standard environ given port fdIn fdOut) = .files 0 1 ∧
    serverConnection (trackerEnviron .explicit environ given port fdIn fdOut) = .files fdIn fdOut := by
  have hn : ∀ n ∈ [b!"TRAX_SOCKET", b!"TRAX_IN", b!"TRAX_OUT"], EnvName n := by
    intro n h
    simp only [List.mem_cons, List.not_mem_nil, or_false] at h
    rcases h with rfl | rfl | rfl <;> exact ⟨by decide, by decide, by decide⟩
  have hmap : ∀ mode : Mode, mode ≠ .sockets → ∀ n ∈ [b!"TRAX_SOCKET", b!"TRAX_IN", b!"TRAX_OUT"], ∀ v,
      (n, v) ∉ processMap mode environ given port := by
    intro mode hm n h v hv
    rw [trackerEnviron_mem mode environ given port n v (hn n h) (fun e => absurd e hm)] at hv
    obtain ⟨h1, h2⟩ := hu n h
    rcases hv with hv | ⟨_, hv⟩
    · exact NotGiven.not h2 hv
    · rw [← lastGiven_filterMap (hn n h).2.1] at hv
      exact NotGiven.not ((notGiven_filterMap (hn n h).2.1).2 h1) hv
  have hbase : ∀ mode : Mode, mode ≠ .sockets → ∀ n ∈ [b!"TRAX_SOCKET", b!"TRAX_IN", b!"TRAX_OUT"],
      Unset (childEnviron false (processMap mode environ given port) 0 0) n := by
    intro mode hm n h e he v hs
    exact hmap mode hm n h v ((child_mem (environ_clean mode environ given port hz hg) (hn n h).2.1).1 ⟨e, he, hs⟩)
  constructor
  · have h := hbase .standard (by decide)
    have e : trackerEnviron .standard environ given port fdIn fdOut = childEnviron false (processMap .standard environ given port) 0 0 := rfl
    unfold serverConnection
    rw [e, getenv_none (h _ (by simp)), getenv_none (h b!"TRAX_IN" (by simp)), getenv_none (h b!"TRAX_OUT" (by simp))]
    rfl
  · have h := hbase .explicit (by decide)
    have e : trackerEnviron .explicit environ given port fdIn fdOut =
        childEnviron false (processMap .explicit environ given port) 0 0 ++ [b!"TRAX_OUT=" ++ fmtInt fdOut, b!"TRAX_IN=" ++ fmtInt fdIn] :=
      childEnviron_explicit _ _ _
    have s1 : ∀ n v, ch%'=' ∉ n → Sets (b!"TRAX_OUT=" ++ fmtInt fdOut) n v → n = b!"TRAX_OUT" ∧ v = fmtInt fdOut := by
      intro n v hn hs
      have h1 : splitVar (b!"TRAX_OUT=" ++ fmtInt fdOut) = some (b!"TRAX_OUT", fmtInt fdOut) := splitVar_some.2 ⟨by decide, by simp⟩
      rw [splitVar_sets hn, h1] at hs
      cases hs
      exact ⟨rfl, rfl⟩
    have s2 : ∀ n v, ch%'=' ∉ n → Sets (b!"TRAX_IN=" ++ fmtInt fdIn) n v → n = b!"TRAX_IN" ∧ v = fmtInt fdIn := by
      intro n v hn hs
      have h1 : splitVar (b!"TRAX_IN=" ++ fmtInt fdIn) = some (b!"TRAX_IN", fmtInt fdIn) := splitVar_some.2 ⟨by decide, by simp⟩
      rw [splitVar_sets hn, h1] at hs
      cases hs
      exact ⟨rfl, rfl⟩
    have u : Unset (trackerEnviron .explicit environ given port fdIn fdOut) b!"TRAX_SOCKET" := by
      intro x hx v hs
      rw [e] at hx
      rcases List.mem_append.1 hx with hx | hx
      · exact h _ (by simp) x hx v hs
      · simp only [List.mem_cons, List.not_mem_nil, or_false] at hx
        rcases hx with rfl | rfl
        · exact absurd (s1 _ _ (by decide) hs).1 (by decide)
        · exact absurd (s2 _ _ (by decide) hs).1 (by decide)
    have v1 : HasValue (trackerEnviron .explicit environ given port fdIn fdOut) b!"TRAX_IN" (fmtInt fdIn) := by
      rw [e]
      refine ⟨⟨b!"TRAX_IN=" ++ fmtInt fdIn, by simp, by simp [Sets]⟩, ?_⟩
      intro x hx v hs
      rcases List.mem_append.1 hx with hx | hx
      · exact absurd hs (h _ (by simp) x hx v)
      · simp only [List.mem_cons, List.not_mem_nil, or_false] at hx
        rcases hx with rfl | rfl
        · exact absurd (s1 _ _ (by decide) hs).1 (by decide)
        · exact (s2 _ _ (by decide) hs).2
    have v2 : HasValue (trackerEnviron .explicit environ given port fdIn fdOut) b!"TRAX_OUT" (fmtInt fdOut) := by
      rw [e]
      refine ⟨⟨b!"TRAX_OUT=" ++ fmtInt fdOut, by simp, by simp [Sets]⟩, ?_⟩
      intro x hx v hs
      rcases List.mem_append.1 hx with hx | hx
      · exact absurd hs (h _ (by simp) x hx v)
      · simp only [List.mem_cons, List.not_mem_nil, or_false] at hx
        rcases hx with rfl | rfl
        · exact (s1 _ _ (by decide) hs).2
        · exact absurd (s2 _ _ (by decide) hs).1 (by decide)
    unfold serverConnection
    rw [getenv_none u, getenv_some v1, getenv_some v2]
    show Connection.files (atoi _) (atoi _) = _
    rw [atoi_fmtInt _ hi, atoi_fmtInt _ ho]

example : serverConnection (trackerEnviron .explicit [b!"PATH=/bin"] [(b!"A", b!"1")] 9090 5 8) = .files 5 8 := by decide +kernel

/-- The full claim of C96 is false: a client that is itself a tracker (or was started by one) has the
variables of its own connection in its environment, and a tracker started by it takes these for
its own: it connects to the other client's port, or uses the wrong descriptors. -/
theorem C96_nested_false :
    serverConnection (trackerEnviron .standard [b!"TRAX_SOCKET=9090"] [] 0 5 8) = .socket 9090 ∧
    serverConnection (trackerEnviron .explicit [b!"TRAX_SOCKET=9090"] [] 0 5 8) = .socket 9090 ∧
    serverConnection (trackerEnviron .explicit [b!"TRAX_OUT=8", b!"TRAX_IN=5"] [] 0 11 14) = .files 5 8 ∧
    serverConnection (trackerEnviron .standard [b!"TRAX_OUT=8", b!"TRAX_IN=5"] [] 0 11 14) = .files 5 8 := by
  refine ⟨by decide +kernel, by decide +kernel, by decide +kernel, by decide +kernel⟩

end Trax.Environ
