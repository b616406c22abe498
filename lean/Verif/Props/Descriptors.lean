import Verif.Lemmas.Descriptors
import Verif.Props.Environment

/-!
# Property theorems C97–C99: the descriptors of tracker processes
-/

namespace Trax.Fds
open Trax.Fds.Spec
open Trax.Environ (serverConnection trackerEnviron)
open Trax.Spec (EnvName Unset NotGiven)

/-! ## C97 -/

/-- **C97**, first part: whatever descriptors the client has open or closed (even its standard
streams), a tracker that is started has three new pipes as its standard streams, and the client has the
other ends of these. -/
theorem C97_standard (s : Sys) (hs : Reachable s) (k : Nat) (garbage : Proc) :
    ∃ p child input output error, (s.launch k false garbage .started).procs k = some p ∧
      (s.launch k false garbage .started).children k = some child ∧
      input ≠ output ∧ input ≠ error ∧ output ≠ error ∧
      (∀ q ∈ [input, output, error], ¬ Held s (.readEnd q) ∧ ¬ Held s (.writeEnd q)) ∧
      child.get 0 = some (.readEnd input) ∧ child.get 1 = some (.writeEnd output) ∧ child.get 2 = some (.writeEnd error) ∧
      ∃ w r e : Nat, p.stdin = w ∧ p.stdout = r ∧ p.stderr = e ∧
        (s.launch k false garbage .started).table.get w = some (.writeEnd input) ∧
        (s.launch k false garbage .started).table.get r = some (.readEnd output) ∧
        (s.launch k false garbage .started).table.get e = some (.readEnd error) := by
  have hi := Inv.reachable hs
  rcases launch_spec s k false garbage .started (by intro n h; cases h) with ⟨_, _, _, h, _⟩ |
    ⟨t', p, r, a, b, c, d, e, f, he, _, h3, hc, e0, e1, e2, e3, e4, e5, e6, e7, e8, _⟩
  · cases h
  obtain ⟨r', hr', g0, g1, g2, _⟩ := childTable_standard h3 p e0 e1 e2 e3 e4 e5
  rw [hc] at hr'
  cases hr'
  have hfresh : ∀ q, s.nextPipe ≤ q → ¬ Held s (.readEnd q) ∧ ¬ Held s (.writeEnd q) := by
    intro q hq
    constructor
    · rintro (⟨fd, h⟩ | ⟨j, t, ht, fd, h⟩)
      · have := hi.fresh fd _ h; simp only [below] at this; omega
      · have := hi.freshChild j t ht fd _ h; simp only [below] at this; omega
    · rintro (⟨fd, h⟩ | ⟨j, t, ht, fd, h⟩)
      · have := hi.fresh fd _ h; simp only [below] at this; omega
      · have := hi.freshChild j t ht fd _ h; simp only [below] at this; omega
  rw [he]
  refine ⟨p, r, s.nextPipe, s.nextPipe + 1, s.nextPipe + 2, upd_same _ _ _, upd_same _ _ _, by omega, by omega, by omega, ?_, g0, g1, g2,
    b, c, e, e6, e7, e8, ?_, ?_, ?_⟩
  · intro q hq
    simp only [List.mem_cons, List.not_mem_nil, or_false] at hq
    exact hfresh q (by omega)
  all_goals
    obtain ⟨k1, k2, k3, k4, k5, _, _, _, _, _, _, _, hg⟩ := h3
    dsimp only
    rw [hg]
    repeat (first | rw [if_pos rfl] | rw [if_neg (by omega)])

/-- The client: a file on each standard stream and one more. -/
def demoClient : Sys := ⟨[some (.user 0), some (.user 1), some (.user 2), none, some (.user 3)], 0, fun _ => none, fun _ => none⟩

theorem demoClient_initial : Initial demoClient := by
  refine ⟨?_, fun _ => rfl, fun _ => rfl⟩
  intro fd f h
  match fd with
  | 0 => cases h; exact id
  | 1 => cases h; exact id
  | 2 => cases h; exact id
  | 3 => cases h
  | 4 => cases h; exact id
  | n + 5 => simp [demoClient, Table.get] at h

/-- What is in the members of an object before they are set. -/
def rubbish : Proc := ⟨4, 0, 0, 0, 0, 0, 0, 0, 0, false⟩

example : Reachable demoClient := ⟨demoClient, [], demoClient_initial, trivial, rfl⟩

example : ((demoClient.launch 0 false rubbish .started).children 0).map (fun t => (t.get 0, t.get 1, t.get 2)) =
    some (some (.readEnd 0), some (.writeEnd 1), some (.writeEnd 2)) := by decide +kernel

/-- **C97**, second part (partial): with dedicated descriptors, a tracker whose environment leads
it to the two descriptors made for it (`C96_streams_partial`) finds the ends of two new pipes there, and
the client has the other ends, if the standard error stream of the client is open.

Missing: clients whose standard error stream is closed, for which it is false (`C97_explicit_false`). -/
theorem C97_explicit_partial (s : Sys) (hs : Reachable s) (k : Nat) (garbage : Proc) (h2 : s.table.get 2 ≠ none)
    (environ : List Str) (given : List (Str × Str)) (port : Int)
    (hz : ∀ e ∈ environ, (0 : UInt8) ∉ e) (hg : ∀ p ∈ given, EnvName p.1 ∧ (0 : UInt8) ∉ p.2)
    (hu : ∀ n ∈ [b!"TRAX_SOCKET", b!"TRAX_IN", b!"TRAX_OUT"], Unset environ n ∧ NotGiven given n) :
    ∃ p child input output, (s.launch k true garbage .started).procs k = some p ∧
      (s.launch k true garbage .started).children k = some child ∧ input ≠ output ∧
      (∀ q ∈ [input, output], ¬ Held s (.readEnd q) ∧ ¬ Held s (.writeEnd q)) ∧
      (∃ w r : Nat, p.stdin = w ∧ p.stdout = r ∧
        (s.launch k true garbage .started).table.get w = some (.writeEnd input) ∧
        (s.launch k true garbage .started).table.get r = some (.readEnd output)) ∧
      (p.out0 ≤ 2147483647 → p.in1 ≤ 2147483647 →
        ∃ i o : Nat, serverConnection (trackerEnviron .explicit environ given port p.out0 p.in1) = .files i o ∧
          child.get i = some (.readEnd input) ∧ child.get o = some (.writeEnd output)) := by
  have hi := Inv.reachable hs
  rcases launch_spec s k true garbage .started (by intro n h; cases h) with ⟨_, _, _, h, _⟩ |
    ⟨t', p, r, a, b, c, d, e, f, he, _, h3, hc, e0, e1, e2, e3, e4, e5, e6, e7, e8, _⟩
  · cases h
  obtain ⟨r', hr', g0, g1, _, _⟩ := childTable_explicit h3 p e0 e1 e2 e3 e4 e5
  rw [hc] at hr'
  cases hr'
  have ha : a ≠ 2 := by rintro rfl; exact h2 h3.na
  have hfresh : ∀ q, s.nextPipe ≤ q → ¬ Held s (.readEnd q) ∧ ¬ Held s (.writeEnd q) := by
    intro q hq
    constructor
    · rintro (⟨fd, h⟩ | ⟨j, t, ht, fd, h⟩)
      · have := hi.fresh fd _ h; simp only [below] at this; omega
      · have := hi.freshChild j t ht fd _ h; simp only [below] at this; omega
    · rintro (⟨fd, h⟩ | ⟨j, t, ht, fd, h⟩)
      · have := hi.fresh fd _ h; simp only [below] at this; omega
      · have := hi.freshChild j t ht fd _ h; simp only [below] at this; omega
  rw [he]
  refine ⟨p, r, s.nextPipe, s.nextPipe + 1, upd_same _ _ _, upd_same _ _ _, by omega, ?_, ⟨b, c, e6, e7, ?_, ?_⟩, ?_⟩
  · intro q hq
    simp only [List.mem_cons, List.not_mem_nil, or_false] at hq
    exact hfresh q (by omega)
  · obtain ⟨k1, k2, k3, k4, k5, _, _, _, _, _, _, _, hg⟩ := h3
    dsimp only
    rw [hg]
    repeat (first | rw [if_pos rfl] | rw [if_neg (by omega)])
  · obtain ⟨k1, k2, k3, k4, k5, _, _, _, _, _, _, _, hg⟩ := h3
    dsimp only
    rw [hg]
    repeat (first | rw [if_pos rfl] | rw [if_neg (by omega)])
  · intro l1 l2
    refine ⟨a, d, ?_, g0 ha, g1⟩
    rw [(Environ.C96_streams_partial environ given port p.out0 p.in1 ⟨by omega, l1⟩ ⟨by omega, l2⟩ hz hg hu).2, e0, e3]

example : demoClient.table.get 2 ≠ none := by decide

/-- The full claim of C97 is false: a client that runs without a standard error stream gives its
tracker descriptor 2 to read from, where the tracker finds its own error stream. -/
theorem C97_explicit_false :
    let s : Sys := ⟨[some (.user 0), some (.user 1)], 0, fun _ => none, fun _ => none⟩
    ((s.launch 0 true rubbish .started).procs 0).map (·.out0) = some 2 ∧
    serverConnection (trackerEnviron .explicit [] [] 0 2 5) = .files 2 5 ∧
    ((s.launch 0 true rubbish .started).children 0).map (·.get 2) = some (some (.writeEnd 2)) := by
  refine ⟨by decide +kernel, by decide +kernel, by decide +kernel⟩

/-! ## C98 -/

/-- Files made by a launch that are left: only the object and the tracker have them. -/
structure Kept (s : Sys) (k n : Nat) : Prop where
  table : ∀ m f, s.table.get m = some f → PipeEnd f → ¬ below n f → ∃ p, s.procs k = some p ∧ (m : Int) ∈ p.six
  children : ∀ j t, s.children j = some t → ∀ m f, t.get m = some f → ¬ below n f → j = k

theorem Kept.step {s : Sys} (hi : Inv s) {k n : Nat} (h : Kept s k n) {o : Op} (hn : NoLaunch o) : Kept (s.step o) k n := by
  cases o with
  | launch => exact absurd hn (by simp [NoLaunch])
  | exit i =>
    refine ⟨h.table, ?_⟩
    intro j t hj
    simp only [Sys.step, Sys.exit] at hj
    by_cases hji : j = i
    · subst hji; rw [upd_same] at hj; cases hj
    · rw [upd_ne _ _ hji] at hj; exact h.children j t hj
  | reap i =>
    show Kept (s.reap i) k n
    rcases reap_spec s i with e | ⟨p, hp, _, e⟩
    · rw [e]; exact h
    · rw [e]
      refine ⟨?_, h.children⟩
      intro m f hm hf hb
      obtain ⟨q, hq, hm'⟩ := h.table m f hm hf hb
      by_cases hki : k = i
      · subst hki; rw [hp] at hq; cases hq
        exact ⟨_, upd_same _ _ _, hm'⟩
      · exact ⟨q, by dsimp only; rw [upd_ne _ _ hki]; exact hq, hm'⟩
  | destroy i =>
    show Kept (s.destroy i) k n
    rcases destroy_spec s i hi with ⟨_, e⟩ | ⟨p, hp, e1, e2, e3, e4⟩
    · rw [e]; exact h
    · refine ⟨?_, ?_⟩
      · intro m f hm hf hb
        rw [e1, cleanup_get] at hm
        split at hm
        · cases hm
        · next hnm =>
          obtain ⟨q, hq, hm'⟩ := h.table m f hm hf hb
          have hki : k ≠ i := by rintro rfl; rw [hp] at hq; cases hq; exact hnm hm'
          exact ⟨q, by rw [e3, upd_ne _ _ hki]; exact hq, hm'⟩
      · intro j t hj
        rw [e4] at hj
        have hji : j ≠ i := by rintro rfl; rw [upd_same] at hj; cases hj
        rw [upd_ne _ _ hji] at hj
        exact h.children j t hj
  | userOpen id =>
    refine ⟨?_, h.children⟩
    intro m f hm hf hb
    have hg : (s.userOpen id).table.get m = if m = s.table.lowest then some (.user id) else s.table.get m := Table.get_put _ _ _ m
    have hm : (s.userOpen id).table.get m = some f := hm
    rw [hg] at hm
    split at hm
    · cases hm; exact absurd hf (by simp [PipeEnd])
    · exact h.table m f hm hf hb
  | userClose fd =>
    refine ⟨?_, h.children⟩
    intro m f hm hf hb
    have hg : (s.userClose fd).table.get m = if m = fd then none else s.table.get m := Table.get_put _ _ _ m
    have hm : (s.userClose fd).table.get m = some f := hm
    rw [hg] at hm
    split at hm
    · cases hm
    · exact h.table m f hm hf hb

theorem Kept.run {s : Sys} (hi : Inv s) {k n : Nat} (h : Kept s k n) {l : List Op} (hc : CarefulRun s l)
    (hn : ∀ o ∈ l, NoLaunch o) : Kept (s.run l) k n ∧ Inv (s.run l) := by
  induction l generalizing s with
  | nil => exact ⟨h, hi⟩
  | cons o l ih => exact ih (hi.step hc.1) (h.step hi (hn o (by simp))) hc.2 fun o' ho' => hn o' (by simp [ho'])

/-- **C98** (partial): when a tracker has been stopped (the object of its process destroyed), no end of
the pipes made for it is open in any process, so that whoever reads from one of them sees its end; if
no other tracker was started since its own start.

Missing: that a tracker which ends by itself is noticed by reading, and clients with several trackers,
for which it is false (`C98_end_false`). -/
theorem C98_ends_partial (s : Sys) (hs : Reachable s) (k : Nat) (hk : s.procs k = none) (explicit : Bool) (garbage : Proc) (result : Start)
    (hr : ∀ n, result ≠ .noPipe n) (h : List Op) (hc : CarefulRun (s.launch k explicit garbage result) h) (hn : ∀ o ∈ h, NoLaunch o) (f : File)
    (h1 : Held (s.launch k explicit garbage result) f) (h2 : ¬ Held s f) :
    ¬ Held (((s.launch k explicit garbage result).run h).destroy k) f := by
  have hi := Inv.reachable hs
  have hi' := hi.launch hk explicit garbage hr
  rcases launch_spec s k explicit garbage result hr with ⟨t', p, he, _, hp, ht⟩ | ⟨t', p, r, a, b, c, d, e, f', he, _, h3, hct, e0, e1, e2, e3, e4, e5, _, _, _, _⟩
  · exfalso
    refine h2 ?_
    rw [he] at h1
    rcases h1 with ⟨fd, h1⟩ | ⟨j, t, hj, h1⟩
    · exact .inl ⟨fd, by rw [← ht]; exact h1⟩
    · right
      dsimp only at hj
      have hjk : j ≠ k := by rintro rfl; rw [upd_same] at hj; cases hj
      rw [upd_ne _ _ hjk] at hj
      exact ⟨j, t, hj, h1⟩
  · -- a file that is held now and was not held before is one of the new ends
    have hnew : PipeEnd f ∧ ¬ below s.nextPipe f := by
      have key : ∀ m, t'.get m = some f → PipeEnd f ∧ ¬ below s.nextPipe f := by
        intro m hm
        rcases h3.cases hm with ⟨h4, _⟩ | ⟨_, h4, _, h5⟩
        · exact absurd (.inl ⟨m, h4⟩) h2
        · exact ⟨h4, h5⟩
      rw [he] at h1
      rcases h1 with ⟨fd, h1⟩ | ⟨j, t, hj, fd, h1⟩
      · exact key fd h1
      · dsimp only at hj
        by_cases hjk : j = k
        · subst hjk
          rw [upd_same] at hj
          cases hj
          obtain ⟨m', hm'⟩ := child_files h3 p e0 e1 e2 e3 e4 e5 hct fd f h1
          exact key m' hm'
        · rw [upd_ne _ _ hjk] at hj
          exact absurd (.inr ⟨j, t, hj, fd, h1⟩) h2
    have hkept : Kept (s.launch k explicit garbage result) k s.nextPipe := by
      rw [he]
      refine ⟨?_, ?_⟩
      · intro m x hm hx hb
        refine ⟨p, upd_same _ _ _, ?_⟩
        rcases h3.cases hm with ⟨h4, _⟩ | ⟨h4, _⟩
        · exact absurd (hi.fresh m x h4) hb
        · simp only [Proc.six, e0, e1, e2, e3, e4, e5, List.mem_cons, List.not_mem_nil, or_false]
          omega
      · intro j t hj m x hm hb
        dsimp only at hj
        apply Classical.byContradiction
        intro hjk
        rw [upd_ne _ _ hjk] at hj
        exact hb (hi.freshChild j t hj m x hm)
    obtain ⟨hkept', hi''⟩ := hkept.run hi' hc hn
    have hk2 := hkept'.step hi'' (o := .destroy k) trivial
    have hstep : ((s.launch k explicit garbage result).run h).step (.destroy k) = ((s.launch k explicit garbage result).run h).destroy k := rfl
    rw [hstep] at hk2
    have hnone : (((s.launch k explicit garbage result).run h).destroy k).procs k = none ∧
        (((s.launch k explicit garbage result).run h).destroy k).children k = none := by
      rcases destroy_spec _ k hi'' with ⟨h5, e⟩ | ⟨p', _, _, _, h6, h7⟩
      · rw [e]
        refine ⟨h5, ?_⟩
        cases hch : ((s.launch k explicit garbage result).run h).children k with
        | none => rfl
        | some t =>
          obtain ⟨q, hq, _⟩ := hi''.alive k (by rw [hch]; simp)
          rw [h5] at hq; cases hq
      · rw [h6, h7]; exact ⟨upd_same _ _ _, upd_same _ _ _⟩
    rintro (⟨fd, h5⟩ | ⟨j, t, hj, fd, h5⟩)
    · obtain ⟨q, hq, _⟩ := hk2.table fd f h5 hnew.1 hnew.2
      rw [hnone.1] at hq; cases hq
    · have := hk2.children j t hj fd f h5 hnew.2
      subst this
      rw [hnone.2] at hj; cases hj

/-- The pipes of a tracker that ends while the user opens and closes files. -/
example : ¬ Held (((demoClient.launch 0 false rubbish .started).run [.userOpen 7, .exit 0, .userClose 4]).destroy 0) (.writeEnd 1) := by
  refine C98_ends_partial demoClient ⟨demoClient, [], demoClient_initial, trivial, rfl⟩ 0 rfl false rubbish .started (by intro n h; cases h) _ ?_ ?_ _ ?_ ?_
  · refine ⟨trivial, trivial, ?_, trivial⟩
    intro f hf
    have : some f = some (.user 3) := by rw [← hf]; decide +kernel
    cases this
    exact id
  · intro o ho
    simp only [List.mem_cons, List.not_mem_nil, or_false] at ho
    rcases ho with rfl | rfl | rfl <;> trivial
  · exact .inl ⟨7, by decide +kernel⟩
  · rintro (⟨fd, h⟩ | ⟨j, t, ht, _⟩)
    · exact demoClient_initial.1 fd _ h trivial
    · cases ht

/-- The full claim of C98 is false. A tracker that has ended by itself: the client holds the end the
tracker wrote to, and would wait for its own data. Two trackers: the second one holds ends of the pipes
of the first one, so that these do not end when the first one is gone. -/
theorem C98_end_false :
    Held ((demoClient.launch 0 false rubbish .started).exit 0) (.writeEnd 1) ∧
    Held (((demoClient.launch 0 false rubbish .started).launch 1 false rubbish .started).destroy 0) (.writeEnd 1) ∧
    Held (((demoClient.launch 0 false rubbish .started).launch 1 false rubbish .started).destroy 0) (.writeEnd 0) := by
  refine ⟨.inl ⟨7, by decide +kernel⟩, .inr ⟨1, _, rfl, 7, by decide +kernel⟩, .inr ⟨1, _, rfl, 5, by decide +kernel⟩⟩

/-! ## C99 -/

/-- **C99** (partial): in every history of trackers that are started, end and are stopped, while the
user opens and closes files, no action of the library opens or closes a descriptor of the user, and when
all objects are destroyed, the client has no end of a pipe left open.

Missing: objects destroyed without having been started, objects whose pipes could not be made, and
trackers that are started again before their end was noticed, for which it is false
(`C99_descriptors_false`). -/
theorem C99_descriptors_partial (s : Sys) (hs : Reachable s) :
    (∀ o, Careful s o → Library o → ∀ fd id, s.table.get fd = some (.user id) ↔ (s.step o).table.get fd = some (.user id)) ∧
    ((∀ k, s.procs k = none) → ∀ fd f, s.table.get fd = some f → ¬ PipeEnd f) := by
  have hi := Inv.reachable hs
  refine ⟨?_, ?_⟩
  · intro o hc hl fd id
    cases o with
    | launch k x g r =>
      show _ ↔ (s.launch k x g r).table.get fd = _
      rcases launch_spec s k x g r hc.2 with ⟨t', p, he, _, hp, ht⟩ | ⟨t', p, q, a, b, c, d, e, f, he, _, h3, _⟩
      · rw [he]; dsimp only; rw [ht]
      · rw [he]; dsimp only
        refine ⟨fun h => h3.old h, fun h => ?_⟩
        rcases h3.cases h with ⟨h4, _⟩ | ⟨_, h4, _⟩
        · exact h4
        · exact absurd h4 (by simp [PipeEnd])
    | exit k => exact Iff.rfl
    | reap k =>
      show _ ↔ (s.reap k).table.get fd = _
      rcases reap_spec s k with e | ⟨p, hp, _, e⟩ <;> rw [e]
    | destroy k =>
      show _ ↔ (s.destroy k).table.get fd = _
      rcases destroy_spec s k hi with ⟨_, e⟩ | ⟨p, hp, e1, _⟩
      · rw [e]
      · rw [e1, cleanup_get]
        split
        · next hm =>
          refine ⟨fun h => ?_, fun h => by cases h⟩
          rcases hi.own k p hp fd hm with h1 | ⟨m, f, h1, h2, h4⟩
          · omega
          · have : fd = m := by omega
            subst this
            rw [h] at h4; cases h4
            exact absurd h2 (by simp [PipeEnd])
        · exact Iff.rfl
    | userOpen => exact absurd hl (by simp [Library])
    | userClose => exact absurd hl (by simp [Library])
  · intro hp fd f hfd hf
    obtain ⟨k, p, hk, _⟩ := hi.owned fd f hfd hf
    rw [hp] at hk; cases hk

/-- A state in the middle of a history with two trackers. -/
example : Reachable (demoClient.run [.launch 0 false rubbish .started, .launch 1 true rubbish .noSpawn, .userOpen 9, .exit 0, .destroy 0]) :=
  ⟨demoClient, [.launch 0 false rubbish .started, .launch 1 true rubbish .noSpawn, .userOpen 9, .exit 0, .destroy 0], demoClient_initial,
    ⟨⟨rfl, by intro n h; cases h⟩, ⟨by decide +kernel, by intro n h; cases h⟩, trivial, trivial, trivial, trivial⟩, rfl⟩

/-- The full claim of C99 is false. An object whose pipes could not be made closes descriptors it has not
opened when it is destroyed: here the file of the user on descriptor 4. A tracker that is started again
by the client before its end was noticed leaves six descriptors open that nothing closes any more. -/
theorem C99_descriptors_false :
    (demoClient.table.get 4 = some (.user 3) ∧
      ((demoClient.launch 0 false rubbish (.noPipe 0)).destroy 0).table.get 4 = none) ∧
    (let first := startProcess demoClient none 0 false rubbish .started
     let second := startProcess (first.1.exit 0) first.2 1 false rubbish .started
     second.2 = some 1 ∧ ((second.1.destroy 1).table.filterMap id).length = (demoClient.table.filterMap id).length + 6) := by
  refine ⟨⟨by decide +kernel, by decide +kernel⟩, by decide +kernel, by decide +kernel⟩

end Trax.Fds
