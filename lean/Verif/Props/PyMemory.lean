import Verif.Lemmas.PyMemoryRun
import Verif.Lemmas.Handle
import Verif.Props.Handle

/-!
# Properties: memory of Python programs
-/

namespace Trax

open Py.Life Py.Life.Spec Handle

namespace Py.Life.Demo

/-- An address that is not used. -/
def fresh (l : List Nat) : Nat := l.foldl max 0 + 1

theorem foldl_max (l : List Nat) : ∀ a x, x ∈ l ∨ x = a → x ≤ l.foldl max a := by
  induction l with
  | nil => intro a x h; rcases h with h | h
           · cases h
           · simp [h]
  | cons y l ih =>
    intro a x h
    rcases h with h | h
    · rcases List.mem_cons.mp h with rfl | h
      · exact Nat.le_trans (Nat.le_max_right a x) (ih _ _ (.inr rfl))
      · exact ih _ _ (.inl h)
    · exact Nat.le_trans (h ▸ Nat.le_max_left x y) (ih _ _ (.inr rfl))

theorem fresh_not (l : List Nat) : fresh l ∉ l := fun h => by
  have := foldl_max l 0 _ (.inl h)
  unfold fresh at this
  omega

/-- A tracker: it waits twice, answers each request with a region of the request, and lets everything go. -/
def tracker : List Op :=
  [.wait ⟨TRAX_INITIALIZE, some [true, false, false], some 2⟩, .status [((0, 1), true), ((0, 2), true)] true,
   .wait ⟨TRAX_FRAME, some [true, true, false], none⟩, .status [((0, 1), true)] true, .drop 0, .wait ⟨TRAX_QUIT, none, none⟩, .drop 1, .drop 0]

/-- A client: an image, a region, two calls, of which the second one fails; the image goes, the region stays. -/
def client : List Op :=
  [.create .image, .create .region, .assign [(1, 0), (0, 0)],
   .call [some (0, 0), none, none] [((1, 0), true)] true true ⟨TRAX_STATE, none, some 1⟩ false, .drop 0,
   .call [some (1, 1), none, none] [] true true ⟨TRAX_QUIT, none, none⟩ false, .drop 1]

end Py.Life.Demo

/-- C144: a Python program creates images, regions and properties, keeps, copies and drops variables, serves and makes requests, with and without
exceptions. Whatever it does, and wherever Python puts its objects (`addr`), no object of the library is used after its release and none is released twice:
the run is defined. The object that a Python object refers to exists as long as the program can reach the Python object. -/
theorem C144_safe (addr : List Nat → Nat) (haddr : ∀ l, addr l ∉ l) (ops : List Op) (hops : ∀ op ∈ ops, Possible op) :
    ∃ s, run addr ops start = .ok s ∧ ∀ p, Reached s p → Live s p := by
  obtain ⟨s, Q, hs, hinv, -⟩ := run_ok haddr ops start_inv hops
  exact ⟨s, hs, fun p h => (reached_live hinv p).mpr (.inr h)⟩

/-- C144: if, in addition, no polygon is created from points that are none and no session ends between the announcement of objects and their first frame,
then the objects of the library that exist are exactly those that the program can reach. In particular, when the program has let all its variables go,
nothing is left. -/
theorem C144_memory_partial (addr : List Nat → Nat) (haddr : ∀ l, addr l ∉ l) (ops : List Op) (hops : ∀ op ∈ ops, Possible op)
    (hclean : ∀ op ∈ ops, Clean op) :
    ∃ s, run addr ops start = .ok s ∧ (∀ p, Live s p ↔ Reached s p) ∧ (s.vars = [] → ∀ p, ¬ Live s p) := by
  obtain ⟨s, Q, hs, hinv, hQ⟩ := run_ok haddr ops start_inv hops
  have hQ := hQ.mp hclean
  subst hQ
  have key : ∀ p, Live s p ↔ Reached s p := fun p => by
    rw [reached_live hinv p]
    simp
  refine ⟨s, hs, key, fun hv p h => ?_⟩
  obtain ⟨v, hv', -⟩ := (key p).mp h
  rw [hv] at hv'
  cases hv'

/-- C144 does not hold for other programs: each of them leaves an object of the library that exists and that the program cannot reach, so that it is never
released. -/
theorem C144_memory_false (addr : List Nat → Nat) (haddr : ∀ l, addr l ∉ l) (ops : List Op) (hops : ∀ op ∈ ops, Possible op)
    (hclean : ∃ op ∈ ops, ¬ Clean op) :
    ∃ s, run addr ops start = .ok s ∧ ∃ p, Live s p ∧ ¬ Reached s p := by
  obtain ⟨s, Q, hs, hinv, hQ⟩ := run_ok haddr ops start_inv hops
  refine ⟨s, hs, ?_⟩
  cases Q with
  | nil =>
    obtain ⟨op, hop, hc⟩ := hclean
    exact absurd (hQ.mpr rfl op hop) hc
  | cons p Q =>
    have hp : p ∈ (p :: Q) ++ [] := List.mem_append_left _ List.mem_cons_self
    refine ⟨p, (reached_live hinv p).mpr (.inl hp), ?_⟩
    rintro ⟨v, hv, w, hw, e, he, rfl, hi⟩
    exact hinv.apart p hp e he (hinv.simple e he (List.mem_flatten.mpr ⟨v, hv, hw⟩)).1 hi

/-- C144: the library does end a session after it has announced objects: a tracker that receives two objects and then the end of the session, without a frame in
between, is given the list of the objects. `Server.wait` does not release it (`C144_memory_false`). -/
theorem C144_quit_false : ∃ h r, Demo.server 4 b!"@@TRAX:initialize \"0\" \n@@TRAX:initialize \"0\" \n@@TRAX:quit \n" = some h ∧
    h.serverWaitMot Demo.env 9 (some Properties.create) = some (.ok r) ∧ Arrival.of r = ⟨TRAX_QUIT, none, some 2⟩ ∧
    ¬ Clean (.wait (Arrival.of r)) := by
  have : (Demo.waitMot b!"@@TRAX:initialize \"0\" \n@@TRAX:initialize \"0\" \n@@TRAX:quit \n").map Arrival.of =
      some ⟨TRAX_QUIT, none, some 2⟩ := by decide +kernel
  unfold Demo.waitMot at this
  obtain ⟨r, hr, ha⟩ := Option.map_eq_some_iff.mp this
  obtain ⟨h, hh, hr⟩ := Option.bind_eq_some_iff.mp hr
  obtain ⟨o, ho, hr⟩ := Option.bind_eq_some_iff.mp hr
  cases o with
  | ok r' =>
    cases hr
    exact ⟨h, r, hh, ho, ha, by rw [ha]; simp [Clean, TRAX_QUIT]⟩
  | abort => cases hr
  | ub => cases hr

/-- The two programs meet the hypotheses; the tracker leaves nothing, the client its region. -/
example : (∀ l, Py.Life.Demo.fresh l ∉ l) ∧ (∀ op ∈ Py.Life.Demo.tracker, Possible op ∧ Clean op) ∧
    (∀ op ∈ Py.Life.Demo.client, Possible op ∧ Clean op) := by
  refine ⟨Py.Life.Demo.fresh_not, ?_, ?_⟩
  · intro op h
    simp only [Py.Life.Demo.tracker, List.mem_cons, List.not_mem_nil, or_false] at h
    rcases h with rfl | rfl | rfl | rfl | rfl | rfl | rfl | rfl <;>
      simp [Possible, Clean, ServerGives, TRAX_INITIALIZE, TRAX_FRAME, TRAX_QUIT]
  · intro op h
    simp only [Py.Life.Demo.client, List.mem_cons, List.not_mem_nil, or_false] at h
    rcases h with rfl | rfl | rfl | rfl | rfl | rfl | rfl <;>
      simp [Possible, Clean, ClientGives, TRAX_STATE, TRAX_ERROR, TRAX_QUIT]

@[inherit_doc Py.Life.Demo.tracker] example : (match run Py.Life.Demo.fresh Py.Life.Demo.tracker start with
    | .ok s => decide (s.mem.length = 18) && s.mem.all (· == none) && decide (s.vars = [])
    | _ => false) = true := by decide +kernel

@[inherit_doc Py.Life.Demo.client] example : (match run Py.Life.Demo.fresh Py.Life.Demo.client start with
    | .ok s => decide (s.mem.count none = s.mem.length - 2) && decide (s.vars.length = 2)
    | _ => false) = true := by decide +kernel

/-- C144: what the library gives to a server that waits is possible in the sense of the specification. -/
theorem C144_server_gives {env : Env} {fuel : Nat} {h : Handle} {props : Option Properties} {r : WaitResult}
    (hr : h.serverWaitMot env fuel props = some (.ok r)) : ServerGives (Arrival.of r) := by
  obtain ⟨-, ⟨-, rfl⟩ | ⟨-, count, -, hr⟩⟩ := serverWaitMot_ok hr
  · simp [ServerGives, Arrival.of, TRAX_ERROR, TRAX_INITIALIZE, TRAX_FRAME]
  · obtain ⟨init, objs, h', -, -, -, hne, -, -, ⟨error, rfl⟩ | ⟨p, hf⟩ | ⟨msg, images, hno, -, hd, hf⟩⟩ := waitMotLoop_ok _ _ _ _ _ _ _ _ hr
    · simp [ServerGives, Arrival.of, TRAX_ERROR, TRAX_INITIALIZE, TRAX_FRAME]
    · obtain ⟨l, -, rfl⟩ := finishMot_ok hf
      simp [ServerGives, Arrival.of, TRAX_QUIT, TRAX_INITIALIZE, TRAX_FRAME]
    · obtain ⟨l, -, rfl⟩ := finishMot_ok hf
      have hlen := (decodeImages_ok _ _ _ _ _ hd).1
      have hlen : (images.map (·.isSome)).length = 3 := by simpa [channelIndexes] using hlen
      by_cases hret : ¬ init = true ∨ h'.objects > 0
      · rw [if_pos hret]
        simp [ServerGives, Arrival.of, TRAX_FRAME, TRAX_INITIALIZE]
        simpa using hlen
      · rw [if_neg hret]
        have hi : init = true := by
          by_cases hi : init = true
          · exact hi
          · exact absurd (.inl hi) hret
        have ho : ¬ objs.length = 0 := fun h0 => hno ⟨hi, h0⟩
        rw [if_neg ho]
        simp [ServerGives, Arrival.of, TRAX_FRAME, TRAX_INITIALIZE]
        simpa using hlen

private theorem clientWaitLoop_gives (env : Env) : ∀ (k i : Nat) (acc : ObjList) (ret : Int) (props : Option Properties) (h : Handle) (r : WaitResult),
    clientWaitLoop env i acc ret props h k = .ok r → ClientGives (Arrival.of r) := by
  intro k
  induction k with
  | zero =>
    intro i acc ret props h r hr
    cases hr
    exact fun _ _ => ⟨_, rfl⟩
  | succ k ih =>
    intro i acc ret props h r hr
    unfold clientWaitLoop at hr
    dsimp only at hr
    split at hr
    · cases hr; exact fun h => absurd rfl h
    · split at hr
      · obtain ⟨parsed, -, hr⟩ := Region.bind_eq_ok hr
        split at hr
        · cases hr; exact fun h => absurd rfl h
        · obtain ⟨acc', -, hr⟩ := Region.bind_eq_ok hr
          split at hr
          · cases hr
          · exact ih _ _ _ _ _ _ hr
      · cases hr; exact fun h => absurd rfl h
    · split at hr
      · cases hr; exact fun h => absurd rfl h
      · cases hr; exact fun _ h => absurd rfl h
    · exact ih _ _ _ _ _ _ hr

/-- C144: what the library gives to a client that waits is possible in the sense of the specification. -/
theorem C144_client_gives {env : Env} {h : Handle} {props : Option Properties} {r : WaitResult}
    (hr : h.clientWait env props = .ok r) : ClientGives (Arrival.of r) := by
  unfold clientWait at hr
  split at hr
  · cases hr
  · split at hr
    · cases hr; exact fun h => absurd rfl h
    · exact clientWaitLoop_gives _ _ _ _ _ _ _ _ hr

/-- A request for two objects, and its first frame, as the library gives them. -/
example : (Demo.waitMot b!"@@TRAX:initialize \"1,2,3,4\" \n@@TRAX:initialize \"1,2,3,4\" \n@@TRAX:frame \"file:///a.jpg\" \n").map Arrival.of =
    some ⟨TRAX_INITIALIZE, some [true, false, false], some 2⟩ := by decide +kernel

@[inherit_doc C144_client_gives] example : ((Demo.client 4 b!"@@TRAX:state \"0\" \n").bind fun h =>
    match ({ h with objects := 1 }).clientWait Demo.env (some Properties.create) with
    | .ok r => some (Arrival.of r)
    | _ => none) = some ⟨TRAX_STATE, none, some 1⟩ := by decide +kernel

end Trax
