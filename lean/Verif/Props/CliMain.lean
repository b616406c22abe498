import Verif.Spec.CliMain
import Verif.Props.Runner
import Verif.Props.Trajectory

/-!
# Property theorems C147: a run of `traxclient`
-/

namespace Trax.Cli
open Trax.Cli.Spec

variable {σ : Type}

/-! ### The parts -/

theorem switchedOn_eq (v : Option Str) : switchedOn v = isTrue v := by
  have h : ∀ c : UInt8, toLower c = small c := by
    intro c
    unfold toLower small
    have : (65 ≤ c.toNat && c.toNat ≤ 90) = decide (65 ≤ c ∧ c ≤ 90) := by
      simp only [UInt8.le_iff_toNat_le]
      rw [Bool.decide_and]; rfl
    rw [this]
    by_cases hc : 65 ≤ c ∧ c ≤ 90
    · simp [hc]
    · simp [hc]
  have e : toLower = small := funext h
  cases v with
  | none => rfl
  | some v =>
    show eqNoCase v b!"true" = (some (v.map small) == some b!"true")
    unfold eqNoCase
    rw [e]
    have : List.map small b!"true" = b!"true" := by decide
    rw [this]
    rfl

theorem loadChannel_shows {read : Str → Option Str} {wanted : Bool} {path : Str} {formats : Nat} {i : Option Image}
    (h : loadChannel read wanted path formats = .ok (.ok i)) : Shows read path i := by
  unfold loadChannel loadImage at h
  split at h
  · dsimp only at h
    generalize (if formats &&& 1 ≠ 0 then 1 else if formats &&& 8 ≠ 0 then 8 else 0) = format at h
    by_cases h0 : format = 0
    · rw [if_pos h0] at h; simp at h
    rw [if_neg h0] at h
    by_cases h1 : path = []
    · rw [if_pos h1] at h; simp at h; subst h; trivial
    rw [if_neg h1] at h
    by_cases h2 : format = 1
    · rw [if_pos h2] at h; simp at h; subst h; rfl
    rw [if_neg h2] at h
    split at h
    · simp at h
    · rename_i data hd
      rcases hb : Image.createBuffer data with b | _ | _
      · rw [hb] at h
        injection h with h
        injection h with h
        subst h
        unfold Image.createBuffer at hb
        split at hb
        · injection hb with hb; subst hb; exact hd
        · simp at hb
      · rw [hb] at h; cases h
      · rw [hb] at h; cases h
  · simp at h; subst h; trivial

theorem andLoad_ok {α β : Type} {x : Outcome (Except LoadError α)} {f : α → Outcome (Except LoadError β)} {b : β} (h : andLoad x f = .ok (.ok b)) :
    ∃ a, x = .ok (.ok a) ∧ f a = .ok (.ok b) := by
  obtain ⟨a, ha, h⟩ := bind_ok' h
  rcases a with e | a
  · simp at h
  · exact ⟨a, ha, h⟩

theorem frameImages_row {read : Str → Option Str} {row : List Str} {m n : Nat} {l : FrameImages} (h : frameImages read row m n = .ok (.ok l)) :
    FromRow read row l := by
  unfold frameImages loadImages at h
  obtain ⟨a, ha, h⟩ := andLoad_ok h
  obtain ⟨b, hb, h⟩ := andLoad_ok h
  obtain ⟨c, hc, h⟩ := andLoad_ok h
  injection h with h; injection h with h; subst h
  exact ⟨loadChannel_shows ha, loadChannel_shows hb, loadChannel_shows hc⟩

/-- The configuration of the run over the sequence. -/
def setting (c : Opt.Settings) (q : Sequence) (I : List (Option Region)) : Config :=
  { frames := q.frames, initialization := I, threshold := c.threshold, reinitialize := c.reinitialize.toNat }

section
variable (W : World σ) (c : Opt.Settings) (q : Sequence) (I : List (Option Region)) (t0 : σ)

/-- The sequence as the program uses it. -/
def seqTracker : Tracker (Session σ) := sequenceTracker W c (q.rows.take q.frames) (q.groundtruth.take q.frames) I

theorem load_row {f : Nat} (hf : f < q.frames) {s s' : Session σ} (h : (seqTracker W c q I).load f s = .ok (true, s')) :
    ∃ row, q.rows[f]? = some row ∧ FromRow W.read row s'.loaded ∧ s'.process = s.process := by
  have hl : f < q.rows.length := by unfold Sequence.frames at hf; omega
  refine ⟨q.rows[f], List.getElem?_eq_getElem hl, ?_⟩
  have e : (q.rows.take q.frames).getD f [] = q.rows[f] := by
    rw [List.getD_eq_getElem?_getD, List.getElem?_take, if_pos hf, List.getElem?_eq_getElem hl]; rfl
  unfold seqTracker sequenceTracker at h
  dsimp only at h
  rw [e] at h
  obtain ⟨r, hr, h⟩ := bind_ok' h
  rcases r with (_ | _) | l
  · simp at h
  · simp at h
  · dsimp only at h
    injection h with h; injection h with _ h; subst h
    exact ⟨frameImages_row hr, rfl⟩

theorem overlap_measured {f : Nat} (hf : f < q.frames) {r : Option Region} {s : Session σ} {o : Flt} (h : (seqTracker W c q I).overlap f r s = .ok o) :
    Measured W q f r o := by
  unfold seqTracker sequenceTracker at h
  dsimp only at h
  rw [switchedOn_eq, switchedOn_eq, List.getElem?_take, if_pos hf] at h
  obtain ⟨bounds, hb, h⟩ := bind_ok' h
  refine ⟨bounds, fun hn => ?_, h⟩
  rw [hn] at hb
  injection hb with hb
  exact hb.symm

/-- What a frame does. -/
theorem visit_step (hI : ∀ f, f < q.frames → I[f]? = q.initialization[f]?) (hIl : q.frames ≤ I.length) {f : Nat} (hf : f < q.frames) {ph ph' : Phase}
    {s s' : Run (Session σ)} (h : visit (seqTracker W c q I) (setting c q I) f ph s = .ok (some (ph', s'))) {cs : List Call}
    (hd : Did W.process t0 cs s.tracker.process) :
    ∃ calls entry times, Step W c q f ph calls entry times ph' ∧ Did W.process t0 (cs ++ calls) s'.tracker.process ∧ s'.output = s.output ++ [entry] ∧
      s'.timings = s.timings ++ times := by
  have hfail : ∀ (s0 : Run (Session σ)) ph' s' cs, onFailure (seqTracker W c q I) (setting c q I) f s0 = .ok (some (ph', s')) →
      Did W.process t0 cs s0.tracker.process → ph' = afterFailure c ∧ Did W.process t0 cs s'.tracker.process ∧
        s'.output = s0.output ++ [some (.special 2)] ∧ s'.timings = s0.timings ++ [none] := by
    intro s0 ph' s' cs h h0
    unfold onFailure at h
    dsimp only at h
    have hz : (setting c q I).reinitialize = 0 ↔ c.reinitialize ≤ 0 := by show c.reinitialize.toNat = 0 ↔ _; omega
    split at h
    · rename_i hr
      injection h with h; injection h with h; injection h with h1 h2; subst h1 h2
      exact ⟨by rw [afterFailure, if_pos (hz.mp hr)], h0, rfl, rfl⟩
    · rename_i hr
      have hp : Phase.idle ((setting c q I).reinitialize - 1) = afterFailure c := by
        rw [afterFailure, if_neg (fun h => hr (hz.mpr h))]; rfl
      split at h
      · split at h
        · simp at h
        · rename_i t e
          injection h with h; injection h with h; injection h with h1 h2; subst h1 h2
          refine ⟨hp, ?_, rfl, rfl⟩
          show Did W.process t0 cs t.process
          have e' : (seqTracker W c q I).restart s0.tracker = (true, t) := e
          unfold seqTracker sequenceTracker at e'
          dsimp only at e'
          split at e'
          · injection e' with e' _; simp at e'
          · rename_i p hp'
            have h1 := Did.reset h0
            rw [hp'] at h1
            have h2 := Did.query h1
            dsimp only at h2
            split at e'
            · injection e' with e' _; simp at e'
            · rename_i b p' hq
              rw [hq] at h2
              injection e' with _ e'
              subst e'
              exact h2
      · injection h with h; injection h with h; injection h with h1 h2; subst h1 h2
        exact ⟨hp, h0, rfl, rfl⟩
  have hjudge : ∀ (en : Option Region → Option Region) (s0 : Run (Session σ)) ph' s' cs, judge (seqTracker W c q I) (setting c q I) f en s0 = .ok (some (ph', s')) →
      Did W.process t0 cs s0.tracker.process →
      (∃ a, Accepted W c q f a ∧ ph' = .tracking ∧ Did W.process t0 (cs ++ [.answer (.state a)]) s'.tracker.process ∧
        s'.output = s0.output ++ [en a] ∧ s'.timings = s0.timings ++ [some f]) ∨
      (∃ a, Failure W c q f a ∧ ph' = afterFailure c ∧ Did W.process t0 (cs ++ [.answer a]) s'.tracker.process ∧
        s'.output = s0.output ++ [some (.special 2)] ∧ s'.timings = s0.timings ++ [none]) := by
    intro en s0 ph' s' cs h h0
    have hwt := Did.wait h0
    have hw : (seqTracker W c q I).wait s0.tracker =
      ((W.process.wait s0.tracker.process).1, { s0.tracker with process := (W.process.wait s0.tracker.process).2 }) := rfl
    rcases he : W.process.wait s0.tracker.process with ⟨a, p⟩
    rw [he] at hw hwt
    dsimp only at hw hwt
    unfold judge at h
    split at h
    · simp at h
    · rename_i t hwait
      rw [hw] at hwait
      injection hwait with e1 e2
      subst e1 e2
      have hr := Did.ready hwt
      split at h
      · simp at h
      · rename_i t' hready
        have e : t'.process = (W.process.ready p).2 := by
          have : (seqTracker W c q I).ready { s0.tracker with process := p } =
            ((W.process.ready p).1, { s0.tracker with process := (W.process.ready p).2 }) := rfl
          rw [this] at hready
          injection hready with _ e
          rw [← e]
        rw [← e] at hr
        have := hfail _ _ _ _ h hr
        exact Or.inr ⟨.no, trivial, this⟩
    · rename_i r t hwait
      rw [hw] at hwait
      injection hwait with e1 e2
      subst e1 e2
      obtain ⟨o, ho, h⟩ := bind_ok' h
      have hm := overlap_measured W c q I hf ho
      dsimp only at h
      split at h
      · rename_i hlost
        unfold lost at hlost
        rw [Bool.and_eq_true] at hlost
        have := hfail _ _ _ _ h hwt
        exact Or.inr ⟨.state r, ⟨o, hm, hlost⟩, this⟩
      · rename_i hlost
        unfold lost at hlost
        rw [Bool.and_eq_true] at hlost
        injection h with h; injection h with h; injection h with h1 h2; subst h1 h2
        exact Or.inl ⟨r, ⟨o, hm, hlost⟩, rfl, hwt, rfl, rfl⟩
  cases ph with
  | stopped =>
    simp only [visit] at h
    injection h with h; injection h with h; injection h with h1 h2; subst h1 h2
    exact ⟨[], _, _, .stopped, by rw [List.append_nil]; exact hd, rfl, rfl⟩
  | tracking =>
    simp only [visit] at h
    obtain ⟨⟨b, t⟩, hl, h⟩ := bind_ok' h
    split at h
    · simp at h
    · rename_i b' t' heq
      injection heq with e1 e2
      subst e1 e2
      obtain ⟨row, hrow, hfrom, hproc⟩ := load_row W c q I hf hl
      split at h
      · simp at h
      · rename_i t'' hfr
        have e : (seqTracker W c q I).frame f t =
          ((W.process.frame t.loaded t.process).1, { t with process := (W.process.frame t.loaded t.process).2 }) := rfl
        rw [e] at hfr
        injection hfr with e1 e2
        rw [← hproc] at hd
        have h1 := Did.frame t.loaded hd e1
        subst e2
        rcases hjudge _ _ _ _ (cs ++ [.frame t.loaded]) h h1 with ⟨a, h1, rfl, h3, h4, h5⟩ | ⟨a, h1, rfl, h3, h4, h5⟩
        · exact ⟨_, _, _, .go hrow hfrom h1, by simpa using h3, h4, h5⟩
        · exact ⟨_, _, _, .goFailed hrow hfrom h1, by simpa using h3, h4, h5⟩
  | idle k =>
    cases k with
    | succ k =>
      simp only [visit] at h
      injection h with h; injection h with h; injection h with h1 h2; subst h1 h2
      exact ⟨[], _, _, .pass k, by rw [List.append_nil]; exact hd, rfl, rfl⟩
    | zero =>
      simp only [visit] at h
      have hi : (setting c q I).initialization[f]?.join = q.initialization[f]?.join := by
        show I[f]?.join = _
        rw [hI f hf]
      have hlen : ∃ x, q.initialization[f]? = some x := by
        rw [← hI f hf]
        exact ⟨_, List.getElem?_eq_getElem (by omega)⟩
      split at h
      · rename_i hn
        rw [hi] at hn
        injection h with h; injection h with h; injection h with h1 h2; subst h1 h2
        obtain ⟨x, hx⟩ := hlen
        rw [hx] at hn
        simp at hn
        subst hn
        exact ⟨[], _, _, .skip hx, by rw [List.append_nil]; exact hd, rfl, by simp [write]⟩
      · rename_i r hr
        rw [hi, Option.join_eq_some_iff] at hr
        rcases hs : Spec.start (seqTracker W c q I) f s with (_ | s1) | _ | _
        · rw [hs] at h; simp at h
        · rw [hs, andThen_some] at h
          have hst : ∃ row images, q.rows[f]? = some row ∧ FromRow W.read row images ∧ Did W.process t0 (cs ++ [.setup images r c.properties]) s1.tracker.process ∧
              s1.output = s.output ∧ s1.timings = s.timings := by
            unfold Spec.start at hs
            have h1 := Did.ready hd
            split at hs
            · simp at hs
            rename_i t1 e1
            have g1 : (W.process.ready s.tracker.process).2 = t1.process := by
              have : (seqTracker W c q I).ready s.tracker = ((W.process.ready s.tracker.process).1, { s.tracker with process := (W.process.ready s.tracker.process).2 }) := rfl
              rw [this] at e1
              injection e1 with _ e1
              rw [← e1]
            rw [g1] at h1
            have h2 := Did.metadata h1
            split at hs
            · simp at hs
            rename_i t2 e2
            have g2 : (W.process.metadata t1.process).2 = t2.process := by
              unfold seqTracker sequenceTracker at e2
              dsimp only at e2
              split at e2
              · injection e2 with e2 _; simp at e2
              · rename_i a p hm
                injection e2 with _ e2
                rw [hm, ← e2]
            rw [g2] at h2
            obtain ⟨⟨b, t3⟩, hl, hs⟩ := bind_ok' hs
            split at hs
            · simp at hs
            rename_i b' t3' heq
            injection heq with g1 g2
            subst g1 g2
            obtain ⟨row, hrow, hfrom, hproc⟩ := load_row W c q I hf hl
            rw [← hproc] at h2
            split at hs
            · simp at hs
            rename_i t4 e4
            have e : (seqTracker W c q I).init f t3 =
              ((W.process.setup t3.loaded (I[f]?.join) c.properties t3.process).1,
                { t3 with process := (W.process.setup t3.loaded (I[f]?.join) c.properties t3.process).2, image := t3.loaded }) := rfl
            have hir : I[f]?.join = some r := by rw [hI f hf, hr]; rfl
            rw [e, hir] at e4
            injection e4 with g3 g4
            injection hs with hs; injection hs with hs; subst hs
            subst g4
            exact ⟨row, _, hrow, hfrom, Did.setup _ _ _ h2 g3, rfl, rfl⟩
          obtain ⟨row, images, hrow, hfrom, hdid, ho, ht⟩ := hst
          rcases hjudge _ _ _ _ _ h hdid with ⟨a, h1, rfl, h3, h4, h5⟩ | ⟨a, h1, rfl, h3, h4, h5⟩
          · exact ⟨_, _, _, .begin hrow hfrom hr h1, by simpa using h3, by rw [h4, ho]; rfl, by rw [h5, ht]⟩
          · exact ⟨_, _, _, .beginFailed hrow hfrom hr h1, by simpa using h3, by rw [h4, ho], by rw [h5, ht]⟩
        · rw [hs] at h; simp [Program.andThen] at h
        · rw [hs] at h; simp [Program.andThen] at h

/-- What the frames do. -/
theorem visitAll_steps (hI : ∀ f, f < q.frames → I[f]? = q.initialization[f]?) (hIl : q.frames ≤ I.length) (count f : Nat) (hf : f + count = q.frames) (ph : Phase)
    (s s' : Run (Session σ)) (h : visitAll (seqTracker W c q I) (setting c q I) count f ph s = .ok (some s')) (cs : List Call)
    (hd : Did W.process t0 cs s.tracker.process) :
    ∃ calls entries times, Steps W c q f ph calls entries times ∧ Did W.process t0 (cs ++ calls) s'.tracker.process ∧ s'.output = s.output ++ entries ∧
      s'.timings = s.timings ++ times := by
  induction count generalizing f ph s cs with
  | zero =>
    injection h with h; injection h with h; subst h
    have : f = q.frames := by omega
    exact ⟨[], [], [], .done this, by simpa using hd, by simp, by simp⟩
  | succ n ih =>
    simp only [visitAll] at h
    rcases hv : visit (seqTracker W c q I) (setting c q I) f ph s with (_ | ⟨ph1, s1⟩) | _ | _
    · rw [hv] at h; simp at h
    · rw [hv, andThen_some] at h
      obtain ⟨calls, entry, times, h1, h2, h3, h4⟩ := visit_step W c q I t0 hI hIl (by omega) hv hd
      obtain ⟨calls', entries, times', g1, g2, g3, g4⟩ := ih (f + 1) (by omega) ph1 s1 h _ h2
      exact ⟨calls ++ calls', entry :: entries, times ++ times', .next (by omega) h1 g1, by simpa using g2, by rw [g3, h3]; simp, by rw [g4, h4]; simp⟩
    · rw [hv] at h; simp [Program.andThen] at h
    · rw [hv] at h; simp [Program.andThen] at h

end

theorem Steps.length {W : World σ} {c : Opt.Settings} {q : Sequence} {f : Nat} {ph : Phase} {calls : List Call} {entries : List (Option Region)}
    {times : List (Option Nat)} (h : Steps W c q f ph calls entries times) : f + entries.length = q.frames := by
  induction h with
  | done h => exact h
  | next _ _ _ ih => simp only [List.length_cons]; omega

theorem writeRegion_line {r : Option Region} {text : Str} (h : writeRegion r = .ok text) :
    ∃ l, text = l ++ [ch%'\n'] ∧ EntryText r l ∧ ch%'\n' ∉ l := by
  cases r with
  | none => injection h with h; subst h; exact ⟨[], rfl, rfl, by simp⟩
  | some r =>
    have ht : Region.getType (some r) ≠ 0 := by
      cases r with
      | special => exact (by decide : (1 : UInt32) ≠ 0)
      | rectangle => exact (by decide : (2 : UInt32) ≠ 0)
      | polygon => exact (by decide : (4 : UInt32) ≠ 0)
      | mask => exact (by decide : (8 : UInt32) ≠ 0)
    rw [writeRegion, if_neg ht] at h
    rcases hs : r.string with (_ | t) | _ | _
    · rw [hs] at h
      injection h with h; subst h
      exact ⟨[], rfl, Or.inr ⟨hs, rfl⟩, by simp⟩
    · rw [hs] at h
      injection h with h; subst h
      refine ⟨t, rfl, Or.inl hs, fun hc => ?_⟩
      have := (Region.string_chars hs _ hc).2.2.2
      revert this; decide
    · rw [hs] at h; cases h
    · rw [hs] at h; cases h

theorem saveTrajectory_lines {rs : List (Option Region)} {text : Str} (h : saveTrajectory rs = .ok text) :
    ∃ ls, text = lines ls ∧ List.Forall₂ EntryText rs ls ∧ ∀ l ∈ ls, ch%'\n' ∉ l := by
  induction rs generalizing text with
  | nil => injection h with h; subst h; exact ⟨[], rfl, .nil, by simp⟩
  | cons r rs ih =>
    rw [saveTrajectory] at h
    obtain ⟨t, ht, h⟩ := bind_ok' h
    rcases hs : saveTrajectory rs with ts | _ | _
    · rw [hs] at h
      injection h with h
      obtain ⟨l, e1, e2, e3⟩ := writeRegion_line ht
      obtain ⟨ls, f1, f2, f3⟩ := ih hs
      refine ⟨l :: ls, ?_, .cons e2 f2, ?_⟩
      · rw [← h, e1, f1, lines]; simp
      · intro x hx
        rcases List.mem_cons.mp hx with rfl | hx
        · exact e3
        · exact f3 x hx
    · rw [hs] at h; cases h
    · rw [hs] at h; cases h

theorem saveTimings_lines (W : World σ) (ts : List (Option Nat)) : saveTimings W ts = lines (ts.map (timeText W)) := by
  induction ts with
  | nil => rfl
  | cons t ts ih =>
    cases t with
    | none => rw [saveTimings, ih]; rfl
    | some f => rw [saveTimings, ih]; simp [lines, timeText]

theorem writeFile_eq (W : World σ) (name text : Str) (w : List (Str × Str)) :
    writeFile W name text w = w ++ (if W.writable name = true then [(name, text)] else []) := by
  unfold writeFile
  split <;> simp

theorem writeTimings_eq (W : World σ) (c : Opt.Settings) (times : List (Option Nat)) :
    (fun w => if 0 < times.length ∧ 0 < c.timing.length then writeFile W c.timing (saveTimings W times) w else w) =
      fun w => w ++ (if times ≠ [] ∧ c.timing ≠ [] ∧ W.writable c.timing = true then [(c.timing, lines (times.map (timeText W)))] else []) := by
  funext w
  rw [writeFile_eq, saveTimings_lines]
  simp only [List.length_pos_iff]
  by_cases h1 : times = []
  · simp [h1]
  by_cases h2 : c.timing = []
  · simp [h2]
  simp [h1, h2]

theorem loadFile_regions {read : Str → Option Str} {name : Str} {rs : List (Option Region)} (h : Regions read name rs) : loadFile read name = .ok rs := by
  unfold loadFile
  rcases h with ⟨text, h1, h2⟩ | ⟨h1, rfl⟩
  · rw [h1]; exact h2
  · rw [h1]

/-- The regions for the initialization, as the program uses them. -/
def usedInit (c : Opt.Settings) (q : Sequence) : List (Option Region) :=
  if c.initialization = [] then q.groundtruth.take q.frames else q.initialization

theorem usedInit_get {read : Str → Option Str} {c : Opt.Settings} {q : Sequence} (hg : Given read c q) (f : Nat) (hf : f < q.frames) :
    (usedInit c q)[f]? = q.initialization[f]? := by
  unfold usedInit
  rcases hg.2.2 with ⟨h1, h2⟩ | ⟨h1, h2⟩
  · rw [if_pos h1, h2, List.getElem?_take, if_pos hf]
  · rw [if_neg h1]

theorem usedInit_length {c : Opt.Settings} {q : Sequence} (hl : q.frames ≤ q.initialization.length) : q.frames ≤ (usedInit c q).length := by
  unfold usedInit
  split
  · rw [List.length_take]; unfold Sequence.frames; omega
  · exact hl

/-- The tracking mode in terms of the sequence. -/
theorem trackingMode_eq {W : World σ} {c : Opt.Settings} {command : Str} {q : Sequence} (hg : Given W.read c q) :
    trackingMode W c command =
      match W.start command c.environment c.timeout c.connection c.verbosity with
      | none => .ok (failed W)
      | some t =>
        match W.process.query t with
        | (none, _) => .ok (failed W)
        | (some _, t) =>
          (run (seqTracker W c q (usedInit c q)) (setting c q (usedInit c q)) { process := t, about := ⟨[], [], [], 0, 0⟩, image := {}, loaded := {} }).bind fun
          | none => .ok (failed W)
          | some s => (saveResults W c s.output s.timings).map fun written =>
              { status := 0, written, printed := announced W, tracker := some s.tracker.process } := by
  obtain ⟨⟨text, h1, h2⟩, h3, h4⟩ := hg
  unfold trackingMode
  rw [h1]
  dsimp only
  rw [loadFile_regions h3, Outcome.bind_ok, ← h2]
  have e1 := (C80_truncate q.rows q.groundtruth).1
  have e2 := (C80_truncate q.rows q.groundtruth).2.1
  have e3 : truncate q.rows q.groundtruth = (q.rows.take q.frames, q.groundtruth.take q.frames) := by
    rw [← Prod.eta (truncate q.rows q.groundtruth), e1, e2]; rfl
  rw [e3]
  dsimp only
  have e4 : (if c.initialization ≠ [] then loadFile W.read c.initialization else .ok (q.groundtruth.take q.frames)) = .ok (usedInit c q) := by
    unfold usedInit
    rcases h4 with ⟨g1, g2⟩ | ⟨g1, g2⟩
    · rw [if_neg (by simpa using g1), if_pos g1]
    · rw [if_pos g1, if_neg g1, loadFile_regions g2]
  rw [e4, Outcome.bind_ok]
  have e5 : (q.rows.take q.frames).length = q.frames := by rw [List.length_take]; unfold Sequence.frames; omega
  rw [e5]
  rfl

theorem cliSwitches_help {operands : List Str} {es : List Opt.Event} {c : Opt.Settings} {code : Int} (h : Opt.cliSwitches operands es c = .ok (.help code)) :
    code = 0 ∨ code = -1 := by
  induction es generalizing c with
  | nil =>
    unfold Opt.cliSwitches at h
    split at h
    · injection h with h; injection h with h; exact Or.inr h.symm
    · injection h with h; cases h
  | cons x xs ih =>
    unfold Opt.cliSwitches at h
    split at h
    · injection h with h; injection h with h; exact Or.inl h.symm
    · obtain ⟨r, -, h⟩ := bind_ok' h
      rcases r with _ | c'
      · injection h with h; cases h
      · exact ih h

theorem cliStart_help {argv : List Str} {code : Int} (h : Opt.cliStart argv = .ok (.help code)) : code = 0 ∨ code = -1 := by
  obtain ⟨r, -, h⟩ := bind_ok' h
  exact cliSwitches_help h

/-! ### The theorems -/

/-- **C147**: however the program ends, the exit status is 0 or -1, and with -1 no file has been written. -/
theorem C147_status (W : World σ) (argv : List Str) (e : Ended σ) (h : cliMain W argv = .ok e) :
    (e.status = 0 ∨ e.status = -1) ∧ (e.status ≠ 0 → e.written = []) := by
  unfold cliMain at h
  obtain ⟨r, hr, h⟩ := bind_ok' h
  have hfailed : ((failed W).status = 0 ∨ (failed W).status = -1) ∧ ((failed W).status ≠ 0 → (failed W).written = []) := ⟨Or.inr rfl, fun _ => rfl⟩
  rcases r with code | m | ⟨c, command⟩
  · injection h with h; subst h; exact ⟨cliStart_help hr, fun _ => rfl⟩
  · injection h with h; subst h; exact ⟨Or.inr rfl, fun _ => rfl⟩
  · dsimp only at h
    split at h
    · injection h with h
      subst h
      unfold queryMode
      split
      · exact hfailed
      · split
        · exact hfailed
        · exact ⟨Or.inr rfl, fun _ => rfl⟩
        · split
          · exact hfailed
          · exact ⟨Or.inl rfl, fun _ => rfl⟩
    · unfold trackingMode at h
      split at h
      · injection h with h; subst h; exact hfailed
      obtain ⟨g, -, h⟩ := bind_ok' h
      obtain ⟨i, -, h⟩ := bind_ok' h
      split at h
      · injection h with h; subst h; exact hfailed
      split at h
      · injection h with h; subst h; exact hfailed
      obtain ⟨r, -, h⟩ := bind_ok' h
      rcases r with _ | s
      · injection h with h; subst h; exact hfailed
      dsimp only at h
      rcases hw : saveResults W c s.output s.timings with written | _ | _
      · rw [hw] at h
        injection h with h
        subst h
        exact ⟨Or.inl rfl, fun h => absurd rfl h⟩
      · rw [hw] at h; cases h
      · rw [hw] at h; cases h

/-- **C147**: with the switch `-Q` the program starts the tracker and asks it to introduce itself. It ends with 0 exactly when the tracker does. Then its
name, its description and its family are printed. No file is written, and no file matters. -/
theorem C147_query (W : World σ) (argv : List Str) (c : Opt.Settings) (command : Str) (hs : Opt.cliStart argv = .ok (.go c command)) (hq : c.query = true) :
    ∃ e, cliMain W argv = .ok e ∧ e.written = [] ∧
      (∀ read writable, cliMain { W with read, writable } argv = .ok e) ∧
      (e.status = 0 ↔ ∃ t t' t'' a, W.start command c.environment c.timeout c.connection c.verbosity = some t ∧ W.process.query t = (some true, t') ∧
        W.process.metadata t' = (some a, t'')) ∧
      (∀ t t' t'' a, W.start command c.environment c.timeout c.connection c.verbosity = some t → W.process.query t = (some true, t') →
        W.process.metadata t' = (some a, t'') →
        ∃ before, e.printed = before ++ lines [b!"Tracker name: " ++ a.name, b!"Tracker description: " ++ a.description, b!"Tracker family: " ++ a.family]) := by
  have hm : ∀ V : World σ, cliMain V argv = .ok (queryMode V c command) := by
    intro V
    unfold cliMain
    rw [hs, Outcome.bind_ok]
    dsimp only
    rw [if_pos hq]
  refine ⟨queryMode W c command, hm W, ?_, fun read writable => hm _, ?_, ?_⟩
  · unfold queryMode
    split
    · rfl
    split
    · rfl
    · rfl
    split <;> rfl
  · constructor
    · intro h
      unfold queryMode at h
      split at h
      · cases h
      rename_i t ht
      split at h
      · cases h
      · cases h
      rename_i t' ht'
      split at h
      · cases h
      rename_i a t'' ht''
      exact ⟨t, t', t'', a, ht, ht', ht''⟩
    · rintro ⟨t, t', t'', a, h1, h2, h3⟩
      unfold queryMode
      rw [h1]
      dsimp only
      rw [h2]
      dsimp only
      rw [h3]
  · intro t t' t'' a h1 h2 h3
    unfold queryMode
    rw [h1]
    dsimp only
    rw [h2]
    dsimp only
    rw [h3]
    exact ⟨announced W, by simp [lines]⟩

/-- **C147** (partial): the run of `traxclient` over a sequence. If it ends with the exit status 0, there are the exchanges with the
tracker, one entry for each frame and the times, as `Spec.Steps` says: each frame is processed, skipped, initialized or failed,
the tracker was given the images of the frame, the region for the initialization and the parameters of the command line, and an entry is
what the tracker answered for that frame. The result file has one line for each entry, the timing file
one for each time, and nothing else was written.

Missing: a list of initialization regions that is shorter than the sequence (`C80_short_list_false`); files
that cannot be written are not reported (`C147_unwritable_false`). -/
theorem C147_result_partial (W : World σ) (argv : List Str) (c : Opt.Settings) (command : Str) (q : Sequence) (e : Ended σ)
    (hs : Opt.cliStart argv = .ok (.go c command)) (hq : c.query = false) (hg : Given W.read c q) (hl : q.frames ≤ q.initialization.length)
    (h : cliMain W argv = .ok e) (h0 : e.status = 0) :
    ∃ t0 t calls entries times ls, W.start command c.environment c.timeout c.connection c.verbosity = some t0 ∧
      Did W.process t0 calls t ∧ e.tracker = some t ∧ Steps W c q 0 (.idle 0) calls entries times ∧ entries.length = q.frames ∧
      List.Forall₂ EntryText entries ls ∧ (∀ l ∈ ls, ch%'\n' ∉ l) ∧
      e.written = (if 0 < q.frames ∧ W.writable c.output = true then [(c.output, lines ls)] else []) ++
        (if times ≠ [] ∧ c.timing ≠ [] ∧ W.writable c.timing = true then [(c.timing, lines (times.map (timeText W)))] else []) := by
  unfold cliMain at h
  rw [hs, Outcome.bind_ok] at h
  dsimp only at h
  rw [if_neg (by simp [hq]), trackingMode_eq hg] at h
  split at h
  · injection h with h; subst h; simp [failed] at h0
  rename_i t0 ht0
  split at h
  · injection h with h; subst h; simp [failed] at h0
  rename_i b t1 hquery
  obtain ⟨r, hr, h⟩ := bind_ok' h
  rcases r with _ | s
  · injection h with h; subst h; simp [failed] at h0
  dsimp only at h
  rw [C80_run_partial _ _ _ (usedInit_length hl)] at hr
  have hd : Did W.process t0 [] t1 := by
    have := Did.query (Did.start (P := W.process) (t := t0))
    rw [hquery] at this
    exact this
  obtain ⟨calls, entries, times, h1, h2, h3, h4⟩ := visitAll_steps W c q (usedInit c q) t0 (usedInit_get hg) (usedInit_length hl) q.frames 0 (by omega)
    (.idle 0) _ s hr [] hd
  have hlen := Steps.length h1
  rw [List.nil_append] at h2 h3 h4
  rcases hw : saveResults W c s.output s.timings with written | _ | _
  · rw [hw] at h
    injection h with h
    subst h
    unfold saveResults at hw
    rw [h3, h4] at hw
    have hpos : 0 < entries.length ↔ 0 < q.frames := by omega
    rw [writeTimings_eq] at hw
    by_cases hf : 0 < q.frames
    · rw [if_pos (hpos.mpr hf)] at hw
      rcases ht : saveTrajectory entries with text | _ | _
      · rw [ht] at hw
        obtain ⟨ls, g1, g2, g3⟩ := saveTrajectory_lines ht
        injection hw with hw
        refine ⟨t0, _, calls, entries, times, ls, ht0, h2, rfl, h1, by omega, g2, g3, ?_⟩
        rw [← hw]
        dsimp only
        rw [writeFile_eq, g1]
        simp only [hf, true_and, List.nil_append]
      · rw [ht] at hw; cases hw
      · rw [ht] at hw; cases hw
    · rw [if_neg (fun h => hf (hpos.mp h))] at hw
      injection hw with hw
      have he : entries = [] := by cases entries with | nil => rfl | cons => simp at hpos; omega
      subst he
      refine ⟨t0, _, calls, [], times, [], ht0, h2, rfl, h1, by omega, .nil, by simp, ?_⟩
      rw [← hw]
      simp only [hf, false_and, if_false]
  · rw [hw] at h; cases h
  · rw [hw] at h; cases h

/-! ### A tracker that does what it is asked -/

theorem did_answers {P : Process σ} {a : About} {A : Region → Prop} (hP : Willing P a A) {t t' : σ} {calls : List Call} (h : Did P t calls t') :
    ∀ x, .answer x ∈ calls → ∃ r, x = .state r := by
  induction h with
  | start => simp
  | query _ ih => exact ih
  | ready _ ih => exact ih
  | metadata _ ih => exact ih
  | reset _ ih => exact ih
  | setup i r p _ _ ih => intro x hx; exact ih x (by simpa using hx)
  | frame i _ _ ih => intro x hx; exact ih x (by simpa using hx)
  | @wait cs t' _ ih =>
    intro x hx
    rcases List.mem_append.mp hx with hx | hx
    · exact ih x hx
    · obtain ⟨r, h1, -⟩ := hP.wait t'
      simp at hx
      exact ⟨_, hx.trans h1⟩

/-- While the target is tracked, and nothing fails, each frame is given to the tracker. -/
theorem steps_tracking {W : World σ} {c : Opt.Settings} {q : Sequence} {f : Nat} {calls : List Call} {entries : List (Option Region)} {times : List (Option Nat)}
    {ph : Phase} (h : Steps W c q f ph calls entries times) (hph : ph = .tracking) (hthr : Flt.le .zero c.threshold = false)
    (ha : ∀ x, Call.answer x ∈ calls → ∃ r, x = .state r) :
    ∃ images, images.length = entries.length ∧ calls = (images.zip entries).flatMap (fun p => [.frame p.1, .answer (.state p.2)]) ∧
      List.Forall₂ (FromRow W.read) ((q.rows.take q.frames).drop f) images ∧ times = (List.range' f entries.length).map some := by
  have hfail : ∀ (f : Nat) x, (∃ r, x = Answer.state r) → ¬ Failure W c q f x := by
    rintro f x ⟨r, rfl⟩ ⟨o, -, h1, -⟩
    rw [hthr] at h1
    simp at h1
  induction h with
  | done h => exact ⟨[], rfl, rfl, by rw [List.drop_of_length_le (by simp [h])]; exact .nil, rfl⟩
  | @next f ph ph' calls calls' entry entries times times' hf hs _ ih =>
    subst hph
    cases hs with
    | @go row images a hrow hfrom hacc =>
      obtain ⟨imgs, e1, e2, e3, e4⟩ := ih rfl (fun x hx => ha x (by simp [hx]))
      refine ⟨images :: imgs, by simp [e1], by rw [e2]; simp, ?_, by rw [e4]; simp [List.range'_succ]⟩
      obtain ⟨hl, hr⟩ := List.getElem?_eq_some_iff.mp hrow
      rw [List.drop_eq_getElem_cons (by rw [List.length_take]; omega), List.getElem_take, hr]
      exact .cons hfrom e3
    | goFailed _ _ hx => exact absurd hx (hfail _ _ (ha _ (by simp)))

/-- The text of an entry can be written. -/
def HasText (r : Option Region) : Prop := ∃ x text, r = some x ∧ x.string = .ok (some text)

theorem saveTrajectory_total {rs : List (Option Region)} (h : ∀ r ∈ rs, HasText r) : ∃ text, saveTrajectory rs = .ok text := by
  induction rs with
  | nil => exact ⟨[], rfl⟩
  | cons r rs ih =>
    obtain ⟨ts, hts⟩ := ih (fun x hx => h x (by simp [hx]))
    obtain ⟨x, t, rfl, hx⟩ := h r (by simp)
    have ht : Region.getType (some x) ≠ 0 := by
      cases x with
      | special => exact (by decide : (1 : UInt32) ≠ 0)
      | rectangle => exact (by decide : (2 : UInt32) ≠ 0)
      | polygon => exact (by decide : (4 : UInt32) ≠ 0)
      | mask => exact (by decide : (8 : UInt32) ≠ 0)
    rw [saveTrajectory, writeRegion, if_neg ht, hx, hts]
    exact ⟨_, rfl⟩

section
variable (W : World σ) (c : Opt.Settings) (q : Sequence) (I : List (Option Region)) (a : About) (A : Region → Prop)

variable {W c q I a A}

theorem smooth_load (hS : Smooth W c q a A) {f : Nat} (hf : f < q.frames) (s : Session σ) (ha : s.about = a) :
    ∃ s', (seqTracker W c q I).load f s = .ok (true, s') ∧ s'.about = a := by
  have hl : f < q.rows.length := by unfold Sequence.frames at hf; omega
  have e : (q.rows.take q.frames).getD f [] = q.rows[f] := by
    rw [List.getD_eq_getElem?_getD, List.getElem?_take, if_pos hf, List.getElem?_eq_getElem hl]; rfl
  obtain ⟨l, h⟩ := hS.images q.rows[f] (List.getElem_mem hl)
  refine ⟨{ s with loaded := l }, ?_, ha⟩
  unfold seqTracker sequenceTracker
  dsimp only
  rw [e, ha, h, Outcome.bind_ok]

theorem smooth_judge (hS : Smooth W c q a A) {f : Nat} (hf : f < q.frames) (en : Option Region → Option Region) (hen : ∀ r, HasText r → HasText (en r))
    (s : Run (Session σ)) (ha : s.tracker.about = a) (ho : ∀ r ∈ s.output, HasText r) :
    ∃ s', Spec.judge (seqTracker W c q I) (setting c q I) f en s = .ok (some (.tracking, s')) ∧ s'.tracker.about = a ∧ ∀ r ∈ s'.output, HasText r := by
  obtain ⟨r, h1, hA⟩ := hS.willing.wait s.tracker.process
  obtain ⟨text, h2⟩ := hS.texts r hA
  obtain ⟨o, hov⟩ := hS.overlap f r hf hA
  unfold Spec.judge
  have hw : (seqTracker W c q I).wait s.tracker = (.state (some r), { s.tracker with process := (W.process.wait s.tracker.process).2 }) := by
    rw [← h1]; rfl
  rw [hw]
  dsimp only
  have : (seqTracker W c q I).overlap f (some r) { s.tracker with process := (W.process.wait s.tracker.process).2 } = .ok o := by
    unfold seqTracker sequenceTracker
    dsimp only
    rw [switchedOn_eq, switchedOn_eq, hS.unbounded, List.getElem?_take, if_pos hf]
    exact hov
  rw [this, Outcome.bind_ok]
  have hlost : lost (setting c q I) o = false := by
    unfold lost
    show (Flt.zero.le c.threshold && _) = false
    rw [hS.threshold]; rfl
  rw [if_neg (by rw [hlost]; exact Bool.false_ne_true)]
  refine ⟨_, rfl, ha, ?_⟩
  intro x hx
  rcases List.mem_append.mp hx with hx | hx
  · exact ho x hx
  · rw [List.mem_singleton.mp hx]
    exact hen _ ⟨r, text, rfl, h2⟩

theorem smooth_all (hS : Smooth W c q a A) (count f : Nat) (hf : f + count = q.frames) (s : Run (Session σ)) (ha : s.tracker.about = a)
    (ho : ∀ r ∈ s.output, HasText r) :
    ∃ s', visitAll (seqTracker W c q I) (setting c q I) count f .tracking s = .ok (some s') ∧ ∀ r ∈ s'.output, HasText r := by
  induction count generalizing f s with
  | zero => exact ⟨s, rfl, ho⟩
  | succ n ih =>
    simp only [visitAll, visit]
    obtain ⟨t, hl, hta⟩ := smooth_load hS (I := I) (f := f) (by omega) s.tracker ha
    rw [hl, Outcome.bind_ok]
    dsimp only
    have e : (seqTracker W c q I).frame f t = (true, { t with process := (W.process.frame t.loaded t.process).2 }) := by
      rw [← hS.willing.frame t.loaded t.process]; rfl
    rw [e]
    dsimp only
    obtain ⟨s1, e1, e2, e3⟩ := smooth_judge hS (I := I) (f := f) (by omega) id (fun r h => h)
      { s with tracker := { t with process := (W.process.frame t.loaded t.process).2 }, trace := s.trace ++ [.frame f] } hta ho
    rw [e1, andThen_some]
    exact ih (f + 1) (by omega) s1 e2 e3

theorem smooth_run (hS : Smooth W c q a A) (hpos : 0 < q.frames) (hI : ∃ r, I[0]? = some (some r)) (t : Session σ) :
    ∃ s, supervise (seqTracker W c q I) (setting c q I) t = .ok (some s) ∧ ∀ r ∈ s.output, HasText r := by
  obtain ⟨r, hr⟩ := hI
  obtain ⟨n, hn⟩ : ∃ n, q.frames = n + 1 := ⟨q.frames - 1, by omega⟩
  unfold supervise
  have : (setting c q I).frames = n + 1 := hn
  rw [this]
  simp only [visitAll, visit]
  have hi : (setting c q I).initialization[0]?.join = some r := by
    show I[0]?.join = _
    rw [hr]; rfl
  rw [hi]
  dsimp only
  have hst : ∃ s1, Spec.start (seqTracker W c q I) 0 { tracker := t, trace := [], output := [], timings := [] } = .ok (some s1) ∧ s1.tracker.about = a ∧ s1.output = [] := by
    unfold Spec.start
    dsimp only
    have e1 : (seqTracker W c q I).ready t = (true, { t with process := (W.process.ready t.process).2 }) := by
      rw [← hS.willing.ready t.process]; rfl
    rw [e1]
    dsimp only
    have e2 : ∀ u : Session σ, (seqTracker W c q I).metadata u = (true, { u with process := (W.process.metadata u.process).2, about := a }) := by
      intro u
      unfold seqTracker sequenceTracker
      dsimp only
      have := hS.willing.metadata u.process
      rcases hm : W.process.metadata u.process with ⟨x, p⟩
      rw [hm] at this
      dsimp only at this
      subst this
      rfl
    rw [e2]
    dsimp only
    obtain ⟨u, hl, hua⟩ := smooth_load hS (I := I) hpos
      { t with process := (W.process.metadata (W.process.ready t.process).2).2, about := a } rfl
    rw [hl, Outcome.bind_ok]
    dsimp only
    have e3 : (seqTracker W c q I).init 0 u = (true, { u with process := (W.process.setup u.loaded (I[0]?.join) c.properties u.process).2, image := u.loaded }) := by
      rw [← hS.willing.setup u.loaded (I[0]?.join) c.properties u.process]; rfl
    rw [e3]
    exact ⟨_, rfl, hua, rfl⟩
  obtain ⟨s1, e1, e2, e3⟩ := hst
  rw [e1, andThen_some]
  obtain ⟨s2, g1, g2, g3⟩ := smooth_judge hS (I := I) hpos (fun _ => code 1) (fun _ _ => ⟨.special 1, b!"1", rfl, by decide +kernel⟩) s1 e2 (by rw [e3]; simp)
  rw [g1, andThen_some]
  exact smooth_all hS n 1 (by omega) s2 g2 g3

end

/-- **C147** (partial): a run without interruption. If the tracker does what it is asked, the images can be loaded and no failure threshold is
given, the program ends with 0. The tracker has been given the first frame with the region of its initialization and the
parameters, then each frame once and in order, and one answer was taken each time. The result file has the entry 1 for the first frame and the region
answered for each other frame, and there is one time for each frame.

Missing: a first frame without a region, a threshold, bounds, and answers whose overlap the program cannot compute. -/
theorem C147_uninterrupted_partial (W : World σ) (argv : List Str) (c : Opt.Settings) (command : Str) (q : Sequence) (a : About) (A : Region → Prop) (t0 : σ) (r : Region)
    (hs : Opt.cliStart argv = .ok (.go c command)) (hq : c.query = false) (hg : Given W.read c q) (hl : q.frames ≤ q.initialization.length)
    (hpos : 0 < q.frames) (hr : q.initialization[0]? = some (some r))
    (ht : W.start command c.environment c.timeout c.connection c.verbosity = some t0) (hS : Smooth W c q a A) (ho : W.writable c.output = true) :
    ∃ e t image images answer answers ls, cliMain W argv = .ok e ∧ e.status = 0 ∧ e.tracker = some t ∧ images.length = answers.length ∧
      Did W.process t0 ([.setup image r c.properties, .answer (.state answer)] ++
        (images.zip answers).flatMap (fun p => [.frame p.1, .answer (.state p.2)])) t ∧
      List.Forall₂ (FromRow W.read) (q.rows.take q.frames) (image :: images) ∧
      List.Forall₂ EntryText (some (.special 1) :: answers) ls ∧
      e.written = (c.output, lines ls) ::
        (if c.timing ≠ [] ∧ W.writable c.timing = true then [(c.timing, lines ((List.range q.frames).map W.clock))] else []) := by
  have hend : ∃ e, cliMain W argv = .ok e ∧ e.status = 0 := by
    unfold cliMain
    rw [hs, Outcome.bind_ok]
    dsimp only
    rw [if_neg (by simp [hq]), trackingMode_eq hg, ht]
    dsimp only
    obtain ⟨b, hb⟩ := hS.willing.query t0
    rcases hqt : W.process.query t0 with ⟨x, t1⟩
    rw [hqt] at hb
    dsimp only at hb
    subst hb
    dsimp only
    rw [C80_run_partial _ _ _ (usedInit_length hl)]
    obtain ⟨s, h1, h2⟩ := smooth_run hS (I := usedInit c q) hpos ⟨r, by rw [usedInit_get hg 0 hpos, hr]⟩ { process := t1, about := ⟨[], [], [], 0, 0⟩, image := {}, loaded := {} }
    rw [h1, Outcome.bind_ok]
    dsimp only
    obtain ⟨text, h3⟩ := saveTrajectory_total h2
    unfold saveResults
    rw [h3]
    by_cases hlen : 0 < s.output.length
    · rw [if_pos hlen]
      exact ⟨_, rfl, rfl⟩
    · rw [if_neg hlen]
      exact ⟨_, rfl, rfl⟩
  obtain ⟨e, he, h0⟩ := hend
  obtain ⟨t0', t, calls, entries, times, ls, g1, g2, g3, g4, g5, g6, g7, g8⟩ := C147_result_partial W argv c command q e hs hq hg hl he h0
  rw [ht] at g1
  injection g1 with g1
  subst g1
  have hans := did_answers hS.willing g2
  have hfail : ∀ (f : Nat) x, (∃ r, x = Answer.state r) → ¬ Failure W c q f x := by
    rintro f x ⟨r, rfl⟩ ⟨o, -, h1, -⟩
    rw [hS.threshold] at h1
    simp at h1
  cases g4 with
  | done h => omega
  | @next _ _ ph' calls calls' entry entries times times' hf hstep hrest =>
    cases hstep with
    | skip hn => rw [hr] at hn; simp at hn
    | beginFailed _ _ _ hx => exact absurd hx (hfail _ _ (hans _ (by simp)))
    | @begin row image r' answer hrow hfrom hr' _ =>
      rw [hr] at hr'
      injection hr' with hr'; injection hr' with hr'
      subst hr'
      obtain ⟨images, e1, e2, e3, e4⟩ := steps_tracking hrest rfl hS.threshold (fun x hx => hans x (by simp [hx]))
      refine ⟨e, t, image, images, answer, entries, ls, he, h0, g3, e1, ?_, ?_, g6, ?_⟩
      · rw [← e2]; exact g2
      · obtain ⟨hl', hrow'⟩ := List.getElem?_eq_some_iff.mp hrow
        have : q.rows.take q.frames = row :: (q.rows.take q.frames).drop 1 := by
          conv => lhs; rw [← List.drop_zero (l := q.rows.take q.frames)]
          rw [List.drop_eq_getElem_cons (by rw [List.length_take]; omega), List.getElem_take, hrow']
        rw [this]
        exact .cons hfrom e3
      · rw [g8, if_pos ⟨hpos, ho⟩]
        have hlen : entries.length + 1 = q.frames := by simpa using g5
        have : ([some 0] ++ times').map (timeText W) = (List.range q.frames).map W.clock := by
          rw [e4, ← hlen, List.range_eq_range', List.range'_succ]
          simp [timeText, Function.comp_def]
        rw [this]
        simp

/-! ### Concrete runs -/

namespace Demo

/-- The start of a PNG file. -/
def png (width height : UInt8) : Str :=
  [0x89, 0x50, 0x4E, 0x47, 0x0D, 0x0A, 0x1A, 0x0A, 0, 0, 0, 13, 0x49, 0x48, 0x44, 0x52, 0, 0, 0, width, 0, 0, 0, height]

/-- The files of a sequence of three frames. -/
def files (name : Str) : Option Str :=
  if name = b!"images.txt" then some b!"a.png\nb.png\nc.png\n"
  else if name = b!"groundtruth.txt" then some b!"0,0,4,4\n0,0,8,8\n1,1,4,4\n"
  else if name = b!"a.png" then some (png 4 4)
  else if name = b!"b.png" then some (png 8 8)
  else none

def side (n : Int) : Option Region := some (.rectangle .zero .zero (.ofInt n) (.ofInt n))

/-- A tracker that counts the calls `wait`, and answers with the square of side `answer n`; 0 stands for the wish to end. -/
def process (answer : Nat → Int) : Process Nat where
  query t := (some true, t)
  ready t := (true, t)
  metadata t := (some ⟨b!"T", b!"a tracker", b!"F", 1, 1⟩, t)
  setup _ _ _ t := (true, t)
  wait t := (if answer t = 0 then .no else .state (side (answer t)), t + 1)
  frame _ t := (true, t)
  reset t := (true, t)

/-- A world with these files and this tracker; every file can be written. -/
def world (answer : Nat → Int) (bounded : Bool) : World Nat where
  getenv name := if bounded && name == b!"TRAX_BOUNDED_OVERLAP" then some b!"True" else none
  read := files
  writable _ := true
  fresh n := List.replicate n 0
  clock f := fmtInt f
  start _ _ _ _ _ := some 0
  process := process answer

/-- How a run ends, without the tracker. -/
def ending (x : Outcome (Ended Nat)) : Outcome (Int × List (Str × Str)) := x.map fun e => (e.status, e.written)

end Demo

example : Demo.ending (cliMain (Demo.world (fun _ => 4) false) [b!"traxclient", b!"-T", b!"times.txt", b!"tracker"]) =
    .ok (0, [(b!"output.txt", b!"1\n0.0000,0.0000,4.0000,4.0000\n0.0000,0.0000,4.0000,4.0000\n"), (b!"times.txt", b!"0\n1\n2\n")]) := by decide +kernel

/-- A failure in the second frame, and a new start. -/
example : Demo.ending (cliMain (Demo.world (fun n => if n = 1 then 0 else 4) false) [b!"traxclient", b!"-r", b!"1", b!"tracker"]) =
    .ok (0, [(b!"output.txt", b!"1\n2\n1\n")]) := by decide +kernel

/-- The sequence of these files. -/
def Demo.sequence : Sequence where
  rows := [[b!"a.png", [], []], [b!"b.png", [], []], [b!"c.png", [], []]]
  groundtruth := [Demo.side 4, Demo.side 8, some (.rectangle .one .one (.ofInt 4) (.ofInt 4))]
  initialization := [Demo.side 4, Demo.side 8, some (.rectangle .one .one (.ofInt 4) (.ofInt 4))]

def Demo.settings : Opt.Settings := Opt.Settings.initial

/-- The hypotheses of the theorems about runs are met. -/
example : (match Opt.cliStart [b!"traxclient", b!"tracker"] with
      | .ok (.go c command) => decide (c.query = false ∧ c.images = b!"images.txt" ∧ c.groundtruth = b!"groundtruth.txt" ∧ c.output = b!"output.txt" ∧
          c.initialization = [] ∧ c.timing = [] ∧ Flt.le .zero c.threshold = false ∧ command ≠ [])
      | _ => false) = true ∧
    Demo.sequence.frames ≤ Demo.sequence.initialization.length ∧ 0 < Demo.sequence.frames ∧
    Demo.sequence.initialization[0]? = some (some (.rectangle .zero .zero (.ofInt 4) (.ofInt 4))) := by decide +kernel

example (answer : Nat → Int) (bounded : Bool) (c : Opt.Settings) (h1 : c.images = b!"images.txt") (h2 : c.groundtruth = b!"groundtruth.txt") (h3 : c.initialization = []) :
    Given (Demo.world answer bounded).read c Demo.sequence := by
  refine ⟨⟨b!"a.png\nb.png\nc.png\n", by rw [h1]; rfl, by decide +kernel⟩, Or.inl ⟨b!"0,0,4,4\n0,0,8,8\n1,1,4,4\n", by rw [h2]; rfl, by decide +kernel⟩, Or.inl ⟨h3, rfl⟩⟩

example (c : Opt.Settings) (h : Flt.le .zero c.threshold = false) :
    Smooth (Demo.world (fun _ => 4) false) c Demo.sequence ⟨b!"T", b!"a tracker", b!"F", 1, 1⟩ (· = .rectangle .zero .zero (.ofInt 4) (.ofInt 4)) where
  willing := ⟨fun _ => ⟨true, rfl⟩, fun _ => rfl, fun _ => rfl, fun _ _ _ _ => rfl, fun _ => ⟨_, rfl, rfl⟩, fun _ _ => rfl⟩
  images := by
    intro row hrow
    simp only [Demo.sequence, List.mem_cons, List.not_mem_nil, or_false] at hrow
    rcases hrow with rfl | rfl | rfl <;> exact ⟨_, rfl⟩
  texts := by rintro r rfl; exact ⟨b!"0.0000,0.0000,4.0000,4.0000", by decide +kernel⟩
  overlap := by
    have : ∀ x : Outcome Flt, (match x with | .ok _ => true | _ => false) = true → ∃ o, x = .ok o := by
      intro x hx
      rcases x with o | _ | _
      · exact ⟨o, rfl⟩
      · cases hx
      · cases hx
    rintro f r hf rfl
    apply this
    have hf : f < 3 := hf
    match f, hf with
    | 0, _ => decide +kernel
    | 1, _ => decide +kernel
    | 2, _ => decide +kernel
  unbounded := by decide +kernel
  threshold := h

/-- The switch `-Q`. -/
example : (match Opt.cliStart [b!"traxclient", b!"-Q", b!"tracker"] with | .ok (.go c _) => c.query | _ => false) = true ∧
    (match cliMain (Demo.world (fun _ => 4) false) [b!"traxclient", b!"-Q", b!"tracker"] with
      | .ok e => decide (e.status = 0 ∧ e.printed = b!"Tracker name: T\nTracker description: a tracker\nTracker family: F\n")
      | _ => false) = true := by decide +kernel

/-- **C147** does not hold for a groundtruth file that is not there: the program ends with 0, without a result and without having used the tracker. -/
theorem C147_missing_false : Demo.ending (cliMain (Demo.world (fun _ => 4) false) [b!"traxclient", b!"-G", b!"other.txt", b!"tracker"]) = .ok (0, []) := by
  decide +kernel

/-- **C147** does not hold for a result file that cannot be written: the program ends with 0. -/
theorem C147_unwritable_false :
    Demo.ending (cliMain { Demo.world (fun _ => 4) false with writable := fun _ => false } [b!"traxclient", b!"tracker"]) = .ok (0, []) := by
  decide +kernel

/-- **C147** does not hold for the bounds of the overlap: with `TRAX_BOUNDED_OVERLAP`, the regions are not cut to the image. In an image of 4 × 4 pixels, the answer
`0,0,5,5` has the same pixels as the groundtruth `0,0,4,4`, but it is judged to be a failure for the threshold 0.8. -/
theorem C147_bounds_false :
    Demo.ending (cliMain { Demo.world (fun _ => 5) true with
        read := fun name => if name = b!"images.txt" then some b!"a.png\n" else Demo.files name } [b!"traxclient", b!"-f", b!"0.8", b!"tracker"]) =
      .ok (0, [(b!"output.txt", b!"2\n")]) := by decide +kernel

/-- **C147** does not hold for images of different sizes: the bounds are those of the image of the initialization. The second image has 8 × 8 pixels and the
groundtruth covers it, the answer `0,0,4,4` covers a quarter of it, and is accepted with the threshold 0.5. -/
theorem C147_size_false :
    Demo.ending (cliMain { Demo.world (fun _ => 4) true with
        read := fun name => if name = b!"images.txt" then some b!"a.png\nb.png\n" else Demo.files name } [b!"traxclient", b!"-f", b!"0.5", b!"tracker"]) =
      .ok (0, [(b!"output.txt", b!"1\n0.0000,0.0000,4.0000,4.0000\n")]) := by decide +kernel

end Trax.Cli
