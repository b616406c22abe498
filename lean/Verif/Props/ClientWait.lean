import Verif.Spec.ClientWait
import Verif.Lemmas.Session
import Verif.Lemmas.ReaderAscii
import Verif.Props.RegionApi
import Verif.Props.Handle
import Verif.Props.Session

/-!
# C160: what the client's wait takes as an answer
-/

namespace Trax
open Trax.Spec Handle
open Region (bind_eq_ok map_eq_ok)

theorem decodeRuns_length (l : List Flt) : ∀ (value : Bool) (room : Nat) {d : List UInt8}, Region.decodeRuns value room l = .ok d → d.length = room := by
  induction l with
  | nil =>
    intro value room d h
    cases h
    simp
  | cons x l ih =>
    intro value room d h
    rw [Region.decodeRuns] at h
    obtain ⟨count, -, h⟩ := bind_eq_ok h
    obtain ⟨n, hn, h⟩ := bind_eq_ok h
    obtain ⟨rest, hr, h⟩ := map_eq_ok h
    subst h
    have hle : n ≤ room := by
      unfold Region.fillRun at hn
      split at hn
      · cases hn; exact Nat.min_le_right ..
      · split at hn
        · cases hn; exact Nat.le_refl _
        · cases hn
    rw [List.length_append, List.length_replicate, ih _ _ hr]
    omega

/-- A region that was read and that can be cloned is well formed. -/
theorem parse_wellFormed {text : Str} {r : Region} {overrun : Nat} (h : Region.parse text = .ok ⟨1, some r, overrun⟩) {legacy : Bool} {fresh : Nat → List UInt8}
    {c : Option Region} (hc : Region.clone legacy fresh (some r) = .ok c) : WellFormed r := by
  cases r with
  | mask x y w hh data =>
    have hlen : (data.length : Int) = (w * hh).toNat ∧ w * hh ≤ 2147483647 := by
      unfold Region.parse at h
      split at h
      · cases h
      · dsimp only at h
        obtain ⟨o, ho, e⟩ := map_eq_ok h
        have e2 := congrArg Region.Parsed.region e
        dsimp only at e2
        subst e2
        generalize Region.parseSequence (Region.parsePrefix text).2 = l at ho
        unfold Region.ofSequence at ho
        split at ho
        · split at ho
          · split at ho
            · cases ho
            · obtain ⟨n, -, ho⟩ := bind_eq_ok ho
              split at ho <;> cases ho
          · cases ho
        · dsimp only at ho
          split at ho
          · cases ho
          · split at ho
            · obtain ⟨_, _, ho⟩ := map_eq_ok ho; cases ho
            · cases ho
          · split at ho <;> cases ho
          · split at ho <;> cases ho
          · split at ho
            · obtain ⟨_, _, ho⟩ := bind_eq_ok ho
              obtain ⟨_, _, ho⟩ := bind_eq_ok ho
              obtain ⟨_, _, ho⟩ := bind_eq_ok ho
              obtain ⟨_, _, ho⟩ := bind_eq_ok ho
              obtain ⟨len, hl, ho⟩ := bind_eq_ok ho
              obtain ⟨pixels, hp, ho⟩ := map_eq_ok ho
              cases ho
              unfold mul32 at hl
              split at hl
              · next hin =>
                cases hl
                rw [decodeRuns_length _ _ _ hp]
                unfold InInt32 at hin
                omega
              · cases hl
            · cases ho
    have hc : (Region.createMask fresh x y w hh).bind _ = _ := hc
    obtain ⟨_, hm, -⟩ := bind_eq_ok hc
    unfold Region.createMask at hm
    split at hm
    · next hpos =>
      have := Int.mul_pos hpos.1 hpos.2
      exact ⟨hpos.1, hpos.2, by omega, hlen.2⟩
    · cases hm
  | special c => trivial
  | rectangle x y w h => trivial
  | polygon ps => trivial


theorem read_wf (s : Stream) : s.read.1.props.WF := by
  have h : (Reader.start s.mtype Properties.create).Ascii := by
    refine ⟨seven_nil, seven_nil, Properties.wf_create, fun k v h => ?_, fun a ha => ?_⟩
    · rw [show (Reader.start s.mtype Properties.create).props = Properties.create from rfl, Properties.get_create] at h
      cases h
    · simp [Reader.start] at ha
  exact (h.loop s.input).wf

theorem statesBefore_zero (ms : List ReadResult) : StatesBefore ms 0 := fun j hj => absurd hj (Nat.not_lt_zero j)

theorem statesBefore_cons {m : ReadResult} {ms : List ReadResult} {j : Nat} (h0 : ∃ r, TellsState m r) (h : StatesBefore ms j) : StatesBefore (m :: ms) (j + 1) := by
  intro i hi m' hm
  cases i with
  | zero => cases hm; exact h0
  | succ i => exact h i (Nat.lt_of_succ_lt_succ hi) m' hm

/-- What the loop makes of the messages. -/
theorem waitLoop_answer (env : Env) (props : Option Properties) (k : Nat) : ∀ (i : Nat) (done : ObjList) (ret : Int) (h : Handle) (w : WaitResult), done.length = i →
    clientWaitLoop env i (done ++ ObjList.create k) ret props h k = .ok w →
    (∀ j m, (incoming k h.stream)[j]? = some m → StatesBefore (incoming k h.stream) j → ¬ Strange m) →
    (∃ l, l.length = k ∧ w.ret = (if k = 0 then ret else 5) ∧ w.objects = some (done ++ l) ∧
      ∀ (j : Nat) m, (incoming k h.stream)[j]? = some m → ∃ r, TellsState m r ∧ l[j]? = some (some r, m.props)) ∨
    (∃ j m, (incoming k h.stream)[j]? = some m ∧ StatesBefore (incoming k h.stream) j ∧ EndsSession m ∧ w.ret = 4 ∧ w.objects = none ∧
      w.props = props.map (copyAll m.props ·)) ∨
    (∃ j m, (incoming k h.stream)[j]? = some m ∧ StatesBefore (incoming k h.stream) j ∧ ¬ (∃ r, TellsState m r) ∧ ¬ EndsSession m ∧ w.ret = -1 ∧ w.objects = none) := by
  induction k with
  | zero =>
    intro i done ret h w _ hw _
    cases hw
    exact .inl ⟨[], rfl, rfl, by simp [ObjList.create], fun j m hm => by simp [incoming] at hm⟩
  | succ k ih =>
    intro i done ret h w hi hw hk
    subst hi
    have hwf := read_wf h.stream
    have hinc : incoming (k + 1) h.stream = h.stream.read.1 :: incoming k h.stream.read.2 := rfl
    rw [hinc] at hk ⊢
    rw [clientWaitLoop] at hw
    dsimp only at hw
    have h0 := hk 0 h.stream.read.1 rfl (statesBefore_zero _)
    generalize h.stream.read.1 = msg at hw hk hwf h0 ⊢
    generalize hst : h.stream.read.2 = stream at hw hk ⊢
    have stop : (¬ (∃ r, TellsState msg r)) → ¬ EndsSession msg → w.ret = -1 → w.objects = none →
        ∃ j m, (msg :: incoming k stream)[j]? = some m ∧ StatesBefore (msg :: incoming k stream) j ∧ ¬ (∃ r, TellsState m r) ∧ ¬ EndsSession m ∧ w.ret = -1 ∧ w.objects = none :=
      fun a b c d => ⟨0, msg, rfl, statesBefore_zero _, a, b, c, d⟩
    cases hmt : msg.mtype with
    | none =>
      rw [hmt] at hw
      cases hw
      exact .inr (.inr (stop (by rintro ⟨r, e, -⟩; rw [hmt] at e; cases e) (by rintro ⟨e, -⟩; rw [hmt] at e; cases e) rfl rfl))
    | some t =>
      rw [hmt] at hw
      cases t with
      | hello => exact absurd (.inl hmt) h0
      | «initialize» => exact absurd (.inr (.inl hmt)) h0
      | frame => exact absurd (.inr (.inr hmt)) h0
      | quit =>
        dsimp only at hw
        by_cases ha : msg.args.length ≠ 0
        · rw [if_pos ha] at hw
          cases hw
          exact .inr (.inr (stop (by rintro ⟨r, e, -⟩; rw [hmt] at e; cases e) (by rintro ⟨-, e⟩; rw [e] at ha; exact ha rfl) rfl rfl))
        · rw [if_neg ha] at hw
          cases hw
          exact .inr (.inl ⟨0, msg, rfl, statesBefore_zero _, ⟨hmt, List.length_eq_zero_iff.mp (Classical.not_not.mp ha)⟩, rfl, rfl, rfl⟩)
      | state =>
        dsimp only at hw
        have hquit : ¬ EndsSession msg := by rintro ⟨e, -⟩; rw [hmt] at e; cases e
        split at hw
        · next text hargs =>
          obtain ⟨parsed, hp, hw⟩ := bind_eq_ok hw
          by_cases hr : parsed.ret = 0
          · rw [if_pos hr] at hw
            cases hw
            refine .inr (.inr (stop ?_ hquit rfl rfl))
            rintro ⟨r, -, t', o, e1, e2⟩
            rw [hargs] at e1
            cases e1
            rw [hp] at e2
            cases e2
            cases hr
          · rw [if_neg hr] at hw
            obtain ⟨acc, hset, hw⟩ := bind_eq_ok hw
            cases hreg : parsed.region with
            | none => rw [hreg] at hw; cases hw
            | some r =>
              rw [hreg] at hw hset
              dsimp only at hw
              have hparse : ∃ o, Region.parse text = .ok ⟨1, some r, o⟩ := by
                unfold Region.parse at hp
                split at hp
                · cases hp; cases hreg
                · next hne =>
                  dsimp only at hp
                  obtain ⟨o, ho, e⟩ := map_eq_ok hp
                  subst e
                  dsimp only at hreg
                  subst hreg
                  refine ⟨Region.sequenceOverrun (Region.parsePrefix text).2, ?_⟩
                  unfold Region.parse
                  rw [if_neg hne]
                  dsimp only
                  rw [ho]
                  rfl
              obtain ⟨o, hparse⟩ := hparse
              have hcreate : ObjList.create (k + 1) = (some (Region.createSpecial 0), Properties.create) :: ObjList.create k := rfl
              rw [hcreate] at hset
              have hwell : WellFormed r := by
                unfold ObjList.set at hset
                rw [if_neg (by simp only [List.length_append, List.length_cons]; omega)] at hset
                have hat : (done ++ (some (Region.createSpecial 0), Properties.create) :: ObjList.create k)[((done.length : Nat) : Int).toNat]? = some (some (Region.createSpecial 0), Properties.create) := by simp
                rw [hat] at hset
                obtain ⟨c, hc, -⟩ := map_eq_ok hset
                exact parse_wellFormed hparse hc
              rw [objList_set_snoc env done _ _ r hwell] at hset
              cases hset
              have hprops : (ObjList.properties (done ++ (some r, Properties.create) :: ObjList.create k) (done.length : Nat)).getD Properties.create = Properties.create := by
                unfold ObjList.properties
                rw [if_neg (by simp only [List.length_append, List.length_cons]; omega)]
                simp
              rw [hprops, copyAll_create hwf] at hw
              have hset : ObjList.setProperties (done ++ (some r, Properties.create) :: ObjList.create k) done.length msg.props =
                  (done ++ [(some r, msg.props)]) ++ ObjList.create k := by
                unfold ObjList.setProperties
                simp [List.modify_eq_set_getElem?]
              rw [hset] at hw
              have htells : TellsState msg r := ⟨hmt, text, o, hargs, hparse⟩
              rcases ih (done.length + 1) (done ++ [(some r, msg.props)]) TRAX_STATE { h with stream := stream } w (by simp) hw
                (fun j m hm hb => hk (j + 1) m hm (statesBefore_cons ⟨r, htells⟩ hb)) with ⟨l, e1, e2, e3, e4⟩ | ⟨j, m, e1, e2, e3⟩ | ⟨j, m, e1, e2, e3⟩
              · refine .inl ⟨(some r, msg.props) :: l, by simp [e1], ?_, by rw [e3]; simp, ?_⟩
                · rw [e2, if_neg (Nat.succ_ne_zero k)]
                  split <;> rfl
                · intro j m hm
                  cases j with
                  | zero =>
                    cases hm
                    exact ⟨r, htells, rfl⟩
                  | succ j => exact e4 j m hm
              · exact .inr (.inl ⟨j + 1, m, e1, statesBefore_cons ⟨r, htells⟩ e2, e3⟩)
              · exact .inr (.inr ⟨j + 1, m, e1, statesBefore_cons ⟨r, htells⟩ e2, e3⟩)
        · next hargs =>
          cases hw
          refine .inr (.inr (stop ?_ hquit rfl rfl))
          rintro ⟨r, -, t', o, e1, e2⟩
          exact hargs t' e1

/-- **C160, what holds.** Whatever a tracker sends: when the client's wait returns, and none of the messages up to the answer is of a type that a tracker
does not answer with, it returns state (5) and for each object the region and the properties of the message with its number, or quit (4) and the properties
of a quit message, or an error (-1) for a message that is none of these. Missing: messages of other types, and the end of the input behind one. -/
theorem C160_answer_partial (env : Env) (h : Handle) (props : Option Properties) (hside : h.server = false) (ha : h.isAlive = true) (hn : 0 < h.objects) (w : WaitResult)
    (hw : h.clientWait env props = .ok w)
    (hk : ∀ j m, (incoming h.objects h.stream)[j]? = some m → StatesBefore (incoming h.objects h.stream) j → ¬ Strange m) :
    (∃ l, w.ret = 5 ∧ w.objects = some l ∧ l.length = h.objects ∧
      ∀ (j : Nat) m, (incoming h.objects h.stream)[j]? = some m → ∃ r, TellsState m r ∧ l[j]? = some (some r, m.props)) ∨
    (∃ j m, (incoming h.objects h.stream)[j]? = some m ∧ StatesBefore (incoming h.objects h.stream) j ∧ EndsSession m ∧ w.ret = 4 ∧ w.objects = none ∧
      (props = some Properties.create → w.props = some m.props)) ∨
    (∃ j m, (incoming h.objects h.stream)[j]? = some m ∧ StatesBefore (incoming h.objects h.stream) j ∧ ¬ (∃ r, TellsState m r) ∧ ¬ EndsSession m ∧ w.ret = -1 ∧ w.objects = none) := by
  rw [clientWait_loop env h props hside ha] at hw
  rcases waitLoop_answer env props h.objects 0 [] TRAX_ERROR h w rfl hw hk with ⟨l, e1, e2, e3, e4⟩ | ⟨j, m, e1, e2, e3, e4, e5, e6⟩ | e
  · exact .inl ⟨l, by rw [e2, if_neg (by omega)], by rw [e3]; rfl, e1, e4⟩
  · refine .inr (.inl ⟨j, m, e1, e2, e3, e4, e5, fun hp => ?_⟩)
    rw [e6, hp]
    have hwf : ∀ (k : Nat) (s : Stream) m, m ∈ incoming k s → m.props.WF := by
      intro k
      induction k with
      | zero => intro s m hm; simp [incoming] at hm
      | succ k ih =>
        intro s m hm
        rcases List.mem_cons.mp hm with rfl | hm
        · exact read_wf s
        · exact ih _ m hm
    show some (copyAll m.props Properties.create) = _
    rw [copyAll_create (hwf _ _ m (List.mem_of_getElem? e1))]
  · exact .inr (.inr e)

/-- All three kinds of answers: for two objects that are tracked, for quit instead of the second state, for a text that is no region. -/
example :
    ((Demo.client 4 b!"@@TRAX:state \"1,2,3,4\" \"a=b\" \n@@TRAX:state \"-3\" \n").any fun h =>
      match ({ h with objects := 2 } : Handle).clientWait Demo.env none with
      | .ok w => decide (w.ret = 5) && decide (w.objects.map (·.map fun o => (o.1.map Region.type, o.2.enumerate)) = some [(some .rectangle, [(b!"a", b!"b")]), (some .special, [])])
      | _ => false) = true ∧
    ((Demo.client 4 b!"@@TRAX:state \"1,2,3,4\" \n@@TRAX:quit \n").any fun h =>
      match ({ h with objects := 2 } : Handle).clientWait Demo.env none with | .ok w => decide (w.ret = 4) && w.objects.isNone | _ => false) = true ∧
    ((Demo.client 4 b!"@@TRAX:state \"1,2\" \n").any fun h =>
      match ({ h with objects := 1 } : Handle).clientWait Demo.env none with | .ok w => decide (w.ret = -1) && w.objects.isNone | _ => false) = true := by
  decide +kernel

/-- **C160 fails** for messages of other types: they count as the answer for an object. A client with one object gets their number (hello 1, initialize 2,
frame 3) and a list with a region that nobody sent. -/
theorem C160_other_false (env : Env) (h : Handle) (props : Option Properties) (hside : h.server = false) (ha : h.isAlive = true) (hn : h.objects = 1) (t : MsgType) (number : Int)
    (ht : (t, number) ∈ [(MsgType.hello, (1 : Int)), (.initialize, 2), (.frame, 3)]) (hm : h.stream.read.1.mtype = some t) :
    ∃ w, h.clientWait env props = .ok w ∧ w.ret = number ∧ w.objects = some [(some (.special 0), Properties.create)] := by
  rw [clientWait_loop env h props hside ha, hn]
  simp only [List.mem_cons, List.not_mem_nil, or_false, Prod.mk.injEq] at ht
  rcases ht with ⟨rfl, rfl⟩ | ⟨rfl, rfl⟩ | ⟨rfl, rfl⟩ <;>
  · rw [clientWaitLoop]
    dsimp only
    rw [hm]
    exact ⟨_, rfl, rfl, rfl⟩

/-- With two objects the client may even get state, although the tracker sent one state only. -/
theorem C160_missing_false :
    ((Demo.client 4 b!"@@TRAX:frame \n@@TRAX:state \"1,2,3,4\" \n").any fun h =>
      match ({ h with objects := 2 } : Handle).clientWait Demo.env none with
      | .ok w => decide (w.ret = 5) && decide (w.objects.map (·.map fun o => o.1.map Region.type) = some [some .special, some .rectangle])
      | _ => false) = true := by
  decide +kernel

theorem waitLoop_dead (env : Env) (props : Option Properties) (k : Nat) : ∀ (i : Nat) (acc : ObjList) (ret : Int) (h : Handle), h.stream.input = [] → h.stream.mtype = some .hello →
    ∃ h', clientWaitLoop env i acc ret props h k = .ok ⟨if k = 0 then ret else 1, none, some acc, none, props, h'⟩ := by
  induction k with
  | zero => intro i acc ret h _ _; exact ⟨h, rfl⟩
  | succ k ih =>
    intro i acc ret h hin hmt
    obtain ⟨e1, e2, e3, e4⟩ := h.stream.read_eof hin
    rw [clientWaitLoop]
    dsimp only
    rw [e1, hmt]
    dsimp only
    obtain ⟨h', e⟩ := ih (i + 1) acc 1 { h with stream := h.stream.read.2 } (by simp [e4, hin]) (by simp [e4, hmt])
    refine ⟨h', ?_⟩
    rw [show MsgType.hello.code = 1 from rfl, e, if_neg (Nat.succ_ne_zero k)]
    split <;> rfl

/-- **C160 fails** when the tracker ends right after it introduced itself: the client's wait does not report an error, but returns hello (1) and regions that
nobody sent. -/
theorem C160_dead_false (env : Env) (h : Handle) (props : Option Properties) (hside : h.server = false) (ha : h.isAlive = true) (hn : 0 < h.objects)
    (hin : h.stream.input = []) (hmt : h.stream.mtype = some .hello) :
    ∃ w, h.clientWait env props = .ok w ∧ w.ret = 1 ∧ w.objects = some (List.replicate h.objects (some (.special 0), Properties.create)) := by
  rw [clientWait_loop env h props hside ha]
  obtain ⟨h', e⟩ := waitLoop_dead env props h.objects 0 (ObjList.create h.objects) TRAX_ERROR h hin hmt
  exact ⟨_, e, by rw [if_neg (by omega)], rfl⟩

/-- That is the state of a client that was set up, and that has sent its first request. -/
example : ((Demo.clientStart 4).any fun h =>
    match h.clientInitialize Demo.env Demo.images [Demo.target] none with
    | .ok (ret, h) => decide (ret = 0) && decide (h.server = false) && h.isAlive && decide (h.objects = 1) && decide (h.stream.input = []) && decide (h.stream.mtype = some .hello)
    | _ => false) = true := by
  decide +kernel

end Trax
