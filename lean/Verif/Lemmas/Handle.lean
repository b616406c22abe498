import Verif.Model.Handle
import Verif.Lemmas.Lists
import Verif.Lemmas.MessageOps
import Verif.Lemmas.ObjectSteps
import Verif.Lemmas.RegionApi

/-!
# Lemmas about handles
-/

namespace Trax
open Spec Handle
open Region (bind_eq_ok map_eq_ok)

theorem quitProperties_enumerate (reason : Option Str) :
    (quitProperties reason).enumerate = (reason.map fun s => (b!"trax.reason", cstr s)).toList := by
  cases reason with
  | none => decide +kernel
  | some s =>
    have : ∀ t : Str, (Properties.create.set b!"trax.reason" t).enumerate = [(b!"trax.reason", cstr t)] := fun t => rfl
    simp [quitProperties, this]

/-- What no call except for the writing ones changes. -/
structure SameButInput (h h' : Handle) : Prop where
  server : h'.server = h.server
  version : h'.version = h.version
  metadata : h'.metadata = h.metadata
  out : h'.stream.out = h.stream.out

theorem SameButInput.refl (h : Handle) : SameButInput h h := ⟨rfl, rfl, rfl, rfl⟩

theorem SameButInput.trans {a b c : Handle} (h : SameButInput a b) (h' : SameButInput b c) : SameButInput a c :=
  ⟨h'.1.trans h.1, h'.2.trans h.2, h'.3.trans h.3, h'.4.trans h.4⟩

theorem code_ne_quit {t : MsgType} (h : t ≠ .quit) : t.code ≠ TRAX_QUIT := by
  cases t <;> simp_all [MsgType.code]

theorem clientWaitLoop_frame (env : Env) (k : Nat) : ∀ (i : Nat) (acc : ObjList) (ret : Int) (props : Option Properties) (h : Handle) (w : WaitResult),
    clientWaitLoop env i acc ret props h k = .ok w →
    SameButInput h w.handle ∧ w.handle.objects = h.objects ∧ (ret ≠ TRAX_QUIT → (w.ret = TRAX_QUIT → w.handle.terminated = true) ∧
      (w.ret ≠ TRAX_QUIT → w.handle.terminated = h.terminated)) := by
  induction k with
  | zero =>
    intro i acc ret props h w hw
    cases hw
    exact ⟨SameButInput.refl h, rfl, fun hr => ⟨fun e => absurd e hr, fun _ => rfl⟩⟩
  | succ k ih =>
    intro i acc ret props h w hw
    simp only [clientWaitLoop] at hw
    have hs : SameButInput h { h with stream := h.stream.read.2 } := ⟨rfl, rfl, rfl, rfl⟩
    split at hw
    · cases hw; exact ⟨hs, rfl, fun _ => ⟨nofun, fun _ => rfl⟩⟩
    · split at hw
      · obtain ⟨parsed, -, hw⟩ := bind_eq_ok hw
        split at hw
        · cases hw; exact ⟨hs, rfl, fun _ => ⟨nofun, fun _ => rfl⟩⟩
        · obtain ⟨acc', -, hw⟩ := bind_eq_ok hw
          split at hw
          · cases hw
          · obtain ⟨h1, h2, h3⟩ := ih _ _ _ _ _ _ hw
            exact ⟨hs.trans h1, h2, fun _ => h3 (by decide)⟩
      · cases hw; exact ⟨hs, rfl, fun _ => ⟨nofun, fun _ => rfl⟩⟩
    · split at hw
      · cases hw; exact ⟨hs, rfl, fun _ => ⟨nofun, fun _ => rfl⟩⟩
      · cases hw; exact ⟨⟨rfl, rfl, rfl, rfl⟩, rfl, fun _ => ⟨fun _ => rfl, fun h => absurd rfl h⟩⟩
    · next t _ hq _ =>
      obtain ⟨h1, h2, h3⟩ := ih _ _ _ _ _ _ hw
      exact ⟨hs.trans h1, h2, fun _ => h3 (code_ne_quit hq)⟩

theorem clientWait_frame (env : Env) (h : Handle) (props : Option Properties) (w : WaitResult) (hw : h.clientWait env props = .ok w) :
    SameButInput h w.handle ∧ w.handle.objects = h.objects ∧ (w.ret = TRAX_QUIT → w.handle.terminated = true) ∧
      (w.ret ≠ TRAX_QUIT → w.handle.terminated = h.terminated) := by
  unfold clientWait at hw
  split at hw
  · cases hw
  split at hw
  · cases hw; exact ⟨⟨rfl, rfl, rfl, rfl⟩, rfl, nofun, fun _ => rfl⟩
  · obtain ⟨h1, h2, h3⟩ := clientWaitLoop_frame env _ _ _ _ _ _ _ hw
    exact ⟨h1, h2, h3 (by decide)⟩

theorem serverWaitSot_frame (env : Env) (h : Handle) (props : Option Properties) (w : WaitResult) (hw : h.serverWaitSot env props = .ok w) :
    SameButInput h w.handle ∧ (w.ret = TRAX_QUIT → w.handle.terminated = true) ∧
      (w.ret ≠ TRAX_QUIT → w.handle.terminated = h.terminated) := by
  unfold serverWaitSot at hw
  split at hw
  · cases hw
  dsimp only at hw
  split at hw
  · cases hw; exact ⟨⟨rfl, rfl, rfl, rfl⟩, nofun, fun _ => rfl⟩
  split at hw
  · cases hw; exact ⟨⟨rfl, rfl, rfl, rfl⟩, nofun, fun _ => rfl⟩
  obtain ⟨count, -, hw⟩ := bind_eq_ok hw
  split at hw
  · split at hw
    · cases hw; exact ⟨⟨rfl, rfl, rfl, rfl⟩, nofun, fun _ => rfl⟩
    · obtain ⟨images, -, hw⟩ := map_eq_ok hw
      split at hw <;> cases hw <;> exact ⟨⟨rfl, rfl, rfl, rfl⟩, nofun, fun _ => rfl⟩
  · split at hw
    · cases hw; exact ⟨⟨rfl, rfl, rfl, rfl⟩, nofun, fun _ => rfl⟩
    · cases hw; exact ⟨⟨rfl, rfl, rfl, rfl⟩, fun _ => rfl, fun h => absurd rfl h⟩
  · split at hw
    · cases hw; exact ⟨⟨rfl, rfl, rfl, rfl⟩, nofun, fun _ => rfl⟩
    · obtain ⟨images, -, hw⟩ := bind_eq_ok hw
      split at hw
      · cases hw; exact ⟨⟨rfl, rfl, rfl, rfl⟩, nofun, fun _ => rfl⟩
      · split at hw
        · cases hw
        · obtain ⟨parsed, -, hw⟩ := map_eq_ok hw
          split at hw <;> cases hw <;> exact ⟨⟨rfl, rfl, rfl, rfl⟩, nofun, fun _ => rfl⟩
  · cases hw; exact ⟨⟨rfl, rfl, rfl, rfl⟩, nofun, fun _ => rfl⟩

theorem failMot_ok {objs : List (Option Region × Properties)} {props : Option Properties} {h : Handle} {w : WaitResult}
    (hw : failMot objs props h = .ok w) : w = ⟨TRAX_ERROR, none, none, none, props, h⟩ := by
  unfold failMot at hw
  split at hw
  · cases hw; rfl
  · cases hw

theorem finishMot_ok {env : Env} {ret : Int} {images : Option ImageList} {objs : List (Option Region × Properties)}
    {props : Option Properties} {h : Handle} {w : WaitResult} (hw : finishMot env ret images objs props h = .ok w) :
    ∃ l : ObjList, buildObjects env objs = .ok l ∧ w = ⟨ret, images, if objs.length = 0 then none else some l, none, props,
      { h with objects := h.objects + objs.length }⟩ := by
  unfold finishMot at hw
  split at hw
  · next hn =>
    obtain ⟨l, hl, hw⟩ := map_eq_ok hw
    exact ⟨l, hl, by rw [← hw, if_neg hn]⟩
  · next hn =>
    have : objs = [] := by simpa using hn
    subst this
    cases hw
    exact ⟨[], rfl, rfl⟩

/-- How the loop of the multi-object wait can end: with a failure, with quit, or with a frame. -/
theorem waitMotLoop_ok (env : Env) (count : Nat) (props : Option Properties) (fuel : Nat) :
    ∀ (init : Bool) (objs : List (Option Region × Properties)) (h : Handle) (w : WaitResult),
    waitMotLoop env count props fuel init objs h = some (.ok w) →
    ∃ (init' : Bool) (objs' : List (Option Region × Properties)) (h' : Handle),
      SameButInput h h' ∧ h'.terminated = h.terminated ∧ (h'.objects = h.objects ∨ h'.objects = 0 ∧ init' = true) ∧
      (objs' ≠ objs → init' = true) ∧ (init = true → init' = true) ∧ objs <+: objs' ∧
      ((∃ error, w = ⟨TRAX_ERROR, none, none, none, props, { h' with error }⟩) ∨
       (∃ p, finishMot env TRAX_QUIT none objs' p { h' with terminated := true } = .ok w) ∨
       (∃ (msg : ReadResult) (images : ImageList), ¬ (init' = true ∧ objs'.length = 0) ∧ msg.args.length = count ∧
         decodeImages env h'.metadata channelIndexes msg.args = .ok (some images) ∧
         finishMot env (if ¬ init' = true ∨ h'.objects > 0 then TRAX_FRAME else TRAX_INITIALIZE) (some images) objs'
           (props.map (copyAll msg.props ·)) h' = .ok w)) := by
  induction fuel with
  | zero => intro init objs h w hw; cases hw
  | succ fuel ih =>
    intro init objs h w hw
    simp only [waitMotLoop] at hw
    have hs : SameButInput h { h with stream := h.stream.read.2 } := ⟨rfl, rfl, rfl, rfl⟩
    split at hw
    · exact ⟨init, objs, { h with stream := h.stream.read.2 }, hs, rfl, .inl rfl, fun h => absurd rfl h, id, List.prefix_rfl,
        .inl ⟨h.error, failMot_ok (Option.some.inj hw)⟩⟩
    · refine ⟨init, objs, { h with stream := h.stream.read.2 }, hs, rfl, .inl rfl, fun h => absurd rfl h, id, List.prefix_rfl, ?_⟩
      split at hw
      · exact .inl ⟨.garbled, failMot_ok (Option.some.inj hw)⟩
      · exact .inr (.inl ⟨_, Option.some.inj hw⟩)
    · refine ⟨init, objs, { h with stream := h.stream.read.2 }, hs, rfl, .inl rfl, fun h => absurd rfl h, id, List.prefix_rfl, ?_⟩
      split at hw
      · exact .inl ⟨_, failMot_ok (Option.some.inj hw)⟩
      · next hio =>
        split at hw
        · exact .inl ⟨.garbled, failMot_ok (Option.some.inj hw)⟩
        · next hlen =>
          obtain ⟨images, himg, hw⟩ := bind_eq_ok (Option.some.inj hw)
          cases images with
          | none => exact .inl ⟨h.error, failMot_ok hw⟩
          | some images => exact .inr (.inr ⟨h.stream.read.1, images, hio, by simpa using hlen, himg, hw⟩)
    · split at hw
      · obtain ⟨i', o', h', h1, h2, h3, h4, h5, h6, h7⟩ := ih _ _ _ _ hw
        have hi : i' = true := h5 rfl
        refine ⟨i', o', h', ⟨h1.1, h1.2, h1.3, h1.4⟩, h2, .inr ⟨?_, hi⟩, fun _ => hi, fun _ => hi, h6, h7⟩
        rcases h3 with h3 | h3
        · exact h3
        · exact h3.1
      · split at hw
        · split at hw
          · cases hw
          · cases hw
          · split at hw
            · exact ⟨init, objs, { h with stream := h.stream.read.2 }, hs, rfl, .inl rfl, fun h => absurd rfl h, id, List.prefix_rfl,
                .inl ⟨h.error, failMot_ok (Option.some.inj hw)⟩⟩
            · obtain ⟨i', o', h', h1, h2, h3, h4, h5, h6, h7⟩ := ih _ _ _ _ hw
              have hi : i' = true := h5 rfl
              exact ⟨i', o', h', ⟨h1.1, h1.2, h1.3, h1.4⟩, h2, h3, fun _ => hi, fun _ => hi,
                (List.prefix_append _ _).trans h6, h7⟩
        · exact ⟨init, objs, { h with stream := h.stream.read.2 }, hs, rfl, .inl rfl, fun h => absurd rfl h, id, List.prefix_rfl,
                .inl ⟨.garbled, failMot_ok (Option.some.inj hw)⟩⟩
    · obtain ⟨i', o', h', h1, h2, h3, h4, h5, h6, h7⟩ := ih _ _ _ _ hw
      exact ⟨i', o', h', ⟨h1.1, h1.2, h1.3, h1.4⟩, h2, h3, h4, h5, h6, h7⟩

/-- The result of a multi-object wait on a live server. -/
theorem serverWaitMot_ok {env : Env} {fuel : Nat} {h : Handle} {props : Option Properties} {w : WaitResult}
    (hw : h.serverWaitMot env fuel props = some (.ok w)) :
    h.server = true ∧ ((h.alive = false ∧ w = ⟨TRAX_ERROR, none, none, none, props, h.clearError.setError b!"Server not alive"⟩) ∨
    (h.alive = true ∧ ∃ count, ImageList.count h.metadata.channels = .ok count ∧
      waitMotLoop env count props fuel false [] h.clearError = some (.ok w))) := by
  unfold serverWaitMot at hw
  split at hw
  · cases hw
  · next hs =>
    refine ⟨by simpa using hs, ?_⟩
    dsimp only at hw
    split at hw
    · next ha => cases hw; exact .inl ⟨by simpa [alive, clearError] using ha, rfl⟩
    · next ha =>
      refine .inr ⟨by simpa [alive, clearError] using ha, ?_⟩
      split at hw
      · next count hc => exact ⟨count, hc, hw⟩
      · cases hw
      · cases hw

theorem serverWaitMot_frame (env : Env) (fuel : Nat) (h : Handle) (props : Option Properties) (w : WaitResult)
    (hw : h.serverWaitMot env fuel props = some (.ok w)) :
    SameButInput h w.handle ∧ (w.ret = TRAX_QUIT → w.handle.terminated = true) ∧
      (w.ret ≠ TRAX_QUIT → w.handle.terminated = h.terminated) := by
  obtain ⟨-, ⟨ha, rfl⟩ | ⟨ha, count, hc, hw⟩⟩ := serverWaitMot_ok hw
  · exact ⟨⟨rfl, rfl, rfl, rfl⟩, nofun, fun _ => rfl⟩
  · obtain ⟨i', o', h', h1, h2, h3, h4, h5, h6, h7⟩ := waitMotLoop_ok env count props fuel _ _ _ _ hw
    have hs : SameButInput h h' := ⟨h1.1, h1.2, h1.3, h1.4⟩
    rcases h7 with ⟨e, rfl⟩ | ⟨p, hf⟩ | ⟨msg, images, -, -, -, hf⟩
    · exact ⟨⟨hs.1, hs.2, hs.3, hs.4⟩, nofun, fun _ => h2⟩
    · obtain ⟨l, -, rfl⟩ := finishMot_ok hf
      exact ⟨⟨hs.1, hs.2, hs.3, hs.4⟩, fun _ => rfl, fun h => absurd rfl h⟩
    · obtain ⟨l, -, rfl⟩ := finishMot_ok hf
      refine ⟨⟨hs.1, hs.2, hs.3, hs.4⟩, fun h => ?_, fun _ => h2⟩
      dsimp only at h
      split at h <;> cases h

/-! ## Images -/

/-- The images that the server returns: one for every declared channel, of a declared type. -/
theorem decodeImages_ok (env : Env) (m : Metadata) : ∀ (is : List Nat) (args : List Str) (l : ImageList),
    decodeImages env m is args = .ok (some l) →
    l.length = is.length ∧ ∀ (n i : Nat), is[n]? = some i →
      (supports m.channels (ImageList.channelId i) = false → l[n]? = some none) ∧
      (supports m.channels (ImageList.channelId i) = true →
        ∃ img, l[n]? = some (some img) ∧ supports m.images (UInt32.ofNat img.type) = true) := by
  intro is
  induction is with
  | nil => intro args l h; cases h; simp
  | cons j is ih =>
    intro args l h
    unfold decodeImages at h
    split at h
    · next hsup =>
      split at h
      · cases h
      · next text args =>
        obtain ⟨d, -, h⟩ := bind_eq_ok h
        split at h
        · cases h
        · next img _ =>
          split at h
          · next htype =>
            obtain ⟨rest, hrest, h⟩ := map_eq_ok h
            cases rest with
            | none => cases h
            | some rest =>
              cases h
              obtain ⟨h1, h2⟩ := ih _ _ hrest
              refine ⟨by simp [h1], fun n i hn => ?_⟩
              cases n with
              | zero =>
                simp only [List.getElem?_cons_zero, Option.some.injEq] at hn
                subst hn
                exact ⟨fun h => absurd hsup (by simp [h]), fun _ => ⟨img, rfl, htype⟩⟩
              | succ n => exact h2 n i (by simpa using hn)
          · cases h
    · next hsup =>
      obtain ⟨rest, hrest, h⟩ := map_eq_ok h
      cases rest with
      | none => cases h
      | some rest =>
        cases h
        obtain ⟨h1, h2⟩ := ih _ _ hrest
        refine ⟨by simp [h1], fun n i hn => ?_⟩
        cases n with
        | zero =>
          simp only [List.getElem?_cons_zero, Option.some.injEq] at hn
          subst hn
          exact ⟨fun _ => rfl, fun h => absurd h hsup⟩
        | succ n => exact h2 n i (by simpa using hn)

/-! ## Messages -/

theorem copyAll_create {p : Properties} (hp : p.WF) : copyAll p Properties.create = p := by
  have : copyAll p Properties.create = p.enumerate.foldl (fun m kv => m.set kv.1 kv.2) Properties.create := by
    simp only [copyAll, Properties.copyProperties]; rfl
  rw [this]
  exact Properties.foldl_set_enumerate hp

/-- Reading a message that was written. -/
theorem Stream.read_wire (s : Stream) (t : MsgType) (args : List Str) (p : Properties) (hp : p.WF)
    (hd : Deliverable args p.enumerate) (rest : List InEv) (hin : s.input = bytes (wire t args p.enumerate) ++ rest) :
    s.read = (⟨some t, args, p, wire t args p.enumerate, rest⟩, { s with mtype := some t, input := rest }) := by
  unfold Stream.read
  rw [hin, readMessage_wire _ _ _ _ _ _ hd, Properties.foldl_set_enumerate hp]

/-- Reading at the end of the input. -/
theorem Stream.read_eof (s : Stream) (hin : s.input = []) :
    s.read.1.mtype = s.mtype ∧ s.read.1.args = [] ∧ s.read.1.props = Properties.create ∧ s.read.2 = s := by
  obtain ⟨mt, inp, out⟩ := s
  subst hin
  cases mt with
  | none => exact ⟨rfl, rfl, rfl, rfl⟩
  | some t => cases t <;> exact ⟨rfl, rfl, rfl, rfl⟩

/-- Every read uses up some of the input. -/
theorem Stream.read_shorter (s : Stream) (hin : s.input ≠ []) : s.read.2.input.length < s.input.length := by
  obtain ⟨consumed, h1, h2⟩ := readLoop_suffix (Reader.start s.mtype Properties.create) s.input rfl
  have h3 : s.read.2.input = (readLoop (Reader.start s.mtype Properties.create) s.input).2 := rfl
  rw [h3]
  have := congrArg List.length h1
  rw [List.length_append] at this
  have h4 : 0 < consumed.length := List.length_pos_iff.mpr (h2 hin)
  omega

theorem Calls.of_run {env : Env} {fuel : Nat} : ∀ {cs : List Call} {h : Handle} {rets : List Int} {h' : Handle},
    runCalls env fuel h cs = some (rets, h') → Calls env h cs rets h' := by
  intro cs
  induction cs with
  | nil => intro h rets h' hr; cases hr; exact .nil _
  | cons c cs ih =>
    intro h rets h' hr
    simp only [runCalls] at hr
    split at hr
    · next ret h₁ hc =>
      rw [Option.map_eq_some_iff] at hr
      obtain ⟨r, h1, h2⟩ := hr
      cases h2
      exact .cons fuel hc (ih h1)
    · cases hr

instance (w : Writer) : Decidable w.Reliable := inferInstanceAs (Decidable (_ ∧ _))

end Trax
