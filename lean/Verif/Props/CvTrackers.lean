import Verif.Model.CvTrackers
import Verif.Spec.CvTrackers
import Verif.Props.Handle
import Verif.Props.StaticRun

/-!
# C152: the trackers of the OpenCV module
-/

namespace Trax.Cv
open Trax.Spec Handle Trax.Cv.Spec
open Region (bind_eq_ok map_eq_ok)

/-! ## The click -/

theorem foldl_off (clicks : List (Int × Int)) (rect : Ocv.Rect) : clicks.foldl (fun s c => onClick s c.1 c.2) (false, rect) = (false, rect) := by
  induction clicks with
  | nil => rfl
  | cons c cs ih => exact ih

theorem clicks_placed (clicks : List (Int × Int)) (rect : Ocv.Rect) :
    (clicks.foldl (fun s c => onClick s c.1 c.2) (true, rect)).1 = clicks.isEmpty ∧
    Placed clicks.head? rect (clicks.foldl (fun s c => onClick s c.1 c.2) (true, rect)).2 := by
  cases clicks with
  | nil => exact ⟨rfl, rfl⟩
  | cons c cs =>
    rw [List.foldl_cons]
    have : onClick (true, rect) c.1 c.2 = (false, { rect with x := c.1 - rect.width.tdiv 2, y := c.2 - rect.height.tdiv 2 }) := rfl
    rw [this, foldl_off]
    refine ⟨rfl, rfl, rfl, ?_, ?_⟩ <;> intro h <;> dsimp only <;> rw [Int.tdiv_eq_ediv_of_nonneg h] <;> omega

/-- **C152, the click of the user.** The interactive tracker waits for a click or a key. The first click puts the rectangle there, later ones do not count; with a key the tracker
answers a last time. -/
theorem C152_click_partial (user : List Moment) (rect rect' : Ocv.Rect) (run : Bool) (h : watch user rect = some (rect', run)) :
    ∃ before m after, user = before ++ m :: after ∧ (∀ q ∈ before, q.clicks = [] ∧ q.key ≤ -1) ∧ (m.clicks ≠ [] ∨ m.key > -1) ∧
      (run = true ↔ m.key ≤ -1) ∧ Placed m.clicks.head? rect rect' := by
  induction user with
  | nil => cases h
  | cons m ms ih =>
    unfold watch at h
    dsimp only at h
    obtain ⟨h1, h2⟩ := clicks_placed m.clicks rect
    split at h
    · next hk =>
      cases h
      exact ⟨[], m, ms, rfl, by simp, .inr hk, ⟨nofun, fun h => by omega⟩, h2⟩
    · next hk =>
      split at h
      · next hc =>
        cases h
        refine ⟨[], m, ms, rfl, by simp, .inl ?_, ⟨fun _ => by omega, fun _ => rfl⟩, h2⟩
        rw [h1] at hc
        simpa using hc
      · next hc =>
        rw [h1] at hc
        have hm : m.clicks = [] := by simpa using hc
        have hr : (m.clicks.foldl (fun s c => onClick s c.1 c.2) (true, rect)).2 = rect := by rw [hm]; rfl
        rw [hr] at h
        obtain ⟨before, q, after, e1, e2, e3⟩ := ih h
        refine ⟨m :: before, q, after, by rw [e1]; rfl, ?_, e3⟩
        rintro x (_ | ⟨_, hx⟩)
        · exact ⟨hm, by omega⟩
        · exact e2 x hx

/-- A click into an image, after some time. -/
example : watch [⟨[], -1⟩, ⟨[(50, 40), (10, 10)], -1⟩] ⟨0, 0, 21, 10⟩ = some (⟨40, 35, 21, 10⟩, true) := by decide

/-! ## What the trackers declare -/

/-- **C152, what the tracker with `CamShift` takes from an initialization.** The selection is the rectangle of the request without the fractions of its numbers, each number in its place; each of the three
levels is what the property with its name gives, the old level being the default (C21 tells what the function gives). What is missing is the rest of the claim, which is false. -/
theorem C152_selection_partial (nx ny nw nh : Bool) (mx my mw mh : Nat)
    (hx : InInt32 (Int.tdiv (if nx then -(mx : Int) else mx) (2 ^ 149))) (hy : InInt32 (Int.tdiv (if ny then -(my : Int) else my) (2 ^ 149)))
    (hw : InInt32 (Int.tdiv (if nw then -(mw : Int) else mw) (2 ^ 149))) (hh : InInt32 (Int.tdiv (if nh then -(mh : Int) else mh) (2 ^ 149))) (l : Levels) (p : Properties) :
    selectionOf (some (.rectangle (.fin nx mx) (.fin ny my) (.fin nw mw) (.fin nh mh))) =
      .ok { x := Int.tdiv (if nx then -(mx : Int) else mx) (2 ^ 149), y := Int.tdiv (if ny then -(my : Int) else my) (2 ^ 149),
            width := Int.tdiv (if nw then -(mw : Int) else mw) (2 ^ 149), height := Int.tdiv (if nh then -(mh : Int) else mh) (2 ^ 149) } ∧
    (∀ L, levelsOf l p = .ok L ↔ p.getInt b!"vmin" l.vmin = .ok L.vmin ∧ p.getInt b!"vmax" l.vmax = .ok L.vmax ∧ p.getInt b!"smin" l.smin = .ok L.smin) := by
  have cut : ∀ (n : Bool) (m : Nat), InInt32 (Int.tdiv (if n then -(m : Int) else m) (2 ^ 149)) →
      (Flt.fin n m).toInt = .ok (Int.tdiv (if n then -(m : Int) else m) (2 ^ 149)) := by
    intro n m h
    have e : Int.tdiv (if n then -(m : Int) else m) (2 ^ 149) = if n then -((m / 2 ^ 149 : Nat) : Int) else ((m / 2 ^ 149 : Nat) : Int) := by
      cases n
      · exact (Int.ofNat_tdiv m (2 ^ 149)).symm
      · exact (Int.neg_tdiv _ _).trans (congrArg _ (Int.ofNat_tdiv m (2 ^ 149)).symm)
    rw [e] at h ⊢
    unfold Flt.toInt
    exact if_pos h
  constructor
  · unfold selectionOf Region.getRectangle
    simp only [Outcome.bind, cut nx mx hx, cut ny my hy, cut nw mw hw, cut nh mh hh, Outcome.map]
  · intro L
    unfold levelsOf
    cases p.getInt b!"vmin" l.vmin <;> cases p.getInt b!"vmax" l.vmax <;> cases p.getInt b!"smin" l.smin <;> simp [Outcome.bind, Outcome.map]
    cases L
    simp [Levels.mk.injEq]

example : selectionOf (some (.rectangle (.ofInt (-7)) (.ofInt 2) (.ofInt 30) (.ofInt 40))) = .ok ⟨-7, 2, 30, 40⟩ := by decide +kernel
example : (levelsOf ⟨10, 256, 30⟩ (Properties.create.set b!"vmax" b!"200")).map (fun l => (l.vmin, l.vmax, l.smin)) = .ok (10, 200, 30) := by decide +kernel

/-- **C152, images that cannot be read** (part of what the claim says of every frame, which is false): with an image without rows or without columns the tracker with `CamShift` ends and writes nothing. -/
theorem C152_empty_partial {η : Type} (env : Env) (cv : Reader) (E : Engine η) (p : Camshift η) (selection : Option Ocv.Rect) (images : Option ImageList) (frame : Ocv.Mat)
    (hf : frameOf cv images = .ok frame) (h : frame.rows = 0 ∨ frame.cols = 0) : camshiftTrack env cv E p selection images = .ok (.stop p.handle) := by
  have e : isEmpty frame = true := by simpa [isEmpty] using h
  unfold camshiftTrack
  rw [hf]
  exact if_pos e

/-- `cv::imread` gives a matrix without rows and columns for a file that it cannot read. -/
example : frameOf ⟨fun _ => ⟨0, 0, 0, .u8c3, []⟩, fun _ => ⟨0, 0, 0, .u8c3, []⟩⟩ (some [some (.path b!"a.jpg"), none, none]) = .ok ⟨0, 0, 0, .u8c3, []⟩ := by rfl

/-- **C152** does not hold for what the trackers announce: the arguments of the constructor are exchanged. Both trackers are made for rectangles, and for images in files, in memory and in
buffers, and a client is told that they take URLs, polygons and masks. -/
theorem C152_declared_false :
    ((server 0 ⟨none, [], Demo.unwritten⟩).bind fun h => (clientSetup ⟨none, bytes h.stream.out.sent, Demo.unwritten⟩).map fun c =>
      c.map fun c => (c.metadata.images, c.metadata.regions)) = .ok (some ((2 : UInt32), (4 ||| 8 : UInt32))) := by decide +kernel

/-! ## What they answer -/

theorem server_ready {junk : UInt32} {stream : Stream} {h : Handle} (hs : server junk stream = .ok h) :
    h.metadata.images = 2 ∧ h.metadata.channels = 1 := by
  unfold server at hs
  obtain ⟨m, hm, hs⟩ := bind_eq_ok hs
  cases (show Outcome.ok _ = Outcome.ok m from hm)
  unfold serverSetup at hs
  rw [if_pos (by decide)] at hs
  obtain ⟨m', hm', hs⟩ := map_eq_ok hs
  cases hs
  cases (show Outcome.ok _ = Outcome.ok m' from hm')
  exact ⟨rfl, rfl⟩

/-- What the class `ServerMOT` gives back for a request that is accepted. -/
theorem wait_given {env : Env} {fuel : Nat} {h : Handle} {region : Option Region} {w : Cpp.Waited}
    (hm : h.metadata.images = 2 ∧ h.metadata.channels = 1) (hw : Cpp.serverWaitRegion env fuel (some h) region Properties.create = some (.ok w)) :
    ∃ h', w.handle = some h' ∧ h'.stream.out = h.stream.out ∧
      ((w.ret = TRAX_INITIALIZE ∨ w.ret = TRAX_FRAME) → ∃ u rest, w.images = some (some (.url u) :: rest)) := by
  unfold Cpp.serverWaitRegion at hw
  dsimp only at hw
  obtain ⟨o, ho, hw⟩ := Option.map_eq_some_iff.mp hw
  obtain ⟨w', ho', hw⟩ := bind_eq_ok hw
  rw [ho'] at ho
  clear ho'
  have hsame := (serverWaitMot_frame env fuel h (some Properties.create) w' ho).1.out
  have himg := fun hret => C59_images_as_declared env h (some Properties.create) w' hret (.inr ⟨fuel, ho⟩)
  have key : w.handle = some w'.handle ∧ w.images = w'.images ∧ (w.ret = w'.ret ∨ w.ret = TRAX_ERROR) := by
    unfold Cpp.takeObject at hw
    split at hw
    · cases hw
      exact ⟨rfl, rfl, .inl rfl⟩
    · split at hw
      · obtain ⟨-, -, hw⟩ := map_eq_ok hw
        cases hw
        exact ⟨rfl, rfl, .inr rfl⟩
      · obtain ⟨x, -, hw⟩ := bind_eq_ok hw
        obtain ⟨-, -, hw⟩ := map_eq_ok hw
        cases hw
        exact ⟨rfl, rfl, .inl rfl⟩
  obtain ⟨k1, k2, k3⟩ := key
  refine ⟨w'.handle, k1, hsame, fun hret => ?_⟩
  have hret' : w'.ret = TRAX_INITIALIZE ∨ w'.ret = TRAX_FRAME := by
    rcases k3 with k3 | k3
    · rw [← k3]; exact hret
    · rw [k3] at hret; rcases hret with h | h <;> cases h
  obtain ⟨images, hi, hd⟩ := himg hret'
  obtain ⟨o, ho1, ho2, ho3⟩ := hd 1 (.inl rfl)
  rw [hm.2] at ho2
  rw [hm.1] at ho3
  have hsome : o.isSome = true := ho2.mpr (by decide)
  obtain ⟨img, rfl⟩ := Option.isSome_iff_exists.mp hsome
  have hurl : ∃ u, img = .url u := by
    have := ho3 img rfl
    cases img with
    | url u => exact ⟨u, rfl⟩
    | path => exact absurd (by decide : (2 : UInt32) &&& 1 = 0) this
    | memory => exact absurd (by decide : (2 : UInt32) &&& 4 = 0) this
    | buffer => exact absurd (by decide : (2 : UInt32) &&& 8 = 0) this
  obtain ⟨u, rfl⟩ := hurl
  rw [k2, hi]
  cases images with
  | nil => cases ho1
  | cons x rest =>
    cases (show Outcome.ok x = Outcome.ok _ from ho1)
    exact ⟨u, rest, rfl⟩

theorem frameOf_url (cv : Reader) (u : Str) (rest : ImageList) : frameOf cv (some (some (.url u) :: rest)) = .ok Ocv.Mat.empty := rfl

/-- **C152** does not hold for the interactive tracker. Whatever a client sends and whatever the user does, the first request is not answered: if the program does not fail, it ends
without having written anything after its introduction (and then it writes a message to quit). -/
theorem C152_interactive_false (env : Env) (cv : Reader) (fuel : Nat) (user : List Moment) (junk : UInt32) (stream : Stream) (input : List InEv) (p : Interactive)
    (next : Next Interactive) (hp : interactiveBegin junk stream = .ok p)
    (hn : interactiveTurn env cv fuel user { p with handle := { p.handle with stream := { p.handle.stream with input := input } } } = some (.ok next)) :
    ∃ h, next = .stop h ∧ h.stream.out = p.handle.stream.out := by
  unfold interactiveBegin at hp
  obtain ⟨h, hs, hp⟩ := map_eq_ok hp
  subst hp
  dsimp only at hn ⊢
  unfold interactiveTurn at hn
  dsimp only at hn
  split at hn
  · cases hn
  · cases hn
  · cases hn
  next w hw =>
  obtain ⟨h', w1, w2, w3⟩ := wait_given (h := { h with stream := { h.stream with input := input } }) (show h.metadata.images = 2 ∧ h.metadata.channels = 1 from server_ready hs) hw
  split at hn
  · cases hn
    exact ⟨_, rfl, by rw [w1]; exact w2⟩
  · next hret =>
    obtain ⟨u, rest, hi⟩ := w3 (by
      by_cases h : w.ret = TRAX_INITIALIZE
      · exact .inl h
      · exact .inr (by by_contra h'; exact hret ⟨h, h'⟩))
    rw [hi, frameOf_url] at hn
    split at hn
    · cases hn
    · cases hn
    · cases hn

theorem reply_writes {env : Env} {g : Handle} {x y w h : Flt} {o : Int × Option Handle × Option Properties}
    (hx : Cpp.serverReplyRegion env (some g) (some (.rectangle x y w h)) (some Properties.create) = .ok o) :
    ∃ h', o.2.1 = some h' ∧ (h'.stream.out = g.stream.out ∨ ∃ text, (Region.rectangle x y w h).string = .ok (some text) ∧
      h'.stream.out = g.stream.out.writeMessage .state [text] Properties.create) := by
  unfold Cpp.serverReplyRegion at hx
  have e : Cpp.oneObject env (some (.rectangle x y w h)) = .ok [(some (.rectangle x y w h), Properties.create)] := rfl
  dsimp only at hx
  rw [e, Outcome.bind_ok] at hx
  obtain ⟨⟨ret, h'⟩, hr, hx⟩ := bind_eq_ok hx
  obtain ⟨-, -, hx⟩ := map_eq_ok hx
  subst hx
  refine ⟨h', rfl, ?_⟩
  unfold serverReplyMot at hr
  split at hr
  · cases hr
  dsimp only at hr
  split at hr
  · cases hr; exact .inl rfl
  split at hr
  · cases hr; exact .inl rfl
  split at hr
  · cases hr; exact .inl rfl
  unfold replyLoop at hr
  obtain ⟨data, hd, hr⟩ := bind_eq_ok hr
  cases data with
  | none => cases hr; exact .inl rfl
  | some text => cases hr; exact .inr ⟨text, hd, rfl⟩

theorem selectionOf_rectangle {r : Option Region} {s : Ocv.Rect} (h : selectionOf r = .ok s) : ∃ x y w h, r = some (.rectangle x y w h) := by
  cases r with
  | none => cases h
  | some r =>
    cases r with
    | rectangle x y w l => exact ⟨x, y, w, l, rfl⟩
    | special => cases h
    | polygon => cases h
    | mask => cases h

/-- **C152** does not hold for the tracker with `CamShift`. Whatever a client sends, and whatever OpenCV computes: if the program does not fail, it ends with the first request. It has
written nothing after its introduction, or the region of the initialization. No other frame is answered. -/
theorem C152_camshift_false {η : Type} (env : Env) (cv : Reader) (E : Engine η) (fuel : Nat) (junk : UInt32) (stream : Stream) (input : List InEv) (p : Camshift η)
    (next : Next (Camshift η)) (hp : camshiftBegin junk stream = .ok p)
    (hn : camshiftTurn env cv E fuel { p with handle := { p.handle with stream := { p.handle.stream with input := input } } } = some (.ok next)) :
    ∃ h, next = .stop h ∧ (h.stream.out = p.handle.stream.out ∨
      ∃ x y width height text, (Region.rectangle x y width height).string = .ok (some text) ∧
        h.stream.out = p.handle.stream.out.writeMessage .state [text] Properties.create) := by
  unfold camshiftBegin at hp
  obtain ⟨h, hs, hp⟩ := map_eq_ok hp
  subst hp
  dsimp only at hn ⊢
  unfold camshiftTurn at hn
  obtain ⟨o, ho, hn⟩ := Option.map_eq_some_iff.mp hn
  obtain ⟨w, ho', hn⟩ := bind_eq_ok hn
  rw [ho'] at ho
  dsimp only at ho hn
  obtain ⟨h', w1, w2, w3⟩ := wait_given (h := { h with stream := { h.stream with input := input } }) (show h.metadata.images = 2 ∧ h.metadata.channels = 1 from server_ready hs) ho
  rw [w1] at hn
  split at hn
  · next hret =>
    obtain ⟨u, rest, hi⟩ := w3 (.inl hret)
    obtain ⟨selection, hsel, hn⟩ := bind_eq_ok hn
    obtain ⟨rx, ry, rw', rh, hreg⟩ := selectionOf_rectangle hsel
    rw [hreg] at hn
    obtain ⟨levels, -, hn⟩ := bind_eq_ok hn
    obtain ⟨x, hx, hn⟩ := bind_eq_ok hn
    obtain ⟨h₂, x1, x2⟩ := reply_writes hx
    unfold camshiftTrack at hn
    rw [hi, frameOf_url, Outcome.bind_ok, if_pos (by decide), x1] at hn
    cases hn
    refine ⟨h₂, rfl, ?_⟩
    rcases x2 with x2 | ⟨text, x3, x4⟩
    · exact .inl (x2.trans w2)
    · exact .inr ⟨_, _, _, _, text, x3, by rw [x4]; show (h'.stream.out).writeMessage _ _ _ = _; rw [w2]⟩
  · split at hn
    · cases hn
      exact ⟨h', rfl, .inl w2⟩
    · cases hn
      exact ⟨h', rfl, .inl w2⟩

/-! ## Examples -/

namespace Demo

/-- All images can be read. -/
def reader : Reader := ⟨fun _ => ⟨4, 4, 12, .u8c3, List.replicate 48 0⟩, fun _ => ⟨4, 4, 12, .u8c3, List.replicate 48 0⟩⟩

/-- The interactive tracker gets a text: whether it fails (`none`), or whether it goes on, and what it has written since then. -/
def asked (text : Str) : Option (Option (Bool × Str)) :=
  match interactiveBegin 0 ⟨none, [], Trax.Demo.unwritten⟩ with
  | .ok p =>
    (interactiveTurn Trax.Demo.quiet reader 9 [⟨[(5, 5)], -1⟩] { p with handle := Link.reads p.handle text }).map fun
      | .ok (.go q) => some (true, q.handle.stream.out.sent.drop p.handle.stream.out.sent.length)
      | .ok (.stop h) => some (false, h.stream.out.sent.drop p.handle.stream.out.sent.length)
      | _ => none
  | _ => none

/-- An engine that does not move. -/
def still : Engine Unit := ⟨fun _ _ _ => some (), fun _ _ _ w => w⟩

/-- The same for the tracker with `CamShift`. -/
def askedShift (text : Str) : Option (Option (Bool × Str)) :=
  match camshiftBegin (η := Unit) 0 ⟨none, [], Trax.Demo.unwritten⟩ with
  | .ok p =>
    (camshiftTurn Trax.Demo.quiet reader still 9 { p with handle := Link.reads p.handle text }).map fun
      | .ok (.go q) => some (true, q.handle.stream.out.sent.drop p.handle.stream.out.sent.length)
      | .ok (.stop h) => some (false, h.stream.out.sent.drop p.handle.stream.out.sent.length)
      | _ => none
  | _ => none

end Demo

/-- A path is refused, with a URL the window cannot show the image. -/
example : Demo.asked b!"@@TRAX:initialize \"1,2,3,4\" \n@@TRAX:frame \"file:///a.jpg\" \n" = some (some (false, [])) := by decide +kernel
example : Demo.asked b!"@@TRAX:initialize \"1,2,3,4\" \n@@TRAX:frame \"http://a/b.jpg\" \n" = some none := by decide +kernel

/-- The tracker with `CamShift` answers with the region that it got, and ends. For a polygon, which it asks for, it fails. -/
example : Demo.askedShift b!"@@TRAX:initialize \"1,2,3,4\" \n@@TRAX:frame \"http://a/b.jpg\" \n" =
    some (some (false, b!"@@TRAX:state \"1.0000,2.0000,3.0000,4.0000\" \n")) := by decide +kernel
example : Demo.askedShift b!"@@TRAX:initialize \"1,2,3,2,3,4,1,4\" \n@@TRAX:frame \"http://a/b.jpg\" \n" = some none := by decide +kernel

/-- **C152** does not hold for a run of `traxclient` with the interactive tracker: it ends with an error and without a result. -/
theorem C152_run_false :
    ((Cli.cliMain (Trax.Demo.behind (interactive Trax.Demo.quiet Demo.reader [⟨[(5, 5)], -1⟩] 0 ⟨none, [], Trax.Demo.unwritten⟩)) Trax.Demo.commandLine).map fun e =>
      (e.status, e.written)) = .ok (-1, []) := by decide +kernel

end Trax.Cv
