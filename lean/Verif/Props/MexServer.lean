import Verif.Spec.MexServer
import Verif.Props.MatlabData
import Verif.Props.CppHandle
import Verif.Props.Session
import Verif.Props.Endpoint
import Verif.Lemmas.Environment

/-!
# C128–C130: the MATLAB function `traxserver`
-/

namespace Trax
open Mex Spec

/-! ## C128: `setup` -/

theorem anyCase_lower {s name : Str} (hn : ∀ c ∈ name, 97 ≤ c.toNat ∧ c.toNat ≤ 122) : lower s = name ↔ AnyCase s name := lower_eq s name hn

theorem anyCase_noNul {s name : Str} (hn : ∀ c ∈ name, 97 ≤ c.toNat ∧ c.toNat ≤ 122) (h : AnyCase s name) : NoNul s := by
  intro c hc e
  subst e
  obtain ⟨i, hi, h0⟩ := List.getElem_of_mem hc
  have hl := h.length_eq
  have := (List.forall₂_iff_get.mp h).2 i hi (by omega)
  have hb := hn _ (List.getElem_mem (l := name) (n := i) (by omega))
  simp only [List.get_eq_getElem, h0] at this
  rcases this with e | ⟨h1, _, _⟩
  · rw [← e] at hb; revert hb; decide
  · revert h1; decide

theorem names_noNul {table : List (Str × UInt32)} (ht : ∀ e ∈ table, ∀ c ∈ e.1, 97 ≤ c.toNat ∧ c.toNat ≤ 122) {s : Str} {c : UInt32}
    (h : Names table s c) : NoNul s := by
  obtain ⟨name, hin, hf⟩ := h
  exact anyCase_noNul (ht _ hin) hf

theorem cellTexts_map {l : List Str} (h : ∀ s ∈ l, NoNul s) : cellTexts (l.map .text) = some l := by
  induction l with
  | nil => rfl
  | cons s l ih =>
    rw [List.map_cons]
    unfold cellTexts
    rw [ih fun t ht => h t (List.mem_cons_of_mem _ ht), cstr_of_noNul (h s List.mem_cons_self)]
    rfl

/-- A set is determined by what it names. -/
theorem union_unique {table : List (Str × UInt32)} (hpow : Powers table) {l : List Str} {c d : UInt32} (hc : Union table l c) (hd : Union table l d) :
    c = d := by
  apply UInt32.toNat_inj.mp
  apply Nat.eq_of_testBit_eq
  intro i
  rw [Bool.eq_iff_iff]
  have : ∀ a b : UInt32, Union table l a → Union table l b → a.toNat.testBit i = true → b.toNat.testBit i = true := by
    intro a b ha hb h
    obtain ⟨name, code, hin, hi⟩ := ha.2 i h
    have h1 := (ha.1 name code hin).mp ((and_power hi).mpr h)
    exact (and_power hi).mp ((hb.1 name code hin).mpr h1)
  exact ⟨this c d hc hd, this d c hd hc⟩

theorem flagsArg_says {table : List (Str × UInt32)} {parser : Str → Option UInt32} (hp : ∀ s c, parser s = some c ↔ Names table s c)
    (hpow : Powers table) (ht : ∀ e ∈ table, ∀ c ∈ e.1, 97 ≤ c.toNat ∧ c.toNat ≤ 122) {c : UInt32} {a : Arg} (h : Says table c a) :
    flagsArg parser a = .ok (some c) := by
  cases h with
  | one s h =>
    show Outcome.ok ((some (cstr s)).bind fun s => getFlags parser (.one s)) = _
    rw [cstr_of_noNul (names_noNul ht h)]
    show Outcome.ok (parser s) = _
    rw [(hp s c).mpr h]
  | many m n l hv hl hn h =>
    unfold flagsArg
    dsimp only
    rw [cellTexts_map fun s hs => by obtain ⟨code, hc⟩ := hn s hs; exact names_noNul ht hc]
    obtain ⟨d, h1, h2⟩ := (getFlags_union hp hpow hv hl).1 hn
    dsimp only
    rw [h1, union_unique hpow h2 h]

theorem says_nonzero {table : List (Str × UInt32)} (hpow : Powers table) {c : UInt32} {a : Arg} (h : Says table c a) : c ≠ 0 := by
  have key : ∀ code name, (name, code) ∈ table → code ≠ 0 := by
    rintro code name hin rfl
    obtain ⟨i, hi⟩ := hpow name 0 hin
    have := Nat.two_pow_pos i
    rw [← hi] at this
    exact absurd this (by decide)
  cases h with
  | one s h => obtain ⟨name, hin, _⟩ := h; exact key _ _ hin
  | many m n l hv hl hn h =>
    cases l with
    | nil => simp at hl; omega
    | cons s l =>
      obtain ⟨code, hc⟩ := hn s List.mem_cons_self
      obtain ⟨name, hin, hf⟩ := hc
      have := (h.1 name code hin).mpr ⟨s, List.mem_cons_self, name, hin, hf⟩
      rintro rfl
      exact this (by simp)

theorem says_within {table : List (Str × UInt32)} (hpow : Powers table) {c mask : UInt32} (hm : ∀ e ∈ table, mask &&& e.2 ≠ 0) {a : Arg} (h : Says table c a) :
    c &&& mask = c := by
  have key : (∀ i, c.toNat.testBit i = true → ∃ name code, (name, code) ∈ table ∧ code.toNat = 2 ^ i) → c &&& mask = c := by
    intro hc
    apply UInt32.toNat_inj.mp
    apply Nat.eq_of_testBit_eq
    intro i
    rw [UInt32.toNat_and, Nat.testBit_and]
    cases hi : c.toNat.testBit i with
    | false => rfl
    | true =>
      obtain ⟨name, code, hin, e⟩ := hc i hi
      rw [(and_power e).mp (hm _ hin)]; rfl
  cases h with
  | one s h =>
    obtain ⟨name, hin, _⟩ := h
    obtain ⟨i, hi⟩ := hpow _ _ hin
    apply key
    intro j hj
    rw [hi, Nat.testBit_two_pow] at hj
    exact ⟨name, c, hin, by rw [hi]; congr 1; simpa using hj⟩
  | many m n l hv hl hn h => exact key h.2

theorem lowercase_regions : ∀ e ∈ mexRegions, ∀ c ∈ e.1, 97 ≤ c.toNat ∧ c.toNat ≤ 122 := by decide
theorem lowercase_images : ∀ e ∈ mexImages, ∀ c ∈ e.1, 97 ≤ c.toNat ∧ c.toNat ≤ 122 := by decide
theorem lowercase_channels : ∀ e ∈ mexChannels, ∀ c ∈ e.1, 97 ≤ c.toNat ∧ c.toNat ≤ 122 := by decide
theorem lowercase_reserved : ∀ e ∈ reservedNames, ∀ c ∈ e, 97 ≤ c.toNat ∧ c.toNat ≤ 122 := by decide

theorem getString_text {s : Str} (h : NoNul s) : getString (.mx (.text s)) = .ok (some s) := by
  show Outcome.ok (some (cstr s)) = _
  rw [cstr_of_noNul h]

theorem withText_text {α : Type} {args : List Arg} {i : Nat} {s : Str} {f : Str → Outcome (Option α)} (ha : args[i]? = some (.mx (.text s)))
    (hs : NoNul s) : withText args i f = f s := by
  unfold withText argAt
  rw [ha]
  dsimp only
  rw [Outcome.bind_ok, getString_text hs, Outcome.bind_ok]

theorem isPropertyName_lower {k : Str} (h : ValidKey k) : isPropertyName (lower k) = true := by
  unfold isPropertyName lower
  rw [List.all_map, List.all_eq_true]
  intro c hc
  have hk := h.2 c hc
  revert hk
  have : ∀ n : Fin 256, (isAlnum (UInt8.ofNat n) = true ∨ UInt8.ofNat n = ch%'.' ∨ UInt8.ofNat n = ch%'_') →
      (isAlpha (toLower (UInt8.ofNat n)) || isDigit (toLower (UInt8.ofNat n)) || toLower (UInt8.ofNat n) = ch%'.' || toLower (UInt8.ofNat n) = ch%'_') = true := by
    decide +kernel
  have hc := this ⟨c.toNat, c.toNat_lt⟩
  rw [show UInt8.ofNat (⟨c.toNat, c.toNat_lt⟩ : Fin 256) = c from UInt8.ofNat_toNat] at hc
  exact hc

/-- The variables after a named argument. -/
def Mex.Declared.after (d : Declared) : Named → Declared
  | .name s => { d with name := s }
  | .description s => { d with description := s }
  | .family s => { d with family := s }
  | .channels c => { d with channels := c }
  | .custom k v => { d with custom := d.custom.set k v }

theorem setupPair_written {n : Named} {k v : Arg} (h : n.Written k v) {args : List Arg} {i : Nat} (hk : args[i]? = some k)
    (hv : args[i + 1]? = some v) (d : Declared) : setupPair args i d = .ok (some (d.after n)) := by
  unfold setupPair
  cases h with
  | name s k hc hs =>
    rw [withText_text hk (anyCase_noNul (by decide) hc)]
    have : argumentCode k = some 1 := by unfold argumentCode; rw [(anyCase_lower (by decide)).mpr hc]; rfl
    rw [this]
    show withText args (i + 1) _ = _
    rw [withText_text hv (plain_noNul hs)]
    rfl
  | description s k hc hs =>
    rw [withText_text hk (anyCase_noNul (by decide) hc)]
    have : argumentCode k = some 3 := by unfold argumentCode; rw [(anyCase_lower (by decide)).mpr hc]; rfl
    rw [this]
    show withText args (i + 1) _ = _
    rw [withText_text hv (plain_noNul hs)]
    rfl
  | family s k hc hs =>
    rw [withText_text hk (anyCase_noNul (by decide) hc)]
    have : argumentCode k = some 2 := by unfold argumentCode; rw [(anyCase_lower (by decide)).mpr hc]; rfl
    rw [this]
    show withText args (i + 1) _ = _
    rw [withText_text hv (plain_noNul hs)]
    rfl
  | channels c k a hc ha =>
    rw [withText_text hk (anyCase_noNul (by decide) hc)]
    have : argumentCode k = some 11 := by unfold argumentCode; rw [(anyCase_lower (by decide)).mpr hc]; rfl
    rw [this]
    show (argAt args (i + 1)).bind _ = _
    unfold argAt
    rw [hv]
    dsimp only
    rw [Outcome.bind_ok, flagsArg_says channelCode_iff powers_channel lowercase_channels ha]
    rfl
  | custom key value hkey hr ht hs =>
    rw [withText_text hk hkey.noNul]
    have hno : ∀ w ∈ reservedNames, lower key ≠ w := fun w hw e => hr w hw ((anyCase_lower (lowercase_reserved w hw)).mp e)
    have : argumentCode key = some (-1) := by
      unfold argumentCode
      rw [if_neg (hno _ (by decide)), if_neg (hno _ (by decide)), if_neg (hno _ (by decide)), if_neg (hno _ (by decide)), if_neg (hno _ (by decide)),
        if_neg (hno _ (by decide)), if_neg (hno _ (by decide)), if_neg (hno _ (by decide)), if_neg (hno _ (by decide)), if_neg (hno _ (by decide)),
        if_neg (hno _ (by decide)), if_neg (hno _ (by decide)), if_pos (isPropertyName_lower hkey)]
    rw [this]
    show (if b!"trax.".isPrefixOf key = true then _ else withText args (i + 1) _) = _
    rw [if_neg (by rw [List.isPrefixOf_iff_prefix]; exact ht), withText_text hv (plain_noNul hs)]
    rfl

theorem writtenAll_even {ns : List Named} {as : List Arg} (h : WrittenAll ns as) : as.length = 2 * ns.length := by
  induction h with
  | nil => rfl
  | cons n k v ns as h hs ih => simp only [List.length_cons, ih]; omega

theorem setupLoop_written {ns : List Named} {as : List Arg} (h : WrittenAll ns as) (pre : List Arg) (m : Nat) (hm : ns.length ≤ m) (hp : pre.length % 2 = 1)
    (d : Declared) : setupLoop (pre ++ as) m pre.length d = .ok (some (ns.foldl Declared.after d)) := by
  induction h generalizing pre m d with
  | nil =>
    cases m with
    | zero => rfl
    | succ m =>
      unfold setupLoop pairsEnd
      rw [List.append_nil, if_neg (by omega)]
      rfl
  | cons n k v ns as hw hs ih =>
    obtain ⟨m, rfl⟩ : ∃ m', m = m' + 1 := ⟨m - 1, by simp at hm; omega⟩
    unfold setupLoop pairsEnd
    rw [if_pos (by simp only [List.length_append, List.length_cons]; omega), setupPair_written hw (by simp) (by simp)]
    rw [Outcome.bind_ok]
    dsimp only
    have := ih (pre ++ [k, v]) m (by simp at hm; omega) (by simp; omega) (d.after n)
    rw [List.append_assoc, List.length_append] at this
    exact this

theorem foldl_after (ns : List Named) (d : Declared) :
    ns.foldl Declared.after d = ⟨lastOf Named.name? d.name ns, lastOf Named.description? d.description ns, lastOf Named.family? d.family ns,
      lastOf Named.channels? d.channels ns, Environ.assign d.custom (ns.filterMap Named.custom?)⟩ := by
  have hlast : ∀ {α : Type} (x e : α) (l : List α), (x :: l).getLast?.getD e = l.getLast?.getD x := by
    intro α x e l
    cases l with
    | nil => rfl
    | cons y l => rw [List.getLast?_cons_cons, List.getLast?_eq_some_getLast (by simp)]; rfl
  induction ns generalizing d with
  | nil => rfl
  | cons n ns ih =>
    rw [List.foldl_cons, ih]
    unfold lastOf
    cases n <;> simp [Declared.after, List.filterMap_cons, Named.name?, Named.description?, Named.family?, Named.channels?, Named.custom?, hlast, Environ.assign]

theorem fold_set_iff (l : List (Str × Str)) (b : AMap) (n v : Str) :
    (l.foldl (fun (b : AMap) kv => AMap.set b kv.1 kv.2) b) n = some v ↔ LastGiven l n v ∨ (NotGiven l n ∧ b n = some v) := by
  induction l generalizing b with
  | nil => simp [LastGiven, NotGiven]
  | cons e l ih =>
    obtain ⟨k, w⟩ := e
    rw [List.foldl_cons, ih]
    unfold AMap.set
    constructor
    · rintro (⟨x, y, rfl, h⟩ | ⟨h, h2⟩)
      · exact .inl ⟨(k, w) :: x, y, rfl, h⟩
      · dsimp only at h2
        by_cases e : n = k
        · rw [if_pos e] at h2; cases h2; subst e; exact .inl ⟨[], l, rfl, h⟩
        · rw [if_neg e] at h2
          refine .inr ⟨?_, h2⟩
          intro p hp
          rcases List.mem_cons.1 hp with rfl | hp
          · exact Ne.symm e
          · exact h p hp
    · rintro (⟨x, y, he, h⟩ | ⟨h, h2⟩)
      · cases x with
        | nil =>
          simp only [List.nil_append, List.cons.injEq, Prod.mk.injEq] at he
          obtain ⟨⟨rfl, rfl⟩, rfl⟩ := he
          exact .inr ⟨h, by simp⟩
        | cons z x =>
          simp only [List.cons_append, List.cons.injEq] at he
          exact .inl ⟨x, y, he.2, h⟩
      · refine .inr ⟨fun p hp => h p (List.mem_cons_of_mem _ hp), ?_⟩
        dsimp only
        rw [if_neg (fun e => h (k, w) List.mem_cons_self e.symm)]
        exact h2

theorem sorted_lastGiven {m : Environ.EnvMap} (hm : Environ.Sorted m) (n v : Str) : LastGiven m n v ↔ (n, v) ∈ m := by
  refine ⟨Environ.LastGiven.mem, fun h => ?_⟩
  obtain ⟨x, y, rfl⟩ := List.append_of_mem h
  refine ⟨x, y, rfl, fun p hp e => ?_⟩
  have := (List.pairwise_cons.mp (List.pairwise_append.mp hm).2.1).1 p hp
  rw [e, Environ.strLt_irrefl] at this
  cases this

theorem fold_assign (l : List (Str × Str)) :
    (Environ.assign [] l).foldl (fun (b : AMap) kv => AMap.set b kv.1 kv.2) AMap.empty = l.foldl (fun (b : AMap) kv => AMap.set b kv.1 kv.2) AMap.empty := by
  funext n
  apply Option.ext
  intro v
  rw [fold_set_iff, fold_set_iff, sorted_lastGiven (Environ.assign_sorted Environ.sorted_nil l), Environ.mem_assign l Environ.sorted_nil]
  simp [AMap.empty]

theorem written_named {ns : List Named} {as : List Arg} (h : WrittenAll ns as) : ∀ n ∈ ns, ∃ k v, n.Written k v := by
  induction h with
  | nil => intro n hn; cases hn
  | cons n k v ns as h hs ih =>
    intro m hm
    rcases List.mem_cons.mp hm with rfl | hm
    · exact ⟨k, v, h⟩
    · exact ih m hm

theorem lastOf_property {α : Type} {f : Named → Option α} {d : α} {ns : List Named} (P : α → Prop) (hd : P d) (h : ∀ n ∈ ns, ∀ a, f n = some a → P a) :
    P (lastOf f d ns) := by
  unfold lastOf
  cases e : (ns.filterMap f).getLast? with
  | none => exact hd
  | some a =>
    obtain ⟨n, hn, hf⟩ := List.mem_filterMap.mp (List.mem_of_getLast? e)
    exact h n hn a hf

theorem written_declaration {ns : List Named} {as : List Arg} (h : WrittenAll ns as) {regions images : UInt32} {ra ia : Arg}
    (hr : Says mexRegions regions ra) (hi : Says mexImages images ia) :
    CppDeclaration ⟨regions, images, lastOf Named.channels? 1 ns, lastOf Named.name? [] ns, lastOf Named.description? [] ns,
      lastOf Named.family? [] ns, 0⟩ (Environ.assign [] (ns.filterMap Named.custom?)) := by
  have hw := written_named h
  have hplain : Plain [] := by decide
  refine ⟨says_within powers_region (by decide) hr, says_within powers_image (by decide) hi, ?_, ?_, ?_, ?_, ?_⟩
  · refine lastOf_property (fun c => c &&& 7 = c ∧ c ≠ 0) (by decide) ?_
    intro n hn c hc
    obtain ⟨k, v, hkv⟩ := hw n hn
    cases hkv with
    | channels c' k a hk ha => cases hc; exact ⟨says_within powers_channel (by decide) ha, says_nonzero powers_channel ha⟩
    | _ => cases hc
  · refine lastOf_property Plain hplain ?_
    intro n hn c hc
    obtain ⟨k, v, hkv⟩ := hw n hn
    cases hkv with
    | name s k hk hs => cases hc; exact hs
    | _ => cases hc
  · refine lastOf_property Plain hplain ?_
    intro n hn c hc
    obtain ⟨k, v, hkv⟩ := hw n hn
    cases hkv with
    | description s k hk hs => cases hc; exact hs
    | _ => cases hc
  · refine lastOf_property Plain hplain ?_
    intro n hn c hc
    obtain ⟨k, v, hkv⟩ := hw n hn
    cases hkv with
    | family s k hk hs => cases hc; exact hs
    | _ => cases hc
  · rintro ⟨k, v⟩ hkv
    rcases (Environ.mem_assign _ Environ.sorted_nil k v).mp hkv with hl | ⟨_, hl⟩
    · obtain ⟨n, hn, hf⟩ := List.mem_filterMap.mp (Environ.LastGiven.mem hl)
      obtain ⟨a, b, hab⟩ := hw n hn
      cases hab with
      | custom key value h1 h2 h3 h4 => cases hf; exact ⟨h1, h4, h3⟩
      | _ => cases hf
    · cases hl

/-- **C128, what holds.** `traxserver('setup', regions, images, …)` with formats and named arguments as a user may write them makes a server; a
client that reads what was sent gets exactly the formats, channels (colour, if none are given), texts and custom properties, of each
the value that is given last, and a tracker for one object. A client that is connected to the server (and to nothing else) is in a session with it. -/
theorem C128_setup_partial (sr : Surroundings) (fuel nlhs : Nat) (hl : nlhs ≤ 1) (op : Str) (hop : AnyCase op b!"setup") (regions images : UInt32) (ra ia : Arg)
    (hr : Says mexRegions regions ra) (hi : Says mexImages images ia) (ns : List Named) (as : List Arg) (hn : WrittenAll ns as) (st : Mex.State)
    (hout : sr.stream.out.Reliable) :
    ∃ h news, traxserver sr fuel nlhs (.mx (.text op) :: ra :: ia :: as) st =
        some (.ok (.values (if nlhs = 1 then [.logical true] else []), ⟨some h, st.closed⟩)) ∧
      h.stream.out.sent = sr.stream.out.sent ++ news ∧
      (∀ (mt : Option MsgType) (rest : List InEv) (out : Writer),
        ∃ c r, Handle.clientSetup ⟨mt, bytes news ++ rest, out⟩ = .ok (some c) ∧ Cpp.handleMetadata (some c) = .ok r ∧
          Cpp.regionFormats r = regions ∧ Cpp.imageFormats r = images ∧ Cpp.metadataChannels r = lastOf Named.channels? 1 ns ∧
          Cpp.trackerName r = lastOf Named.name? [] ns ∧ Cpp.trackerDescription r = lastOf Named.description? [] ns ∧
          Cpp.trackerFamily r = lastOf Named.family? [] ns ∧ (∀ k, NoNul k → c.metadata.custom.get k = customOf ns k) ∧ c.isMulti = false) ∧
      (sr.stream.input = [] → ∀ out : Writer, out.Reliable →
        ∃ c, Handle.clientSetup ⟨none, bytes news, out⟩ = .ok (some c) ∧ Connected c h 0 ∧ c.metadata.regions = regions ∧
          h.metadata.images = images ∧ h.metadata.channels = lastOf Named.channels? 1 ns) := by
  have hd := written_declaration hn hr hi
  obtain ⟨m, h, news, h1, h2, h3, h4⟩ := C107_declared_partial _ _ hd true sr.junk sr.stream hout
  have halive : h.isAlive = true ∧ (sr.stream.input = [] → ∀ out : Writer, out.Reliable →
        ∃ c, Handle.clientSetup ⟨none, bytes news, out⟩ = .ok (some c) ∧ Connected c h 0 ∧ c.metadata.regions = regions ∧
          h.metadata.images = images ∧ h.metadata.channels = lastOf Named.channels? 1 ns) := by
    have hI := hd.introducible true
    have e : Cpp.constructServer true sr.junk m sr.stream = Handle.serverSetup sr.junk m sr.stream 4 := rfl
    rw [e] at h2
    have hm := Outcome.ok.inj (h1.symm.trans (declare_eq hd))
    rw [hm] at h2
    obtain ⟨s', news', g1, g2, g3, g4, -⟩ := C31_handshake_partial _ _ 4 hI sr.junk sr.stream hout
    cases h2.symm.trans g1
    refine ⟨g4, fun hin out hout' => ?_⟩
    obtain ⟨s'', news'', c, k1, k2, k3, k4, k5, k6, k7, k8⟩ := C55_start _ _ hI sr.junk sr.stream hin hout out hout'
    cases h2.symm.trans k1
    have : news'' = news := List.append_cancel_left (k2.symm.trans h3)
    subst this
    exact ⟨c, k3, k4, k5, k6, k7⟩
  refine ⟨h, news, ?_, h3, fun mt rest out => ?_, halive.2⟩
  · have hop' : lower (cstr op) = b!"setup" := by
      rw [cstr_of_noNul (anyCase_noNul (by decide) hop)]; exact (anyCase_lower (by decide)).mpr hop
    unfold traxserver
    dsimp only [List.head?_cons]
    rw [if_pos hop']
    congr 1
    unfold setup
    have hloop := setupLoop_written hn [.mx (.text op), ra, ia] (.mx (.text op) :: ra :: ia :: as).length
      (by have := writtenAll_even hn; simp only [List.length_cons]; omega) (by simp) Declared.initial
    rw [foldl_after] at hloop
    have hloop' : (if (Arg.mx (.text op) :: ra :: ia :: as).length > 3
        then setupLoop (.mx (.text op) :: ra :: ia :: as) (Arg.mx (.text op) :: ra :: ia :: as).length 3 .initial else .ok (some .initial)) =
        .ok (some ⟨lastOf Named.name? [] ns, lastOf Named.description? [] ns, lastOf Named.family? [] ns, lastOf Named.channels? 1 ns,
          Environ.assign [] (ns.filterMap Named.custom?)⟩) := by
      split
      · exact hloop
      · next hlen =>
        have : ns = [] := by
          have := writtenAll_even hn
          simp only [List.length_cons] at hlen
          exact List.length_eq_zero_iff.mp (by omega)
        subst this
        rfl
    rw [if_neg (by simp only [List.length_cons]; omega), if_neg (by omega), hloop', Outcome.bind_ok]
    show (flagsArg regionCode ra).bind _ = _
    rw [flagsArg_says regionCode_iff powers_region lowercase_regions hr, Outcome.bind_ok]
    show (flagsArg imageCode ia).bind _ = _
    rw [flagsArg_says imageCode_iff powers_image lowercase_images hi, Outcome.bind_ok]
    dsimp only
    rw [h1, Outcome.bind_ok, h2, Outcome.bind_ok]
    simp only [halive.1, not_true, if_false]
  · obtain ⟨c, r, c1, c2, c3, c4, c5, c6, c7, c8, c9, c10⟩ := h4 mt rest out
    refine ⟨c, r, c1, c2, c3, c4, c5, c6, c7, c8, fun k hk => ?_, ?_⟩
    · rw [c9 k hk, fold_assign]; rfl
    · cases hm : c.isMulti with
      | false => rfl
      | true => exact absurd (by simp) ((c10.mp hm).2)

/-- Surroundings of MATLAB: a working connection. -/
def Demo.matlab : Surroundings := ⟨Demo.env, fun n => List.replicate n (Flt.zero, Flt.zero), 0, ⟨none, [], ⟨[], false, [], []⟩⟩⟩

/-- A call as in the documentation: `traxserver('setup', {'rectangle', 'polygon'}, 'path', 'Name', 'Example', 'threads', '4')`. -/
example : Says mexRegions 6 (.cell 1 2 [.text b!"rectangle", .text b!"polygon"]) ∧ Says mexImages 1 (.mx (.text b!"path")) ∧
    WrittenAll [.name b!"Example", .custom b!"threads" b!"4"]
      [.mx (.text b!"Name"), .mx (.text b!"Example"), .mx (.text b!"threads"), .mx (.text b!"4")] ∧
    customOf [.name b!"Example", .custom b!"threads" b!"4"] b!"threads" = some b!"4" := by
  have low : ∀ {s name : Str}, (∀ c ∈ name, 97 ≤ c.toNat ∧ c.toNat ≤ 122) → lower s = name → AnyCase s name := fun h e => (anyCase_lower h).mp e
  refine ⟨?_, ?_, .cons _ _ _ _ _ (.name _ _ (low (by decide) rfl) (by decide)) (.cons _ _ _ _ _ (.custom _ _ (by decide) ?_ (by decide) (by decide)) .nil), rfl⟩
  · have hn : ∀ s ∈ [b!"rectangle", b!"polygon"], ∃ c, Names mexRegions s c := by
      intro s hs
      simp only [List.mem_cons, List.not_mem_nil, or_false] at hs
      rcases hs with rfl | rfl
      · exact ⟨2, _, List.mem_cons_self, low (by decide) rfl⟩
      · exact ⟨4, _, List.mem_cons_of_mem _ List.mem_cons_self, low (by decide) rfl⟩
    obtain ⟨c, h1, h2⟩ := (getFlags_union regionCode_iff powers_region (rows := 1) (cols := 2) rfl rfl).1 hn
    have : c = 6 := (Option.some.inj h1).symm
    subst this
    exact .many 1 2 _ rfl rfl hn h2
  · exact .one _ ⟨_, List.mem_cons_self, low (by decide) rfl⟩
  · intro w hw h
    have h1 : ∀ w ∈ reservedNames, ∀ c ∈ w, 97 ≤ c.toNat ∧ c.toNat ≤ 122 := by decide
    have h2 : ∀ w ∈ reservedNames, lower b!"threads" ≠ w := by decide
    exact h2 w hw ((anyCase_lower (h1 w hw)).mpr h)

/-- **C128 fails.** An argument without a partner, as in `traxserver('setup', 'rectangle', 'path', 'name')`: the function reads beyond its arguments. -/
theorem C128_setup_false :
    traxserver Demo.matlab 9 0 [.mx (.text b!"setup"), .mx (.text b!"rectangle"), .mx (.text b!"path"), .mx (.text b!"name")] ⟨none, []⟩ = some .ub :=
  rfl

end Trax
