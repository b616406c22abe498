import Verif.Props.Handle
import Verif.Props.Formats

/-!
# Property theorems C31–C33: the introduction
-/

namespace Trax
open Spec Handle
open Region (bind_eq_ok map_eq_ok)

/-! ## Property objects that can be sent -/

/-- A property object with valid keys and plain values. -/
structure SendableProps (p : Properties) : Prop where
  wf : p.WF
  ok : ∀ k v, NoNul k → p.get k = some v → ValidKey k ∧ Plain v

theorem SendableProps.create : SendableProps Properties.create :=
  ⟨Properties.wf_create, fun k v _ h => by rw [Properties.get_create] at h; cases h⟩

theorem SendableProps.set {p : Properties} (hp : SendableProps p) {k v : Str} (hk : ValidKey k) (hv : Plain v) : SendableProps (p.set k v) := by
  refine ⟨Properties.wf_set hp.wf _ _, fun k' v' hn h => ?_⟩
  rw [Properties.get_set hp.wf, cstr_of_noNul hk.noNul, cstr_of_noNul hn, cstr_of_noNul (plain_noNul hv)] at h
  split at h
  · next he => subst he; cases h; exact ⟨hk, hv⟩
  · exact hp.ok k' v' hn h

theorem SendableProps.deliverable {p : Properties} (hp : SendableProps p) : Deliverable [] p.enumerate := by
  refine ⟨by simp, by simp, ?_, ?_⟩
  · rintro ⟨k, v⟩ h
    obtain ⟨h1, h2⟩ := (Properties.mem_enumerate hp.wf k v).mp h
    exact (hp.ok k v h1 h2).1
  · rintro ⟨k, v⟩ h
    obtain ⟨h1, h2⟩ := (Properties.mem_enumerate hp.wf k v).mp h
    exact (hp.ok k v h1 h2).2

theorem SendableProps.ofPairs {kvs : List (Str × Str)} (h : ∀ kv ∈ kvs, ValidKey kv.1 ∧ Plain kv.2) : SendableProps (Properties.ofPairs kvs) := by
  unfold Properties.ofPairs
  have : ∀ (p : Properties), SendableProps p → SendableProps (kvs.foldl (fun p kv => p.set kv.1 kv.2) p) := by
    induction kvs with
    | nil => exact fun p hp => hp
    | cons kv t ih =>
      intro p hp
      exact ih (fun kv hkv => h kv (by simp [hkv])) _ (hp.set (h kv (by simp)).1 (h kv (by simp)).2)
  exact this _ SendableProps.create

/-- Properties whose key does not begin with `trax.` are copied. -/
theorem copyExternal_get {p d : Properties} (hp : p.WF) (hd : d.WF) {k : Str} (hk : NoNul k) :
    (copyExternal p d).get k = if Properties.isInternalKey k then d.get k else (p.get k).or (d.get k) := by
  have e : copyExternal p d = (p.enumerate.filter fun kv => !Properties.isInternalKey kv.1).foldl Properties.copyOverwrite d := by
    have : copyExternal p d = p.enumerate.foldl Properties.copyExternalOverwrite d := by
      simp only [copyExternal, Properties.copyProperties]; rfl
    rw [this]
    clear this
    generalize p.enumerate = l
    induction l generalizing d with
    | nil => rfl
    | cons kv t ih =>
      rw [List.foldl_cons, List.filter_cons]
      cases hi : Properties.isInternalKey kv.1 with
      | true => simp only [Properties.copyExternalOverwrite, hi, if_true, Bool.not_true, Bool.false_eq_true, if_false]; exact ih hd
      | false =>
        simp only [Properties.copyExternalOverwrite, hi, Bool.not_false, if_true, Bool.false_eq_true, if_false, List.foldl_cons]
        exact ih (Properties.wf_set hd _ _)
  have hrep : PropRep d d.get := ⟨hd, fun _ _ => rfl⟩
  have := (hrep.foldl_set (p.enumerate.filter fun kv => !Properties.isInternalKey kv.1) ?_ ?_
    (fun k => if Properties.isInternalKey k then none else p.get k) ?_).2 k hk
  · rw [e, this]
    simp only [AMap.override]
    split <;> simp
  · exact ((StrMap.enum_keys_nodup hp).sublist (List.filter_sublist.map _))
  · intro kv hkv
    have hmem := (List.mem_filter.mp hkv).1
    obtain ⟨b, hb, hkv⟩ := List.mem_flatten.mp hmem
    exact hp.noNul b hb kv hkv
  · intro k v hk
    rw [List.mem_filter, Properties.mem_enumerate hp k v]
    cases hi : Properties.isInternalKey k with
    | true => simp
    | false => simp [hk]

/-! ## C31 -/

theorem plain_append {a b : Str} (ha : Plain a) (hb : Plain b) : Plain (a ++ b) := by
  intro c hc
  rcases List.mem_append.mp hc with h | h
  · exact ha c h
  · exact hb c h

theorem plain_ite {c : Bool} {a : Str} (ha : Plain a) : Plain (if c then a else []) := by
  cases c
  · intro c hc; cases hc
  · exact ha

theorem formats_plain (f : UInt32) : Plain (regionFormatsEncode f) ∧ Plain (imageFormatsEncode f) ∧ Plain (channelsEncode f) :=
  ⟨plain_append (plain_append (plain_ite (by decide)) (plain_ite (by decide))) (plain_ite (by decide)),
   plain_append (plain_append (plain_append (plain_ite (by decide)) (plain_ite (by decide))) (plain_ite (by decide))) (plain_ite (by decide)),
   plain_append (plain_append (plain_ite (by decide)) (plain_ite (by decide))) (plain_ite (by decide))⟩

/-- What a metadata record has to be in order to arrive unchanged: known formats and channels only, plain text, custom
properties with valid keys outside of the protocol's own `trax.`. -/
structure Spec.Introducible (m : Metadata) (kvs : List (Str × Str)) (version : Int) : Prop where
  versions : 1 ≤ version ∧ version ≤ 4
  regions : m.regions &&& 14 = m.regions
  images : m.images &&& 15 = m.images
  channels : m.channels &&& 7 = m.channels ∧ m.channels ≠ 0
  channels1 : version = 1 → m.channels = 1
  text : ∀ s, m.name = some s ∨ m.description = some s ∨ m.family = some s → Plain s
  custom : m.custom = Properties.ofPairs kvs
  kvs : ∀ kv ∈ kvs, ValidKey kv.1 ∧ Plain kv.2 ∧ ¬ b!"trax." <+: kv.1

/-- Setting an optional property. -/
def setOpt (p : Properties) (k : Str) (o : Option Str) : Properties := match o with | some s => p.set k s | none => p

theorem SendableProps.setOpt {p : Properties} (hp : SendableProps p) {k : Str} {o : Option Str} (hk : ValidKey k) (hv : ∀ v, o = some v → Plain v) :
    SendableProps (setOpt p k o) := by
  cases o with
  | none => exact hp
  | some v => exact hp.set hk (hv v rfl)

theorem get_setOpt {p : Properties} (hp : p.WF) {k k' : Str} {o : Option Str} (hk : NoNul k) (hk' : NoNul k') (ho : ∀ v, o = some v → NoNul v) :
    (setOpt p k o).get k' = if k = k' then o.or (p.get k') else p.get k' := by
  cases o with
  | none => simp [setOpt]
  | some v =>
    show (p.set k v).get k' = _
    rw [Properties.get_set hp, cstr_of_noNul hk, cstr_of_noNul hk', cstr_of_noNul (ho v rfl)]
    rfl

/-- The properties of the introduction as a chain of optional settings. -/
theorem helloProperties_eq (m : Metadata) (version : Int) : helloProperties m version =
    setOpt (setOpt (setOpt (setOpt (setOpt (setOpt (setOpt (setOpt m.custom.copy
      b!"trax.version" (some (fmtInt version))) b!"trax.region" (some (regionFormatsEncode m.regions)))
      b!"trax.image" (some (imageFormatsEncode m.images))) b!"trax.channels" (some (channelsEncode m.channels)))
      b!"trax.name" m.name) b!"trax.description" m.description) b!"trax.family" m.family)
      b!"trax.multiobject" (if version ≥ 4 ∧ supports m.flags 1 then some (fmtInt 1) else none) := by
  unfold helloProperties
  by_cases h : version ≥ 4 ∧ supports m.flags 1 = true
  · simp only [h, and_self, if_true]; rfl
  · simp only [h, if_false]; rfl

theorem internal_false {k : Str} : Properties.isInternalKey k = false ↔ ¬ b!"trax." <+: k := by
  unfold Properties.isInternalKey
  rw [← List.isPrefixOf_iff_prefix, Bool.not_eq_true]

theorem ofPairs_get_trax {kvs : List (Str × Str)} (h : ∀ kv ∈ kvs, ValidKey kv.1 ∧ Plain kv.2 ∧ ¬ b!"trax." <+: kv.1) {k : Str} (hk : NoNul k)
    (ht : b!"trax." <+: k) : (Properties.ofPairs kvs).get k = none := by
  have key : ∀ (p : Properties), p.WF → p.get k = none → (kvs.foldl (fun p kv => p.set kv.1 kv.2) p).get k = none := by
    induction kvs with
    | nil => exact fun p _ h => h
    | cons kv t ih =>
      intro p hp hg
      obtain ⟨h1, h2, h3⟩ := h kv (by simp)
      refine ih (fun kv hkv => h kv (by simp [hkv])) _ (Properties.wf_set hp _ _) ?_
      rw [Properties.get_set hp, cstr_of_noNul h1.noNul, cstr_of_noNul hk, if_neg ?_, hg]
      rintro rfl
      exact h3 ht
  exact key _ Properties.wf_create (Properties.get_create k)

/-- The properties of the introduction, one by one. -/
theorem helloProperties_spec {m : Metadata} {kvs : List (Str × Str)} {version : Int} (hm : Introducible m kvs version) :
    SendableProps (helloProperties m version) ∧
    (helloProperties m version).get b!"trax.version" = some (fmtInt version) ∧
    (helloProperties m version).get b!"trax.region" = some (regionFormatsEncode m.regions) ∧
    (helloProperties m version).get b!"trax.image" = some (imageFormatsEncode m.images) ∧
    (helloProperties m version).get b!"trax.channels" = some (channelsEncode m.channels) ∧
    (helloProperties m version).get b!"trax.name" = m.name ∧
    (helloProperties m version).get b!"trax.description" = m.description ∧
    (helloProperties m version).get b!"trax.family" = m.family ∧
    (helloProperties m version).get b!"trax.multiobject" = (if version ≥ 4 ∧ supports m.flags 1 then some (fmtInt 1) else none) ∧
    (∀ k, NoNul k → ¬ b!"trax." <+: k → (helloProperties m version).get k = m.custom.get k) ∧
    (∀ k, NoNul k → b!"trax." <+: k → m.custom.get k = none) := by
  obtain ⟨hv, hreg, himg, hch, hch1, htext, hcustom, hkvs⟩ := hm
  have hname : ∀ s, m.name = some s → Plain s := fun s h => htext s (.inl h)
  have hdesc : ∀ s, m.description = some s → Plain s := fun s h => htext s (.inr (.inl h))
  have hfam : ∀ s, m.family = some s → Plain s := fun s h => htext s (.inr (.inr h))
  have hcopy : m.custom.copy = m.custom := by
    rw [hcustom]; exact PropRep.copy (a := (Properties.ofPairs kvs).get) ⟨Properties.wf_ofPairs _, fun _ _ => rfl⟩
  have hsc : SendableProps m.custom := by
    rw [hcustom]; exact SendableProps.ofPairs fun kv h => ⟨(hkvs kv h).1, (hkvs kv h).2.1⟩
  have hmo : ∀ v, (if version ≥ 4 ∧ supports m.flags 1 then some (fmtInt 1) else none) = some v → Plain v := by
    intro v hv; split at hv <;> cases hv; exact fmtInt_plain 1
  have hnone : ∀ k, NoNul k → b!"trax." <+: k → m.custom.get k = none := by
    intro k hk ht; rw [hcustom]; exact ofPairs_get_trax hkvs hk ht
  rw [helloProperties_eq, hcopy]
  generalize (if version ≥ 4 ∧ supports m.flags 1 then some (fmtInt 1) else none) = multi at *
  have s1 := hsc.setOpt (k := b!"trax.version") (o := some (fmtInt version)) (by decide) (by rintro v ⟨⟩; exact fmtInt_plain _)
  have s2 := s1.setOpt (k := b!"trax.region") (o := some (regionFormatsEncode m.regions)) (by decide) (by rintro v ⟨⟩; exact (formats_plain _).1)
  have s3 := s2.setOpt (k := b!"trax.image") (o := some (imageFormatsEncode m.images)) (by decide) (by rintro v ⟨⟩; exact (formats_plain _).2.1)
  have s4 := s3.setOpt (k := b!"trax.channels") (o := some (channelsEncode m.channels)) (by decide) (by rintro v ⟨⟩; exact (formats_plain _).2.2)
  have s5 := s4.setOpt (k := b!"trax.name") (o := m.name) (by decide) hname
  have s6 := s5.setOpt (k := b!"trax.description") (o := m.description) (by decide) hdesc
  have s7 := s6.setOpt (k := b!"trax.family") (o := m.family) (by decide) hfam
  have s8 := s7.setOpt (k := b!"trax.multiobject") (o := multi) (by decide) hmo
  have e1 : ∀ k, NoNul k → _ := fun k hk => get_setOpt (k := b!"trax.version") (k' := k) (o := some (fmtInt version)) hsc.wf (by decide) hk
    (by rintro v ⟨⟩; exact plain_noNul (fmtInt_plain _))
  have e2 : ∀ k, NoNul k → _ := fun k hk => get_setOpt (k := b!"trax.region") (k' := k) (o := some (regionFormatsEncode m.regions)) s1.wf (by decide) hk
    (by rintro v ⟨⟩; exact plain_noNul (formats_plain _).1)
  have e3 : ∀ k, NoNul k → _ := fun k hk => get_setOpt (k := b!"trax.image") (k' := k) (o := some (imageFormatsEncode m.images)) s2.wf (by decide) hk
    (by rintro v ⟨⟩; exact plain_noNul (formats_plain _).2.1)
  have e4 : ∀ k, NoNul k → _ := fun k hk => get_setOpt (k := b!"trax.channels") (k' := k) (o := some (channelsEncode m.channels)) s3.wf (by decide) hk
    (by rintro v ⟨⟩; exact plain_noNul (formats_plain _).2.2)
  have e5 : ∀ k, NoNul k → _ := fun k hk => get_setOpt (k := b!"trax.name") (k' := k) (o := m.name) s4.wf (by decide) hk fun v h => plain_noNul (hname v h)
  have e6 : ∀ k, NoNul k → _ := fun k hk => get_setOpt (k := b!"trax.description") (k' := k) (o := m.description) s5.wf (by decide) hk fun v h => plain_noNul (hdesc v h)
  have e7 : ∀ k, NoNul k → _ := fun k hk => get_setOpt (k := b!"trax.family") (k' := k) (o := m.family) s6.wf (by decide) hk fun v h => plain_noNul (hfam v h)
  have e8 : ∀ k, NoNul k → _ := fun k hk => get_setOpt (k := b!"trax.multiobject") (k' := k) (o := multi) s7.wf (by decide) hk fun v h => plain_noNul (hmo v h)
  refine ⟨s8, ?_, ?_, ?_, ?_, ?_, ?_, ?_, ?_, ?_, hnone⟩
  iterate 8
    · rw [e8 _ (by decide), e7 _ (by decide), e6 _ (by decide), e5 _ (by decide), e4 _ (by decide), e3 _ (by decide), e2 _ (by decide),
        e1 _ (by decide), hnone _ (by decide) (by decide)]
      simp
  · intro k hk ht
    rw [e8 _ hk, e7 _ hk, e6 _ hk, e5 _ hk, e4 _ hk, e3 _ hk, e2 _ hk, e1 _ hk]
    have ne : ∀ k' : Str, b!"trax." <+: k' → k' ≠ k := by rintro k' h' rfl; exact ht h'
    rw [if_neg (ne _ (by decide)), if_neg (ne _ (by decide)), if_neg (ne _ (by decide)), if_neg (ne _ (by decide)),
      if_neg (ne _ (by decide)), if_neg (ne _ (by decide)), if_neg (ne _ (by decide)), if_neg (ne _ (by decide))]

/-- **C31, what holds.** The server introduces itself with a metadata record of the given kind, for any version from 1 to 4.
Whatever was on the wire before and will follow: the client that reads what the introduction sent gets a
handle with exactly the declared version, formats, channels, texts, custom properties and multi-object
support, and has read exactly the introduction. -/
theorem C31_handshake_partial (m : Metadata) (kvs : List (Str × Str)) (version : Int) (hm : Introducible m kvs version)
    (junk : UInt32) (stream : Stream) (hout : stream.out.Reliable) :
    ∃ s news, serverSetup junk m stream version = .ok s ∧ s.stream.out.sent = stream.out.sent ++ news ∧
      s.version = version ∧ s.isAlive = true ∧ s.server = true ∧ s.objects = 0 ∧ s.stream.input = stream.input ∧ s.stream.out.Reliable ∧
      s.metadata.regions = m.regions ∧ s.metadata.images = m.images ∧ s.metadata.channels = m.channels ∧
      (version = 4 → (s.isMulti = true ↔ m.flags &&& 1 ≠ 0)) ∧
      ∀ (mt : Option MsgType) (rest : List InEv) (out : Writer),
        ∃ c, clientSetup ⟨mt, bytes news ++ rest, out⟩ = .ok (some c) ∧
          c.version = version ∧ c.isAlive = true ∧ c.server = false ∧ c.objects = 0 ∧
          c.metadata.regions = m.regions ∧ c.metadata.images = m.images ∧ c.metadata.channels = m.channels ∧
          c.metadata.name = m.name ∧ c.metadata.description = m.description ∧ c.metadata.family = m.family ∧
          (c.isMulti = true ↔ version = 4 ∧ m.flags &&& 1 ≠ 0) ∧
          (∀ k, NoNul k → c.metadata.custom.get k = m.custom.get k) ∧
          c.stream = ⟨some .hello, rest, out⟩ := by
  obtain ⟨hsend, g1, g2, g3, g4, g5, g6, g7, g8, g9, g10⟩ := helloProperties_spec hm
  obtain ⟨hv, hreg, himg, hch, hch1, htext, hcustom, hkvs⟩ := hm
  have hname : m.name.map cstr = m.name := by
    cases h : m.name with
    | none => rfl
    | some s => simp [cstr_of_noNul (plain_noNul (htext s (.inl h)))]
  have hdesc : m.description.map cstr = m.description := by
    cases h : m.description with
    | none => rfl
    | some s => simp [cstr_of_noNul (plain_noNul (htext s (.inr (.inl h))))]
  have hfam : m.family.map cstr = m.family := by
    cases h : m.family with
    | none => rfl
    | some s => simp [cstr_of_noNul (plain_noNul (htext s (.inr (.inr h))))]
  have hw := writeMessage_reliable stream.out hout .hello [] (helloProperties m version) hsend.wf (by simp)
  have hver : (if version < 1 then 4 else version) = version := if_neg (by omega)
  refine ⟨{
      server := true, terminated := false, version := version, objects := 0, error := .none
      metadata := ⟨m.regions, m.images, m.channels, m.name.map cstr, m.description.map cstr, m.family.map cstr, Properties.create,
        if version ≥ 4 then (if supports m.flags 1 then 1 else 0) else junk⟩
      stream := stream.write .hello [] (helloProperties m version) },
    wire .hello [] (helloProperties m version).enumerate, ?_, hw.1, rfl, rfl, rfl, rfl, rfl, hw.2.2, rfl, rfl, rfl, ?_, ?_⟩
  · unfold serverSetup
    rw [if_pos (by omega)]
    simp only [hver, Metadata.create, hch.2, ne_eq, not_false_eq_true, if_true]
    rfl
  · intro h4
    simp only [Handle.isMulti, h4, ge_iff_le, le_refl, if_true]
    by_cases h : m.flags &&& 1 = 0
    · simp [supports, h]
    · have : supports m.flags 1 = true := by simp [supports, h]
      rw [if_pos this]; simp [h, supports]
  intro mt rest out
  have hread := Stream.read_wire ⟨mt, bytes (wire .hello [] (helloProperties m version).enumerate) ++ rest, out⟩ .hello [] _ hsend.wf
    hsend.deliverable rest rfl
  have hgi : (helloProperties m version).getInt b!"trax.version" 1 = .ok version :=
    getInt_of_get g1 ⟨by omega, by omega⟩ 1
  have hchan : (if version < 2 then (.ok 1 : Outcome UInt32) else
      .ok (if formatsInt (channelsDecode (channelsEncode m.channels)) = 0 then 1 else formatsInt (channelsDecode (channelsEncode m.channels)))) =
      .ok m.channels := by
    rw [(C30_format_sets m.channels).2.2.1, hch.1]
    simp only [formatsInt, Option.getD_some, hch.2, if_false]
    split
    · rw [hch1 (by omega)]
    · rfl
  have hmulti : (if version > 3 then (helloProperties m version).getInt b!"trax.multiobject" 0 else .ok 0) =
      .ok (if version ≥ 4 ∧ supports m.flags 1 then (1 : Int) else 0) := by
    by_cases h : version ≥ 4 ∧ supports m.flags 1 = true
    · rw [if_pos h] at g8 ⊢
      rw [if_pos (by omega)]
      exact getInt_of_get g8 (by decide) 0
    · rw [if_neg h] at g8 ⊢
      split
      · unfold Properties.getInt; rw [g8]
      · rfl
  refine ⟨{
      server := false, terminated := false, version := version, objects := 0, error := .none
      metadata := ⟨m.regions, m.images, m.channels, m.name, m.description, m.family,
        copyExternal (helloProperties m version) Properties.create, if version ≥ 4 ∧ supports m.flags 1 then 1 else 0⟩
      stream := ⟨some .hello, rest, out⟩ }, ?_, rfl, rfl, rfl, rfl, rfl, rfl, rfl, rfl, rfl, rfl, ?_, ?_, rfl⟩
  · unfold clientSetup
    rw [hread]
    simp only [ne_eq, not_true_eq_false, if_false, List.length_nil, gt_iff_lt, Nat.lt_irrefl, hgi, Outcome.bind_ok, g2, g3, g4, hchan, hmulti, g5, g6, g7]
    simp only [Metadata.create, hname, hdesc, hfam, hch.2, ne_eq, not_false_eq_true, if_true, (C30_format_sets m.regions).2.1.1,
      (C30_format_sets m.images).1.1, hreg, himg, formatsInt, Option.getD_some, Outcome.map]
    by_cases h : version ≥ 4 ∧ supports m.flags 1 = true
    · rw [if_pos h, if_pos h]; simp
    · rw [if_neg h, if_neg h]; simp
  · simp only [Handle.isMulti]
    by_cases h : version ≥ 4 ∧ supports m.flags 1 = true
    · rw [if_pos h]
      simp only [supports, bne_iff_ne, ne_eq] at h ⊢
      exact ⟨fun _ => ⟨by omega, h.2⟩, fun _ => by decide⟩
    · rw [if_neg h]
      simp only [supports, bne_iff_ne, ne_eq] at h ⊢
      exact ⟨fun hh => absurd (by decide) hh, fun hh => absurd ⟨by omega, hh.2⟩ h⟩
  · intro k hk
    simp only [copyExternal_get hsend.wf Properties.wf_create hk, Properties.get_create, Option.or_none]
    by_cases ht : b!"trax." <+: k
    · rw [if_pos, g10 k hk ht]
      by_contra hh
      exact internal_false.1 (Bool.not_eq_true _ ▸ hh) ht
    · rw [if_neg (by rw [internal_false.2 ht]; decide), g9 k hk ht]


/-- A record with texts, custom properties and multi-object support, and the records of the demonstrations. -/
example : Introducible ⟨14, 13, 5, some b!"demo", some b!"a \"demo\"", none, Properties.ofPairs [(b!"x.y", b!"1=2"), (b!"z", b!"")], 1⟩
    [(b!"x.y", b!"1=2"), (b!"z", b!"")] 4 :=
  ⟨by decide, by decide, by decide, by decide, by decide,
    by rintro s (h | h | h) <;> cases h <;> decide, rfl, by decide⟩

example : Introducible Demo.metadata [] 1 :=
  ⟨by decide, by decide, by decide, by decide, by decide,
    by rintro s (h | h | h) <;> cases h; decide, rfl, by decide⟩

/-- The two ends of a handshake: the server introduces itself over a fresh reliable stream, the client reads that. -/
def Spec.handshake (m : Metadata) (version : Int) : Outcome (Option Handle) :=
  (serverSetup 0 m ⟨none, [], ⟨[], false, [], []⟩⟩ version).bind fun s =>
    clientSetup ⟨none, bytes s.stream.out.sent, ⟨[], false, [], []⟩⟩

/-- **C31, violated.** Custom properties in the protocol's own `trax.` space are taken for declarations of the server (here: a family it
did not declare) or are lost (`trax.note`); with version 1 the channels are not transferred. -/
theorem C31_handshake_false :
    (∃ c, handshake ⟨14, 13, 1, none, none, none, Properties.ofPairs [(b!"trax.family", b!"kcf"), (b!"trax.note", b!"hi")], 1⟩ 4 = .ok (some c) ∧
      c.metadata.family = some b!"kcf" ∧ c.metadata.custom.get b!"trax.note" = none) ∧
    (∃ c, handshake ⟨14, 13, 3, none, none, none, Properties.create, 0⟩ 1 = .ok (some c) ∧ c.metadata.channels = 1) := by
  have h1 : (match handshake ⟨14, 13, 1, none, none, none, Properties.ofPairs [(b!"trax.family", b!"kcf"), (b!"trax.note", b!"hi")], 1⟩ 4 with
      | .ok (some c) => decide (c.metadata.family = some b!"kcf" ∧ c.metadata.custom.get b!"trax.note" = none)
      | _ => false) = true := by decide +kernel
  have h2 : (match handshake ⟨14, 13, 3, none, none, none, Properties.create, 0⟩ 1 with
      | .ok (some c) => decide (c.metadata.channels = 1)
      | _ => false) = true := by decide +kernel
  constructor
  · split at h1
    · next c hc => exact ⟨c, hc, of_decide_eq_true h1⟩
    · cases h1
  · split at h2
    · next c hc => exact ⟨c, hc, of_decide_eq_true h2⟩
    · cases h2

/-! ## C32 -/

/-- **C32.** Whatever arrives: if the client gets a handle, the first message was a hello message without positional arguments, and everything
after it is left unread; if the first message is anything else (or there is none), the client gets no handle. -/
theorem C32_only_hello (stream : Stream) :
    (∀ c, clientSetup stream = .ok (some c) →
      stream.read.1.mtype = some .hello ∧ stream.read.1.args = [] ∧ c.stream = stream.read.2 ∧ c.isAlive = true ∧ c.server = false) ∧
    (stream.read.1.mtype ≠ some .hello ∨ stream.read.1.args ≠ [] → clientSetup stream = .ok none) := by
  constructor
  · intro c hc
    unfold clientSetup at hc
    generalize stream.read = r at hc ⊢
    obtain ⟨msg, stream'⟩ := r
    dsimp only at hc ⊢
    split at hc
    · cases hc
    · next h1 =>
      split at hc
      · cases hc
      · next h2 =>
        obtain ⟨version, -, hc⟩ := bind_eq_ok hc
        split at hc
        · cases hc
        · split at hc
          · cases hc
          · obtain ⟨channels, -, hc⟩ := bind_eq_ok hc
            obtain ⟨multi, -, hc⟩ := bind_eq_ok hc
            obtain ⟨md, -, hc⟩ := map_eq_ok hc
            cases hc
            refine ⟨by simpa using h1, ?_, rfl, rfl, rfl⟩
            cases hm : msg.args with
            | nil => rfl
            | cons a t => rw [hm] at h2; simp at h2
  · intro h
    unfold clientSetup
    dsimp only
    by_cases h1 : stream.read.1.mtype = some .hello
    · have h2 : stream.read.1.args ≠ [] := by
        rcases h with h | h
        · exact absurd h1 h
        · exact h
      rw [if_neg (by simp [h1]), if_pos (List.length_pos_iff.mpr h2)]
    · rw [if_pos h1]

/-- **C32, in terms of what was sent.** A peer that opens with a message of any other type, or with a hello message with arguments, is refused. -/
theorem C32_others_refused (t : MsgType) (args : List Str) (kvs : List (Str × Str)) (mt : Option MsgType) (rest : List InEv) (out : Writer)
    (hd : Deliverable args kvs) (h : t ≠ .hello ∨ args ≠ []) :
    clientSetup ⟨mt, bytes (wire t args kvs) ++ rest, out⟩ = .ok none := by
  apply (C32_only_hello _).2
  have hr : (Stream.read ⟨mt, bytes (wire t args kvs) ++ rest, out⟩).1.mtype = some t ∧
      (Stream.read ⟨mt, bytes (wire t args kvs) ++ rest, out⟩).1.args = args := by
    unfold Stream.read
    simp only [readMessage_wire _ _ _ _ _ _ hd, and_self]
  rw [hr.1, hr.2]
  simpa using h

example : Deliverable [b!"0"] [(b!"trax.version", b!"4")] ∧ (MsgType.hello ≠ .hello ∨ [b!"0"] ≠ []) := by
  refine ⟨⟨by decide, ?_, by decide, by decide⟩, by decide⟩
  intro a ha
  rcases List.mem_singleton.mp ha with rfl
  exact not_property_of_no_equals (by decide)

/-- A first message that is refused and one that is accepted. -/
example : clientSetup ⟨none, bytes b!"@@TRAX:state \"0\" \n", Demo.out⟩ = .ok none ∧
    (match clientSetup ⟨none, bytes b!"@@TRAX:hello \"trax.region=mask;\" \"trax.image=path;\" \n", Demo.out⟩ with
      | .ok (some c) => c.isAlive
      | _ => false) = true := by
  decide +kernel

/-! ## C33 -/

/-- **C33, violated.** An introduction without the region formats (as from a server that declares nothing), or with an empty or
far too large version, makes the client's behaviour undefined. -/
theorem C33_safe_false :
    clientSetup ⟨none, bytes b!"@@TRAX:hello \n", Demo.out⟩ = .ub ∧
    clientSetup ⟨none, bytes b!"@@TRAX:hello \"trax.version=\" \"trax.region=mask;\" \"trax.image=path;\" \n", Demo.out⟩ = .ub ∧
    clientSetup ⟨none, bytes b!"@@TRAX:hello \"trax.version=99999999999\" \"trax.region=mask;\" \"trax.image=path;\" \n", Demo.out⟩ = .ub ∧
    clientSetup ⟨none, bytes b!"@@TRAX:hello \"trax.version=2\" \"trax.region=mask;\" \"trax.image=path;\" \n", Demo.out⟩ = .ub := by
  decide +kernel

theorem getInt_ne_abort (p : Properties) (k : Str) (d : Int) : p.getInt k d ≠ .abort := by
  have ite_ne : ∀ v : Int, (if InInt32 v then .ok v else .ub : Outcome Int) ≠ .abort := by
    intro v h
    by_cases hv : InInt32 v
    · rw [if_pos hv] at h; cases h
    · rw [if_neg hv] at h; cases h
  have key : ∀ x : Flt, x.doubleToInt ≠ .abort := by
    intro x
    unfold Flt.doubleToInt
    split
    · exact ite_ne _
    · simp
  unfold Properties.getInt
  cases p.get k with
  | none => simp
  | some v =>
    dsimp only
    by_cases hv : v = []
    · rw [if_pos hv]; simp
    · rw [if_neg hv]
      have := key (strtod v).1
      generalize (strtod v).1.doubleToInt = o at this ⊢
      cases o with
      | ok a => simp [Outcome.map]
      | ub => simp [Outcome.map]
      | abort => exact absurd rfl this

/-- The value of a property is missing, or its text can be read as an `int` (or is no number at all, and not empty). -/
def Spec.SafeInt (p : Properties) (k : Str) : Prop :=
  p.get k = none ∨ (∃ n, InInt32 n ∧ p.get k = some (fmtInt n)) ∨ ∃ s, p.get k = some s ∧ s ≠ [] ∧ ¬ BeginsLikeNumber s

theorem getInt_safe {p : Properties} {k : Str} (h : SafeInt p k) (d : Int) : ∃ n, p.getInt k d = .ok n := by
  rcases h with h | ⟨n, hn, h⟩ | ⟨s, h, hs, hb⟩
  · exact ⟨d, by unfold Properties.getInt; rw [h]⟩
  · exact ⟨n, getInt_of_get h hn d⟩
  · exact ⟨_, (C21_default_partial p k d (.fin false 0) (.inr ⟨s, h, hs, hb⟩)).1⟩

/-- **C33, what holds.** The client never aborts; and whatever arrives, if an introduction (should one arrive) declares region and image formats
and channels, and its version and multi-object declarations are missing, integers or words, the client also stays clear of undefined behaviour. Missing
from the full claim: introductions without these declarations, and with other version texts (see `C33_safe_false`). -/
theorem C33_safe_partial (stream : Stream) :
    clientSetup stream ≠ .abort ∧
    ((stream.read.1.mtype = some .hello → stream.read.1.args = [] →
      SafeInt stream.read.1.props b!"trax.version" ∧ SafeInt stream.read.1.props b!"trax.multiobject" ∧
      stream.read.1.props.get b!"trax.region" ≠ none ∧ stream.read.1.props.get b!"trax.image" ≠ none ∧
      stream.read.1.props.get b!"trax.channels" ≠ none) → ∃ c, clientSetup stream = .ok c) := by
  unfold clientSetup
  generalize stream.read = r
  obtain ⟨msg, stream'⟩ := r
  dsimp only
  by_cases h1 : msg.mtype = some .hello
  swap
  · rw [if_pos h1]; exact ⟨by simp, fun _ => ⟨_, rfl⟩⟩
  by_cases h2 : msg.args = []
  swap
  · rw [if_neg (by simp [h1]), if_pos (List.length_pos_iff.mpr h2)]; exact ⟨by simp, fun _ => ⟨_, rfl⟩⟩
  rw [if_neg (by simp [h1]), if_neg (by simp [h2])]
  have hch : ∀ c : UInt32, (if c = 0 then 1 else c) ≠ 0 := by intro c; split <;> [decide; assumption]
  constructor
  · cases hv : msg.props.getInt b!"trax.version" 1 with
    | abort => exact absurd hv (getInt_ne_abort _ _ _)
    | ub => simp
    | ok v =>
      simp only [Outcome.bind_ok]
      cases hr : msg.props.get b!"trax.region" with
      | none => simp
      | some r =>
      cases hi : msg.props.get b!"trax.image" with
      | none => simp
      | some i =>
      simp only
      have hm : (if v > 3 then msg.props.getInt b!"trax.multiobject" 0 else .ok 0) ≠ .abort := by
        split
        · exact getInt_ne_abort _ _ _
        · simp
      generalize (if v > 3 then msg.props.getInt b!"trax.multiobject" 0 else .ok 0) = multi at *
      by_cases h3 : v < 2
      · rw [if_pos h3]
        cases multi with
        | abort => exact absurd rfl hm
        | ub => simp
        | ok n => simp [Metadata.create, Outcome.map]
      · rw [if_neg h3]
        cases hc : msg.props.get b!"trax.channels" with
        | none => simp
        | some c =>
          cases multi with
          | abort => exact absurd rfl hm
          | ub => simp
          | ok n => simp only [Outcome.bind_ok, Metadata.create, hch, ne_eq, not_false_eq_true, if_true, Outcome.map]; simp
  · intro h
    obtain ⟨hv, hm, hr, hi, hc⟩ := h h1 h2
    obtain ⟨v, hv⟩ := getInt_safe hv 1
    obtain ⟨n, hm⟩ := getInt_safe hm 0
    obtain ⟨r, hr⟩ := Option.ne_none_iff_exists'.mp hr
    obtain ⟨i, hi⟩ := Option.ne_none_iff_exists'.mp hi
    obtain ⟨c, hc⟩ := Option.ne_none_iff_exists'.mp hc
    simp only [hv, hr, hi, hc, Outcome.bind_ok]
    have hm' : ∃ n', (if v > 3 then msg.props.getInt b!"trax.multiobject" 0 else .ok 0) = .ok n' := by
      split
      · exact ⟨n, hm⟩
      · exact ⟨0, rfl⟩
    obtain ⟨n', hm'⟩ := hm'
    rw [hm']
    by_cases h3 : v < 2
    · rw [if_pos h3]
      exact ⟨_, rfl⟩
    · rw [if_neg h3]
      simp only [Outcome.bind_ok, Metadata.create, hch, ne_eq, not_false_eq_true, if_true, Outcome.map]
      exact ⟨_, rfl⟩

/-- An introduction that meets the conditions, with unknown formats, a version that is not a number and channels of the wrong kind. -/
example :
    let p := (Stream.read ⟨none, bytes b!"@@TRAX:hello \"trax.version=x\" \"trax.region=blob;\" \"trax.image=path\" \"trax.channels=\" \n", Demo.out⟩).1.props
    SafeInt p b!"trax.version" ∧ SafeInt p b!"trax.multiobject" ∧
      p.get b!"trax.region" ≠ none ∧ p.get b!"trax.image" ≠ none ∧ p.get b!"trax.channels" ≠ none := by
  refine ⟨.inr (.inr ⟨b!"x", by decide +kernel, by decide, ?_⟩), .inl (by decide +kernel), by decide +kernel, by decide +kernel, by decide +kernel⟩
  rintro ⟨c, hc, h⟩
  have : c = ch%'x' := by
    have : (some c : Option UInt8) = some ch%'x' := by rw [← hc]; decide
    exact Option.some.inj this
  subst this
  revert h; decide

end Trax
