import Verif.Lemmas.Message
import Verif.Lemmas.StrMap

/-!
# The reader of messages only delivers ASCII characters
-/

namespace Trax

/-- The byte is an ASCII character. -/
def Seven (s : Str) : Prop := ∀ c ∈ s, c.toNat < 128

theorem seven_nil : Seven [] := fun _ h => by simp at h

theorem Seven.snoc {s : Str} (h : Seven s) {c : UInt8} (hc : c.toNat < 128) : Seven (s ++ [c]) := by
  intro x hx
  rcases List.mem_append.1 hx with hx | hx
  · exact h x hx
  · rw [List.mem_singleton.1 hx]; exact hc

theorem Seven.cstr {s : Str} (h : Seven s) : Seven (cstr s) := fun c hc => h c ((List.takeWhile_prefix _).subset hc)

theorem seven_one {c : UInt8} (hc : c.toNat < 128) : Seven [c] := seven_nil.snoc hc

/-- The reader holds nothing but ASCII characters. -/
structure Reader.Ascii (r : Reader) : Prop where
  key : Seven r.key
  val : Seven r.val
  wf : r.props.WF
  props : ∀ k v, r.props.get k = some v → Seven v
  args : ∀ a ∈ r.args, Seven a

namespace Reader.Ascii

theorem addArg {r : Reader} (h : r.Ascii) : r.addArg.Ascii := by
  refine ⟨h.key, h.val, h.wf, h.props, fun a ha => ?_⟩
  rcases List.mem_append.1 ha with ha | ha
  · exact h.args a ha
  · rw [List.mem_singleton.1 ha]; exact h.key.cstr

theorem addProp {r : Reader} (h : r.Ascii) : r.addProp.Ascii := by
  refine ⟨h.key, h.val, Properties.wf_set h.wf _ _, fun k v e => ?_, h.args⟩
  change (r.props.set r.key r.val).get k = some v at e
  rw [Properties.get_set h.wf] at e
  split at e
  · cases e; exact h.val.cstr
  · exact h.props k v e

theorem step {r : Reader} (h : r.Ascii) {c : UInt8} (hc : c.toNat < 128) : (r.step c).Ascii := by
  have h10 : (10 : UInt8).toNat < 128 := by decide
  unfold Reader.step
  split
  · unfold stepType
    split
    · exact ⟨h.key.snoc hc, h.val, h.wf, h.props, h.args⟩
    split
    · split <;> exact ⟨seven_nil, seven_nil, h.wf, h.props, h.args⟩
    split
    · split <;> exact ⟨seven_nil, seven_nil, h.wf, h.props, h.args⟩
    · exact ⟨seven_nil, h.val, h.wf, h.props, h.args⟩
  · unfold stepSpaceExpect
    split
    · exact ⟨h.key, h.val, h.wf, h.props, h.args⟩
    split
    · exact ⟨h.key, h.val, h.wf, h.props, h.args⟩
    · exact ⟨seven_one hc, seven_nil, h.wf, h.props, h.args⟩
  · unfold stepSpace
    split
    · exact h
    split
    · exact ⟨h.key, h.val, h.wf, h.props, h.args⟩
    split
    · exact ⟨seven_nil, seven_nil, h.wf, h.props, h.args⟩
    · exact ⟨seven_one hc, seven_nil, h.wf, h.props, h.args⟩
  · unfold stepUKey
    split
    · exact ⟨h.key, h.val, h.wf, h.props, h.args⟩
    split
    · exact ⟨h.key, h.val, h.wf, h.props, h.addArg.args⟩
    split
    · exact ⟨seven_nil, h.val, h.wf, h.props, h.addArg.args⟩
    split
    · split
      · exact ⟨h.key, h.val, h.wf, h.props, h.args⟩
      · exact ⟨h.key.snoc hc, h.val, h.wf, h.props, h.args⟩
    · exact ⟨h.key.snoc hc, h.val, h.wf, h.props, h.args⟩
  · unfold stepUVal
    split
    · exact ⟨h.key, h.val, h.wf, h.props, h.args⟩
    split
    · exact ⟨seven_nil, seven_nil, h.addProp.wf, h.addProp.props, h.args⟩
    split
    · exact ⟨seven_nil, seven_nil, h.addProp.wf, h.addProp.props, h.args⟩
    · exact ⟨h.key, h.val.snoc hc, h.wf, h.props, h.args⟩
  · unfold stepEscKey
    split
    · exact ⟨h.key.snoc h10, h.val, h.wf, h.props, h.args⟩
    split
    · exact ⟨h.key.snoc hc, h.val, h.wf, h.props, h.args⟩
    · exact ⟨seven_nil, seven_nil, h.wf, h.props, h.args⟩
  · unfold stepEscVal
    split
    · exact ⟨h.key, h.val.snoc h10, h.wf, h.props, h.args⟩
    split
    · exact ⟨h.key, h.val.snoc hc, h.wf, h.props, h.args⟩
    · exact ⟨seven_nil, seven_nil, h.wf, h.props, h.args⟩
  · unfold stepQKey
    split
    · exact ⟨h.key, h.val, h.wf, h.props, h.args⟩
    split
    · exact ⟨h.key, h.val, h.wf, h.props, h.addArg.args⟩
    split
    · split
      · exact ⟨h.key, h.val, h.wf, h.props, h.args⟩
      · exact ⟨h.key.snoc hc, h.val, h.wf, h.props, h.args⟩
    · exact ⟨h.key.snoc hc, h.val, h.wf, h.props, h.args⟩
  · unfold stepQVal
    split
    · exact ⟨h.key, h.val, h.wf, h.props, h.args⟩
    split
    · exact ⟨seven_nil, seven_nil, h.addProp.wf, h.addProp.props, h.args⟩
    · exact ⟨h.key, h.val.snoc hc, h.wf, h.props, h.args⟩
  · unfold stepEscKey
    split
    · exact ⟨h.key.snoc h10, h.val, h.wf, h.props, h.args⟩
    split
    · exact ⟨h.key.snoc hc, h.val, h.wf, h.props, h.args⟩
    · exact ⟨seven_nil, seven_nil, h.wf, h.props, h.args⟩
  · unfold stepEscVal
    split
    · exact ⟨h.key, h.val.snoc h10, h.wf, h.props, h.args⟩
    split
    · exact ⟨h.key, h.val.snoc hc, h.wf, h.props, h.args⟩
    · exact ⟨seven_nil, seven_nil, h.wf, h.props, h.args⟩
  · unfold stepPass
    split
    · exact ⟨h.key, h.val, h.wf, h.props, h.args⟩
    · exact h
  · unfold stepPrefix
    split
    · exact ⟨h.key, h.val, h.wf, h.props, h.args⟩
    · exact ⟨h.key, h.val, h.wf, h.props, h.args⟩

theorem feed {r : Reader} (h : r.Ascii) {c : UInt8} (hc : c.toNat < 128) : (r.feed c).Ascii :=
  step (r := { r with log := r.log ++ [c] }) ⟨h.key, h.val, h.wf, h.props, h.args⟩ hc

theorem onFail {r : Reader} (h : r.Ascii) : r.onFail.Ascii := by
  unfold Reader.onFail
  split
  · exact h
  · exact feed (r := { r with complete := true }) ⟨h.key, h.val, h.wf, h.props, h.args⟩ (by decide)

theorem loop : ∀ (inp : List InEv) {r : Reader}, r.Ascii → (readLoop r inp).1.Ascii
  | [], r, h => by
    unfold readLoop
    split
    · exact h
    · exact h.onFail
  | e :: t, r, h => by
    unfold readLoop
    split
    · exact h
    · cases hc : e.char with
      | none => exact h.onFail
      | some c =>
        refine loop t (h.feed ?_)
        cases e with
        | fail => exact absurd hc (by simp [InEv.char])
        | byte b =>
          unfold InEv.char at hc
          dsimp only at hc
          by_cases hb : b.toNat < 128
          · rw [if_pos hb] at hc; cases hc; exact hb
          · rw [if_neg hb] at hc; cases hc

end Reader.Ascii

/-- Whatever arrives, the arguments and the values of the properties of a message that was read are ASCII texts. -/
theorem readMessage_ascii (mt : Option MsgType) (inp : List InEv) :
    (∀ k v, (readMessage mt Properties.create inp).props.get k = some v → Seven v) ∧ ∀ a ∈ (readMessage mt Properties.create inp).args, Seven a := by
  have h : (Reader.start mt Properties.create).Ascii := by
    refine ⟨seven_nil, seven_nil, Properties.wf_create, fun k v h => ?_, fun a ha => ?_⟩
    · rw [show (Reader.start mt Properties.create).props = Properties.create from rfl, Properties.get_create] at h
      cases h
    · simp [Reader.start] at ha
  have h := h.loop inp
  exact ⟨h.props, h.args⟩

end Trax
