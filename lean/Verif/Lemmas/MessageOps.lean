import Verif.Lemmas.MessageIO
import Verif.Model.MessageOps

/-! Helper lemmas about histories of reads and writes. -/

namespace Trax
open Spec

theorem Properties.wf_ofPairs (kvs : List (Str × Str)) : (Properties.ofPairs kvs).WF :=
  StrMap.wf_foldl_put Properties.wf_create kvs

theorem mem_enum_foldl {kvs : List (Str × Str)} (hk : ∀ kv ∈ kvs, NoNul kv.1 ∧ NoNul kv.2)
    (p : Properties) (hp : p.WF) (kv : Str × Str)
    (h : kv ∈ (kvs.foldl (fun p kv => p.set kv.1 kv.2) p).enumerate) :
    kv ∈ kvs ∨ kv ∈ p.enumerate := by
  induction kvs generalizing p with
  | nil => exact Or.inr h
  | cons x t ih =>
    rw [List.foldl_cons] at h
    rcases ih (fun kv h => hk kv (by simp [h])) _ (Properties.wf_set hp _ _) h with h1 | h1
    · exact Or.inl (List.mem_cons_of_mem _ h1)
    · obtain ⟨hx1, hx2⟩ := hk x (by simp)
      obtain ⟨k, v⟩ := kv
      rw [Properties.mem_enumerate (Properties.wf_set hp _ _)] at h1
      obtain ⟨hkn, hg⟩ := h1
      rw [Properties.get_set hp, cstr_of_noNul hx1, cstr_of_noNul hkn, cstr_of_noNul hx2] at hg
      split at hg
      · next he =>
        left
        have : x = (k, v) := by
          cases x; simp only at he hg; rw [he]; simp at hg; rw [hg]
        rw [this]; simp
      · right
        rw [Properties.mem_enumerate hp]
        exact ⟨hkn, hg⟩

theorem Spec.ValidKey.noNul {k : Str} (h : ValidKey k) : NoNul k := by
  intro c hc
  exact (keyChar_facts (h.chars c hc)).1

/-- What is enumerated has been set. -/
theorem mem_ofPairs_enumerate {kvs : List (Str × Str)} (hk : ∀ kv ∈ kvs, NoNul kv.1 ∧ NoNul kv.2)
    {kv : Str × Str} (h : kv ∈ (Properties.ofPairs kvs).enumerate) : kv ∈ kvs := by
  rcases mem_enum_foldl hk _ Properties.wf_create kv h with h | h
  · exact h
  · obtain ⟨k, v⟩ := kv
    rw [Properties.mem_enumerate Properties.wf_create] at h
    rw [Properties.get_create] at h
    simp at h

theorem deliverable_enumerate {args : List Str} {kvs : List (Str × Str)} (hd : Deliverable args kvs) :
    Deliverable args (Properties.ofPairs kvs).enumerate := by
  have hk : ∀ kv ∈ kvs, NoNul kv.1 ∧ NoNul kv.2 :=
    fun kv h => ⟨(hd.keys_valid kv h).noNul, (hd.values_plain kv h).noNul⟩
  exact ⟨hd.args_plain, hd.args_clear, fun kv h => hd.keys_valid kv (mem_ofPairs_enumerate hk h),
    fun kv h => hd.values_plain kv (mem_ofPairs_enumerate hk h)⟩

theorem Deliverable.noNul_enumerate {p : Properties} (hp : p.WF) :
    ∀ kv ∈ p.enumerate, NoNul kv.1 ∧ NoNul kv.2 := by
  intro kv hkv
  obtain ⟨b, hb, hkv⟩ := List.mem_flatten.mp hkv
  exact hp.noNul b hb kv hkv

/-- A reliable writer puts exactly the wire text on the stream. -/
theorem writeMessage_reliable (w : Writer) (hw : w.Reliable) (t : MsgType) (args : List Str)
    (props : Properties) (hp : props.WF) (ha : ∀ a ∈ args, NoNul a) :
    (w.writeMessage t args props).sent = w.sent ++ wire t args props.enumerate ∧
    (w.writeMessage t args props).log = w.log ++ wire t args props.enumerate ∧
    (w.writeMessage t args props).Reliable := by
  rw [writeMessage_eq]
  have h := runStmts_reliable (messageStmts t args props.enumerate) w hw
  rw [messageStmts_text t args _ ha (Deliverable.noNul_enumerate hp)] at h
  exact h

/-- The text of a message given to the writer. -/
def OutMsg.wire (m : OutMsg) : Str := Spec.wire m.type m.args (Properties.ofPairs m.kvs).enumerate

def OutMsg.Deliverable (m : OutMsg) : Prop := Spec.Deliverable m.args m.kvs

/-- The message as it should be received. -/
def OutMsg.received (m : OutMsg) : InMsg := ⟨some m.type, m.args, Properties.ofPairs m.kvs⟩

theorem writeAll_reliable (ms : List OutMsg) (w : Writer) (hw : w.Reliable)
    (ha : ∀ m ∈ ms, ∀ a ∈ m.args, NoNul a) :
    (w.writeAll ms).sent = w.sent ++ ms.flatMap OutMsg.wire ∧
    (w.writeAll ms).log = w.log ++ ms.flatMap OutMsg.wire ∧ (w.writeAll ms).Reliable := by
  induction ms generalizing w with
  | nil => simp [Writer.writeAll, hw]
  | cons m t ih =>
    obtain ⟨h1, h2, h3⟩ := writeMessage_reliable w hw m.type m.args (Properties.ofPairs m.kvs)
      (Properties.wf_ofPairs _) (ha m (by simp))
    obtain ⟨h4, h5, h6⟩ := ih _ h3 (fun m h => ha m (by simp [h]))
    show ((w.writeMessage m.type m.args (Properties.ofPairs m.kvs)).writeAll t).sent = _ ∧
      ((w.writeMessage m.type m.args (Properties.ofPairs m.kvs)).writeAll t).log = _ ∧
      ((w.writeMessage m.type m.args (Properties.ofPairs m.kvs)).writeAll t).Reliable
    refine ⟨?_, ?_, h6⟩
    · rw [h4, h1, List.flatMap_cons, List.append_assoc]; rfl
    · rw [h5, h2, List.flatMap_cons, List.append_assoc]; rfl

theorem readMessage_outMsg (mt : Option MsgType) (m : OutMsg) (hd : m.Deliverable) (rest : List InEv) :
    readMessage mt Properties.create (bytes m.wire ++ rest) =
      { mtype := some m.type, args := m.args, props := Properties.ofPairs m.kvs, log := m.wire, rest } := by
  unfold OutMsg.wire
  rw [readMessage_wire _ _ _ _ _ _ (deliverable_enumerate hd),
    Properties.foldl_set_enumerate (Properties.wf_ofPairs _)]

theorem readSeq_wire (ms : List OutMsg) (mt : Option MsgType) (rest : List InEv)
    (hd : ∀ m ∈ ms, m.Deliverable) :
    readSeq ms.length mt (bytes (ms.flatMap OutMsg.wire) ++ rest) = ms.map OutMsg.received := by
  induction ms generalizing mt with
  | nil => rfl
  | cons m t ih =>
    rw [List.flatMap_cons, bytes_append, List.append_assoc, List.length_cons, readSeq,
      readMessage_outMsg mt m (hd m (by simp))]
    simp only [List.map_cons]
    rw [ih _ (fun m h => hd m (by simp [h]))]
    rfl

theorem readSeqChunked_eq (n : Nat) (mt : Option MsgType) (s : ChunkIn) :
    (readSeqChunked n mt s).map Prod.fst = readSeq n mt s.events := by
  induction n generalizing mt s with
  | zero => rfl
  | succ n ih =>
    obtain ⟨h1, h2, h3, _, h5⟩ := readMessageChunked_eq mt Properties.create s
    simp only [readSeqChunked, readSeq, List.map_cons]
    rw [ih, h5, h1, h2, h3]

theorem readSeqChunked_events (n : Nat) (mt : Option MsgType) (s s' : ChunkIn)
    (h : s.events = s'.events) : readSeqChunked n mt s = readSeqChunked n mt s' := by
  induction n generalizing mt s s' with
  | zero => rfl
  | succ n ih =>
    obtain ⟨h1, h2, h3, h4, h5⟩ := readMessageChunked_eq mt Properties.create s
    obtain ⟨g1, g2, g3, g4, g5⟩ := readMessageChunked_eq mt Properties.create s'
    rw [h] at h1 h2 h3 h4 h5
    simp only [readSeqChunked]
    rw [h1, h2, h3, h4, ← g1, ← g2, ← g3, ← g4]
    congr 1
    exact ih _ _ _ (by rw [h5, g5])

theorem events_chunks (cs : List (List UInt8)) (hc : ∀ c ∈ cs, c ≠ []) :
    (ChunkIn.events ⟨[], cs.map ReadRes.data⟩) = bytes cs.flatten := by
  simp only [ChunkIn.events, bytes_nil, List.nil_append]
  induction cs with
  | nil => rfl
  | cons c t ih =>
    rw [List.map_cons, List.flatMap_cons, ih (fun c h => hc c (by simp [h])), List.flatten_cons, bytes_append]
    congr 1
    cases c with
    | nil => exact absurd rfl (hc [] (by simp))
    | cons b bs => rfl

end Trax
