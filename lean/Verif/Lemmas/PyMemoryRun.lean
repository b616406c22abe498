import Verif.Lemmas.PyMemory
import Verif.Spec.PyMemory

/-!
# Lemmas about the memory of Python programs: sessions and programs
-/

namespace Trax.Py.Life

open Spec

variable {addr : List Nat → Nat}

theorem arriveObjects_ok {s : State} {L P : List Nat} (h : Inv s L P) (n : Nat) :
    (arriveObjects s.mem (some n)).1 = .block s.mem.length ∧ Inv { s with mem := (arriveObjects s.mem (some n)).2 } L (s.mem.length :: P) ∧
      Keeps s { s with mem := (arriveObjects s.mem (some n)).2 } ∧ At (arriveObjects s.mem (some n)).2 s.mem.length (.objectList n) :=
  ⟨rfl, (h.alloc (.objectList n)).1, (h.alloc (.objectList n)).2, at_alloc_new _ _⟩

theorem arriveImages_ok {s : State} {L P : List Nat} (h : Inv s L P) (l : List Bool) :
    ∃ q slots, (arriveImages s.mem (some l)).1 = .block q ∧ Inv { s with mem := (arriveImages s.mem (some l)).2 } L (slots.filterMap id ++ (q :: P)) ∧
      Keeps s { s with mem := (arriveImages s.mem (some l)).2 } ∧ At (arriveImages s.mem (some l)).2 q (.imageList slots) ∧ slots.length = l.length ∧
      (∀ p, some p ∈ slots → At (arriveImages s.mem (some l)).2 p .image) := by
  obtain ⟨h1, k1, e1, a1⟩ := allocImages_ok l s L P h
  obtain ⟨h2, k2⟩ := h1.alloc (.imageList (allocImages s.mem l).1)
  exact ⟨_, (allocImages s.mem l).1, rfl, h2.perm List.perm_middle.symm, k1.trans k2, at_alloc_new _ _, e1, fun p hp => k2.mem _ _ (a1 p hp)⟩

theorem keep_one {s : State} {P ws : List Nat} (h : Inv s ws P)
    (hw : ∀ w ∈ ws, Refers s .image w ∨ Refers s .region w ∨ Refers s .properties w) : Inv (keep (some ws, s)) [] P :=
  Inv.keep (L := []) (by simpa using h) (by simp) hw

/-- `Refers` does not look at the memory. -/
theorem refers_mem {s : State} {k : Kind} {w : Nat} (m : Memory) (h : Refers s k w) : Refers { s with mem := m } k w := h

theorem mem_three (ws os : List Nat) (x w : Nat) : w ∈ os ++ (ws ++ [x]) ↔ w ∈ ws ++ os ++ [x] := by
  simp only [List.mem_append, List.mem_singleton]; tauto

theorem serverWait_ok (haddr : ∀ l, addr l ∉ l) {s : State} {P : List Nat} (h : Inv s [] P) {a : Arrival} (ha : ServerGives a) :
    ∃ r Q, serverWait addr s a = .ok r ∧ Inv (keep r) [] (Q ++ P) ∧ ((a.ret = TRAX_QUIT → a.objects = none) ↔ Q = []) := by
  obtain ⟨a1, a2, a3, a4⟩ := ha
  obtain ⟨h1, k1, e1, l1, b1, -⟩ := h.new (addr := addr) haddr .properties
  have hself : reference (newObject addr s .properties).2 s.next = .ok (.block s.mem.length) := Lists.reference h1 l1
  have hown : access (newObject addr s .properties).2.mem .properties (.block s.mem.length) = .ok .properties := access_block b1
  have hprop : Refers (newObject addr s .properties).2 .properties s.next := by
    obtain ⟨id, l1⟩ := l1
    exact ⟨_, l1, rfl, rfl, rfl⟩
  generalize hs1 : (newObject addr s .properties).2 = s1 at *
  unfold serverWait
  simp only [hs1, e1, hself, hown, Outcome.bind_ok]
  by_cases hq : a.ret = TRAX_QUIT
  · have hi : a.images = none := a3 (by rw [hq]; decide) (by rw [hq]; decide)
    rw [if_pos hq]
    cases ho : a.objects with
    | none =>
      refine ⟨_, [], rfl, ?_, iff_of_true (fun _ => by first | rfl | exact ho) rfl⟩
      simp only [hi, arriveImages, arriveObjects]
      exact keep_one h1 fun w hw => by simp only [List.mem_singleton] at hw; subst hw; exact .inr (.inr hprop)
    | some n =>
      obtain ⟨-, h2, k2, -⟩ := arriveObjects_ok h1 n
      refine ⟨_, [s1.mem.length], rfl, ?_, by simp [hq]⟩
      simp only [hi, arriveImages]
      exact keep_one h2 fun w hw => by simp only [List.mem_singleton] at hw; subst hw; exact .inr (.inr (refers_mem _ hprop))
  · rw [if_neg hq]
    by_cases hin : a.ret = TRAX_INITIALIZE
    · obtain ⟨l, n, hl, hlen, ho⟩ := a1 hin
      rw [if_pos hin]
      obtain ⟨q, slots, p2, h2, k2, b2, len2, im2⟩ := arriveImages_ok h1 l
      rw [hl, ho]
      simp only [p2]
      generalize hm2 : (arriveImages s1.mem (some l)).2 = m2 at *
      obtain ⟨p3, h3, k3, b3⟩ := arriveObjects_ok h2 n
      simp only at p3 h3 k3 b3
      simp only [p3]
      generalize hm3 : (arriveObjects m2 (some n)).2 = m3 at *
      obtain ⟨ws, s4, r4, k4, i4, w4⟩ := wrapImageListLoop_ok (addr := addr) haddr (l := q) (slots := slots) 3 { s1 with mem := m3 } [s.next] (m2.length :: q :: P) 0
        (h3.perm (by simpa using List.perm_middle.symm)) (k3.mem _ _ b2) (fun p hp => k3.mem _ _ (im2 p hp)) (by omega)
      obtain ⟨os, s5, r5, k5, i5, w5⟩ := wrapObjectList_ok (addr := addr) haddr i4 (k4.mem _ _ b3)
      obtain ⟨r6, i6⟩ := (i5.perm (List.Perm.swap _ _ _)).release (k5.mem _ _ (k4.mem _ _ (k3.mem _ _ b2)))
      have hne : m2.length ≠ q := by
        rintro rfl
        exact not_at_length b2
      obtain ⟨r7, i7⟩ := i6.release (at_set_none.mpr ⟨k5.mem _ _ (k4.mem _ _ b3), hne⟩)
      have hp5 : Refers s5 .properties s.next := (Refers.keeps (s := { s1 with mem := m3 }) hprop k4).keeps k5
      refine ⟨(some (ws ++ os ++ [s.next]), { s5 with mem := (s5.mem.set q none).set m2.length none }), [], ?_, ?_, iff_of_true (fun h => absurd h hq) rfl⟩
      · simp only [wrapImageList, r4, Outcome.bind_ok, r5]
        rw [show Kind.imageList = (Block.imageList slots).kind from rfl, r6, Outcome.bind_ok, show Kind.objectList = (Block.objectList n).kind from rfl, r7]
        rfl
      · refine keep_one (i7.same (mem_three ws os _)) ?_
        · intro w hw
          simp only [List.mem_append, List.mem_singleton] at hw
          rcases hw with (hw | hw) | rfl
          · exact .inl (show Refers s5 .image w from (w4 w hw).2.keeps k5)
          · exact .inr (.inl (w5 w hw).2)
          · exact .inr (.inr hp5)
    · rw [if_neg hin]
      by_cases hf : a.ret = TRAX_FRAME
      · obtain ⟨l, hl, hlen⟩ := a2 hf
        rw [if_pos hf]
        obtain ⟨q, slots, p2, h2, k2, b2, len2, im2⟩ := arriveImages_ok h1 l
        rw [hl]
        simp only [p2]
        generalize hm2 : (arriveImages s1.mem (some l)).2 = m2 at *
        cases ho : a.objects with
        | none =>
          obtain ⟨ws, s4, r4, k4, i4, w4⟩ := wrapImageListLoop_ok (addr := addr) haddr (l := q) (slots := slots) 3 { s1 with mem := m2 } [s.next] (q :: P) 0
            (by simpa using h2) b2 im2 (by omega)
          obtain ⟨r6, i6⟩ := i4.release (k4.mem _ _ b2)
          have hp4 : Refers s4 .properties s.next := Refers.keeps (s := { s1 with mem := m2 }) hprop k4
          refine ⟨(some (ws ++ [s.next]), { s4 with mem := s4.mem.set q none }), [], ?_, ?_, iff_of_true (fun h => absurd h hq) rfl⟩
          · simp only [arriveObjects, wrapImageList, r4, Outcome.bind_ok]
            rw [show Kind.imageList = (Block.imageList slots).kind from rfl, r6, Outcome.bind_ok, if_pos trivial]
          · refine keep_one i6 ?_
            intro w hw
            simp only [List.mem_append, List.mem_singleton] at hw
            rcases hw with hw | rfl
            · exact .inl (w4 w hw).2
            · exact .inr (.inr hp4)
        | some n =>
          obtain ⟨p3, h3, k3, b3⟩ := arriveObjects_ok h2 n
          simp only at p3 h3 k3 b3
          simp only [p3]
          generalize hm3 : (arriveObjects m2 (some n)).2 = m3 at *
          obtain ⟨ws, s4, r4, k4, i4, w4⟩ := wrapImageListLoop_ok (addr := addr) haddr (l := q) (slots := slots) 3 { s1 with mem := m3 } [s.next] (m2.length :: q :: P) 0
            (h3.perm (by simpa using List.perm_middle.symm)) (k3.mem _ _ b2) (fun p hp => k3.mem _ _ (im2 p hp)) (by omega)
          obtain ⟨r6, i6⟩ := (i4.perm (List.Perm.swap _ _ _)).release (k4.mem _ _ (k3.mem _ _ b2))
          have hne : m2.length ≠ q := by
            rintro rfl
            exact not_at_length b2
          obtain ⟨os, s5, r5, k5, i5, w5⟩ := wrapObjectList_ok (addr := addr) haddr i6 (at_set_none.mpr ⟨k4.mem _ _ b3, hne⟩)
          obtain ⟨r7, i7⟩ := i5.release (k5.mem _ _ (at_set_none.mpr ⟨k4.mem _ _ b3, hne⟩))
          have hp4 : Refers s4 .properties s.next := Refers.keeps (s := { s1 with mem := m3 }) hprop k4
          have hp5 : Refers s5 .properties s.next := Refers.keeps (s := { s4 with mem := s4.mem.set q none }) hp4 k5
          have hi5 : ∀ w ∈ ws, Refers s5 .image w := fun w hw => Refers.keeps (s := { s4 with mem := s4.mem.set q none }) (w4 w hw).2 k5
          refine ⟨(some (ws ++ os ++ [s.next]), { s5 with mem := s5.mem.set m2.length none }), [], ?_, ?_, iff_of_true (fun h => absurd h hq) rfl⟩
          · change Life.release s4.mem .imageList (.block q) = _ at r6
            change Life.release s5.mem .objectList (.block m2.length) = _ at r7
            have hnn : ¬ Ptr.block m2.length = Ptr.null := by simp
            simp only [wrapImageList, r4, Outcome.bind_ok, r6, if_neg hnn, r5, r7, Outcome.map]
          · refine keep_one (i7.same (mem_three ws os _)) ?_
            · intro w hw
              simp only [List.mem_append, List.mem_singleton] at hw
              rcases hw with (hw | hw) | rfl
              · exact .inl (hi5 w hw)
              · exact .inr (.inl (w5 w hw).2)
              · exact .inr (.inr hp5)
      · rw [if_neg hf]
        rw [a3 hin hf, a4 hin hf hq]
        obtain ⟨s2, g2, i2, -⟩ := h1.gone (w := s.next) (by
          rw [k1.vars]; intro hv
          obtain ⟨e, he, hew⟩ := (h.known _).mpr (.inl hv)
          have := h.next e he; omega)
        refine ⟨(none, s2), [], ?_, i2.same (by simp), iff_of_true (fun h => absurd h hq) rfl⟩
        change (Life.gone s1 s.next).map _ = _
        rw [g2]; rfl

theorem not_mem_next {s : State} {L P : List Nat} (h : Inv s L P) {w : Nat} (hw : s.next ≤ w) : w ∉ s.vars.flatten := by
  intro hv
  obtain ⟨e, he, hew⟩ := (h.known _).mpr (.inl hv)
  have := h.next e he; omega

theorem serverStatus_ok (haddr : ∀ l, addr l ∉ l) {s : State} {P : List Nat} (h : Inv s [] P) (objects : List (Nat × Bool)) (encodes : Bool)
    (hr : ∀ e ∈ objects, Refers s .region e.1) : ∃ s', serverStatus addr s objects encodes = .ok s' ∧ Inv s' [] P := by
  obtain ⟨h1, k1, e1, l1, b1, -⟩ := h.new (addr := addr) haddr .properties
  have hnext : (newObject addr s .properties).2.next = s.next + 1 := rfl
  generalize hs1 : (newObject addr s .properties).2 = s1 at *
  unfold serverStatus
  simp only [hs1, e1]
  cases encodes with
  | false =>
    obtain ⟨s2, g2, i2, -⟩ := h.gone_temp k1 h1 (fun _ hp => hp) (Nat.le_refl s.next)
    exact ⟨s2, by simpa using g2, i2.same (by simp)⟩
  | true =>
    obtain ⟨r, s2, hrun, k2, hcase⟩ := wrapObjects_ok (addr := addr) haddr h1 objects (fun e he => (hr e he).keeps k1)
    rw [if_neg (by decide), hrun, Outcome.bind_ok]
    rcases hcase with ⟨rfl, i2⟩ | ⟨rfl, i2, n2, l, l2, b2⟩
    · obtain ⟨s3, g3, i3, -⟩ := h.gone_temp (k1.trans k2) i2 (fun _ hp => hp) (Nat.le_refl s.next)
      exact ⟨s3, g3, i3.same (by simp)⟩
    · obtain ⟨s3, g3, i3, -⟩ := h.goneAll_temp [s.next, s1.next] (k1.trans k2) i2 (fun _ hp => hp) (by
        intro w hw; simp only [List.mem_cons, List.not_mem_nil, or_false] at hw; rcases hw with rfl | rfl <;> omega)
      refine ⟨s3, ?_, i3.same (by simp)⟩
      simp only [l2.reference i2, Outcome.bind_ok, serverReplyReads]
      rw [show Kind.objectList = (Block.objectList objects.length).kind from rfl, access_block b2]
      exact g3

theorem clientCall_ok (haddr : ∀ l, addr l ∉ l) {s : State} {P : List Nat} (h : Inv s [] P) (images : List (Option Nat)) (objects : List (Nat × Bool))
    (encodes sent : Bool) {a : Arrival} (ha : ClientGives a) (interrupted : Bool) (himg : ∀ w, some w ∈ images → Refers s .image w)
    (hr : ∀ e ∈ objects, Refers s .region e.1) : ∃ r, clientCall addr s images objects encodes sent a interrupted = .ok r ∧ Inv (keep r) [] P := by
  obtain ⟨s1, l, slots, r1, k1, i1, n1, l1, b1, im1⟩ := wrapImages_ok (addr := addr) haddr h images himg
  obtain ⟨r, s2, r2, k2, hcase⟩ := wrapObjects_ok (addr := addr) haddr i1 objects (fun e he => (hr e he).keeps k1)
  unfold clientCall
  rw [r1, Outcome.bind_ok]
  dsimp only
  rw [r2, Outcome.bind_ok]
  dsimp only
  rcases hcase with ⟨rfl, i2⟩ | ⟨rfl, i2, n2, lo, l2, b2⟩
  · obtain ⟨s3, g3, i3, -⟩ := h.gone_temp (k1.trans k2) i2 (fun _ hp => hp) (Nat.le_refl s.next)
    refine ⟨(none, s3), ?_, i3.same (by simp)⟩
    dsimp only; rw [g3]; rfl
  · dsimp only
    obtain ⟨h3, k3, e3, l3, b3, -⟩ := i2.new (addr := addr) haddr .properties
    have hnext : (newObject addr s2 .properties).2.next = s2.next + 1 := rfl
    generalize hs3 : (newObject addr s2 .properties).2 = s3 at *
    have k03 := (k1.trans k2).trans k3
    simp only [e3]
    cases encodes with
    | false =>
      obtain ⟨s4, g4, i4, -⟩ := h.goneAll_temp [s2.next, s.next, s1.next] k03 h3 (fun _ hp => hp) (by
        intro w hw; simp only [List.mem_cons, List.not_mem_nil, or_false] at hw; rcases hw with rfl | rfl | rfl <;> omega)
      refine ⟨(none, s4), ?_, i4.same (by simp)⟩
      rw [if_pos rfl, g4]; rfl
    | true =>
      have hreads : clientSendReads s3.mem (.block l) (.block lo) (.block s2.mem.length) = .ok () := by
        have hb1 : At s3.mem l (.imageList slots) := k3.mem _ _ (k2.mem _ _ b1)
        have x1 : access s3.mem .imageList (.block l) = .ok (.imageList slots) := access_block hb1
        have x2 : access s3.mem .objectList (.block lo) = .ok (.objectList objects.length) := access_block (k3.mem _ _ b2)
        have x3 : access s3.mem .properties (.block s2.mem.length) = .ok .properties := access_block b3
        simp only [clientSendReads, x1, x2, x3, Outcome.bind_ok, imagesRead_ok slots fun p hp => k3.mem _ _ (k2.mem _ _ (im1 p hp)), Outcome.map]
      have ri : reference s3 s.next = .ok (.block l) := ((l1.keeps k2).keeps k3).reference h3
      have ro : reference s3 s1.next = .ok (.block lo) := (l2.keeps k3).reference h3
      have rp : reference s3 s2.next = .ok (.block s2.mem.length) := Lists.reference h3 l3
      rw [if_neg (by decide)]
      simp only [ri, ro, rp, hreads, Outcome.bind_ok]
      cases sent with
      | false =>
        obtain ⟨s4, g4, i4, -⟩ := h.goneAll_temp [s.next, s1.next, s2.next] k03 h3 (fun _ hp => hp) (by
          intro w hw; simp only [List.mem_cons, List.not_mem_nil, or_false] at hw; rcases hw with rfl | rfl | rfl <;> omega)
        refine ⟨(none, s4), ?_, i4.same (by simp)⟩
        rw [if_pos rfl, g4]; rfl
      | true =>
        rw [if_neg (by decide)]
        obtain ⟨s4, g4, i4, k4, n4, -⟩ := h.gone_temp k03 h3 (fun _ hp => hp) (w := s1.next) (by omega)
        have i4 : Inv s4 [s2.next, s.next] P := i4.same (by
          intro w; simp only [List.mem_filter, List.mem_cons, List.not_mem_nil, or_false, ne_eq, decide_not, Bool.not_eq_eq_eq_not, Bool.not_true, decide_eq_false_iff_not]
          constructor
          · rintro ⟨rfl | rfl | rfl, hne⟩ <;> simp_all
          · rintro (rfl | rfl) <;> simp <;> omega)
        rw [g4, Outcome.bind_ok]
        obtain ⟨h5, k5, e5, l5, b5, -⟩ := i4.new (addr := addr) haddr .properties
        have hnext5 : (newObject addr s4 .properties).2.next = s4.next + 1 := rfl
        generalize hs5 : (newObject addr s4 .properties).2 = s5 at *
        simp only [e5]
        have rp5 : reference s5 s4.next = .ok (.block s4.mem.length) := Lists.reference h5 l5
        have a5 : access s5.mem .properties (.block s4.mem.length) = .ok .properties := access_block b5
        simp only [rp5, a5, Outcome.bind_ok]
        have k05 := k4.trans k5
        have hlocals : ∀ w ∈ [s.next, s2.next, s4.next, s5.next], s.next ≤ w := by
          intro w hw; simp only [List.mem_cons, List.not_mem_nil, or_false] at hw; rcases hw with rfl | rfl | rfl | rfl <;> omega
        cases ho : a.objects with
        | none =>
          have hstop : interrupted = true ∨ a.ret = TRAX_ERROR ∨ a.ret = TRAX_QUIT := by
            by_cases h1 : a.ret = TRAX_ERROR
            · exact .inr (.inl h1)
            · by_cases h2 : a.ret = TRAX_QUIT
              · exact .inr (.inr h2)
              · obtain ⟨n, hn⟩ := ha h1 h2
                rw [ho] at hn; cases hn
          simp only [arriveObjects]
          rw [if_pos hstop]
          obtain ⟨h6, k6, l6⟩ := h5.wrap (addr := addr) (P' := P) haddr (item := .null) (k := .objectList) (owner := true) (fun _ => .inr ⟨rfl, rfl⟩) h5.pend (by simp) (by simp)
          obtain ⟨s7, g7, i7, -⟩ := h.goneAll_temp [s.next, s2.next, s4.next, s5.next] (k05.trans k6) h6 (fun _ hp => hp) hlocals
          refine ⟨(none, s7), ?_, i7.same (by simp)⟩
          change (Life.goneAll (newWrapper addr s5 .null .objectList true).2 [s.next, s2.next, s4.next, s5.next]).map _ = _
          rw [g7]; rfl
        | some n =>
          obtain ⟨p6, h6, k6, b6⟩ := arriveObjects_ok h5 n
          simp only [p6]
          obtain ⟨h7, k7, l7⟩ := h6.own (addr := addr) haddr b6
          have hnext7 : (newWrapper addr { s5 with mem := (arriveObjects s5.mem (some n)).2 } (.block s5.mem.length) .objectList true).2.next = s5.next + 1 := rfl
          have hname : (newWrapper addr { s5 with mem := (arriveObjects s5.mem (some n)).2 } (.block s5.mem.length) .objectList true).1 = s5.next := rfl
          rw [hname]
          change Inv (newWrapper addr { s5 with mem := (arriveObjects s5.mem (some n)).2 } (.block s5.mem.length) .objectList true).2 _ _ at h7
          change Keeps _ (newWrapper addr { s5 with mem := (arriveObjects s5.mem (some n)).2 } (.block s5.mem.length) .objectList true).2 at k7
          have b7 := k7.mem _ _ b6
          have l7 : Lists (newWrapper addr { s5 with mem := (arriveObjects s5.mem (some n)).2 } (.block s5.mem.length) .objectList true).2 .objectList s5.next s5.mem.length := l7
          generalize hs7 : (newWrapper addr { s5 with mem := (arriveObjects s5.mem (some n)).2 } (.block s5.mem.length) .objectList true).2 = s7 at *
          have k07 := (k05.trans k6).trans k7
          by_cases hstop : interrupted = true ∨ a.ret = TRAX_ERROR ∨ a.ret = TRAX_QUIT
          · rw [if_pos hstop]
            obtain ⟨s8, g8, i8, -⟩ := h.goneAll_temp [s.next, s2.next, s4.next, s5.next] k07 h7 (fun _ hp => hp) hlocals
            refine ⟨(none, s8), ?_, i8.same (by simp)⟩
            rw [g8]; rfl
          · rw [if_neg hstop]
            have rl : reference s7 s5.next = .ok (.block s5.mem.length) := l7.reference h7
            rw [rl, Outcome.bind_ok]
            obtain ⟨ws, s8, r8, k8, i8, w8⟩ := wrapObjectList_ok (addr := addr) haddr h7 b7
            rw [r8, Outcome.bind_ok]
            dsimp only
            obtain ⟨s9, g9, i9, k9, r9⟩ := h.goneAll_temp [s.next, s2.next, s4.next, s5.next] (k07.trans k8) i8 (fun _ hp => hp) hlocals
            have hout : ∀ w ∈ ws, w ∉ [s.next, s2.next, s4.next, s5.next] := by
              intro w hw hm
              have := (w8 w hw).1
              simp only [List.mem_cons, List.not_mem_nil, or_false] at hm
              rcases hm with rfl | rfl | rfl | rfl <;> omega
            refine ⟨(some ws, s9), by rw [g9]; rfl, keep_one (i9.same ?_) ?_⟩
            · intro w
              simp only [List.mem_filter, List.mem_append, decide_not, Bool.not_eq_eq_eq_not, Bool.not_true, decide_eq_false_iff_not]
              constructor
              · rintro ⟨hw | hw, hne⟩
                · exact hw
                · exact absurd hw (fun hw => hne (by simp at hw ⊢; tauto))
              · intro hw; exact ⟨.inl hw, hout w hw⟩
            · intro w hw
              obtain ⟨e, he, hew, hrest⟩ := (w8 w hw).2
              exact .inr (.inl ⟨e, (r9 e).mpr ⟨he, hew ▸ hout w hw⟩, hew, hrest⟩)

/-! ### Programs -/

theorem wrapperOf_refers {s : State} {P : List Nat} (h : Inv s [] P) {k : Kind} {p : Place} {w : Nat} (hw : wrapperOf s k p = some w) : Refers s k w := by
  unfold wrapperOf at hw
  obtain ⟨w', hat, hw⟩ := Option.bind_eq_some_iff.mp hw
  obtain ⟨e, he, hw⟩ := Option.bind_eq_some_iff.mp hw
  by_cases hk : e.2.kind = k
  case neg => rw [if_neg hk] at hw; cases hw
  rw [if_pos hk] at hw
  cases hw
  have hmem := List.mem_of_find?_eq_some he
  have hew : e.2.wrapper = w := by simpa using List.find?_some he
  have hv : w ∈ s.vars.flatten := by
    unfold wrapperAt at hat
    obtain ⟨v, hv, hvw⟩ := Option.bind_eq_some_iff.mp hat
    exact List.mem_flatten.mpr ⟨v, List.mem_of_getElem? hv, List.mem_of_getElem? hvw⟩
  exact ⟨e, hmem, hew, hk, (h.simple e hmem (hew ▸ hv)).1⟩

theorem regionsOf_refers {s : State} {P : List Nat} (h : Inv s [] P) : ∀ (l : List (Place × Bool)) (r : List (Nat × Bool)), regionsOf s l = some r →
    ∀ e ∈ r, Refers s .region e.1 := by
  intro l
  induction l with
  | nil => intro r hr e he; cases hr; cases he
  | cons x rest ih =>
    intro r hr e he
    obtain ⟨p, b⟩ := x
    simp only [regionsOf] at hr
    obtain ⟨w, hw, hr⟩ := Option.bind_eq_some_iff.mp hr
    obtain ⟨r', hr', rfl⟩ := Option.map_eq_some_iff.mp hr
    rcases List.mem_cons.mp he with rfl | he
    · exact wrapperOf_refers h hw
    · exact ih r' hr' e he

theorem imagesOf_refers {s : State} {P : List Nat} (h : Inv s [] P) : ∀ (l : List (Option Place)) (r : List (Option Nat)), imagesOf s l = some r →
    ∀ w, some w ∈ r → Refers s .image w := by
  intro l
  induction l with
  | nil => intro r hr w hw; cases hr; cases hw
  | cons x rest ih =>
    intro r hr w hw
    cases x with
    | none =>
      simp only [imagesOf] at hr
      obtain ⟨r', hr', rfl⟩ := Option.map_eq_some_iff.mp hr
      rcases List.mem_cons.mp hw with hw | hw
      · cases hw
      · exact ih r' hr' w hw
    | some p =>
      simp only [imagesOf] at hr
      obtain ⟨w', hw', hr⟩ := Option.bind_eq_some_iff.mp hr
      obtain ⟨r', hr', rfl⟩ := Option.map_eq_some_iff.mp hr
      rcases List.mem_cons.mp hw with hw | hw
      · cases hw; exact wrapperOf_refers h hw'
      · exact ih r' hr' w hw

theorem mem_eraseIdx_flatten {l : List (List Nat)} {v : Nat} {ws : List Nat} (h : l[v]? = some ws) (w : Nat) :
    w ∈ l.flatten ↔ w ∈ (l.eraseIdx v).flatten ∨ w ∈ ws := by
  obtain ⟨hv, hw⟩ := List.getElem?_eq_some_iff.mp h
  have := List.eraseIdx_eq_take_drop_succ l v
  have h2 : l = l.take v ++ ws :: l.drop (v + 1) := by
    rw [← hw, ← List.drop_eq_getElem_cons hv, List.take_append_drop]
  have h3 : w ∈ l.flatten ↔ w ∈ (l.take v ++ ws :: l.drop (v + 1)).flatten := by rw [← h2]
  rw [h3, this]
  simp only [List.flatten_append, List.flatten_cons, List.mem_append]
  tauto

theorem step_ok (haddr : ∀ l, addr l ∉ l) {s : State} {P : List Nat} (h : Inv s [] P) (op : Op) (hp : Possible op) :
    ∃ s' Q, step addr s op = .ok s' ∧ Inv s' [] (Q ++ P) ∧ (Clean op ↔ Q = []) := by
  cases op with
  | create b =>
    have key : ∀ b : Block, (b.kind = .image ∨ b.kind = .region ∨ b.kind = .properties) →
        Inv { (newObject addr s b).2 with vars := (newObject addr s b).2.vars ++ [[(newObject addr s b).1]] } [] P := by
      intro b hb
      obtain ⟨h1, k1, e1, ⟨id, l1⟩, b1, -⟩ := h.new (addr := addr) haddr b
      refine Inv.keep (ws := [(newObject addr s b).1]) (L := []) (by simpa [e1] using h1) (by simp) ?_
      intro w hw
      simp only [List.mem_singleton] at hw
      subst hw
      rcases hb with hb | hb | hb
      · exact .inl ⟨_, l1, e1.symm, hb, rfl⟩
      · exact .inr (.inl ⟨_, l1, e1.symm, hb, rfl⟩)
      · exact .inr (.inr ⟨_, l1, e1.symm, hb, rfl⟩)
    cases b with
    | image => exact ⟨_, [], rfl, key .image (.inl rfl), iff_of_true trivial rfl⟩
    | region => exact ⟨_, [], rfl, key .region (.inr (.inl rfl)), iff_of_true trivial rfl⟩
    | properties => exact ⟨_, [], rfl, key .properties (.inr (.inr rfl)), iff_of_true trivial rfl⟩
    | imageList _ => exact ⟨s, [], rfl, h, iff_of_true trivial rfl⟩
    | objectList _ => exact ⟨s, [], rfl, h, iff_of_true trivial rfl⟩
  | badPolygon => exact ⟨_, [s.mem.length], rfl, (h.alloc .region).1, iff_of_false id (List.cons_ne_nil _ _)⟩
  | assign places =>
    refine ⟨_, [], rfl, ?_, iff_of_true trivial rfl⟩
    have hold : ∀ w ∈ places.filterMap (wrapperAt s), w ∈ s.vars.flatten := by
      intro w hw
      obtain ⟨p, -, hat⟩ := List.mem_filterMap.mp hw
      unfold wrapperAt at hat
      obtain ⟨v, hv, hvw⟩ := Option.bind_eq_some_iff.mp hat
      exact List.mem_flatten.mpr ⟨v, List.mem_of_getElem? hv, List.mem_of_getElem? hvw⟩
    have hflat : ∀ w, w ∈ (s.vars ++ [places.filterMap (wrapperAt s)]).flatten ↔ w ∈ s.vars.flatten := by
      intro w
      simp only [List.flatten_append, List.flatten_cons, List.flatten_nil, List.append_nil, List.mem_append]
      exact ⟨fun hw => hw.elim id (hold w), .inl⟩
    refine { h with known := ?_, sep := by simp, simple := ?_ }
    · intro w; rw [h.known w, hflat w]
    · intro e he hv; exact h.simple e he ((hflat _).mp hv)
  | drop v =>
    cases hv : s.vars[v]? with
    | none => exact ⟨s, [], by simp only [step, hv], h, iff_of_true trivial rfl⟩
    | some ws =>
      have hmem := mem_eraseIdx_flatten hv
      have hany : ∀ w, (s.vars.eraseIdx v).any (fun o => o.contains w) = true ↔ w ∈ (s.vars.eraseIdx v).flatten := by
        intro w; simp [List.any_eq_true, List.mem_flatten]
      have hL : ∀ w, w ∈ ws.filter (fun w => ¬ (s.vars.eraseIdx v).any fun o => o.contains w) ↔ w ∈ ws ∧ w ∉ (s.vars.eraseIdx v).flatten := by
        intro w; rw [List.mem_filter, decide_eq_true_iff, hany]
      have h1 : Inv { s with vars := s.vars.eraseIdx v } (ws.filter fun w => ¬ (s.vars.eraseIdx v).any fun o => o.contains w) P := by
        refine { h with known := ?_, sep := ?_, simple := ?_ }
        · intro w; rw [h.known w, hL, hmem]
          have := Classical.em (w ∈ (s.vars.eraseIdx v).flatten)
          simp only [List.not_mem_nil, or_false]
          tauto
        · intro w hw; exact ((hL w).mp hw).2
        · intro e he hv; exact h.simple e he ((hmem _).mpr (.inl hv))
      obtain ⟨s', g, i, -⟩ := h1.goneAll _ (fun w hw => ((hL w).mp hw).2)
      refine ⟨s', [], by simp only [step, hv]; exact g, i.same ?_, iff_of_true trivial rfl⟩
      intro w; simp only [List.mem_filter, List.not_mem_nil, iff_false]
      rintro ⟨h1, h2⟩
      simp only [decide_eq_true_eq] at h2
      exact h2 (by simpa using h1)
  | wait a =>
    obtain ⟨r, Q, hrun, hi, hc⟩ := serverWait_ok haddr h (a := a) hp
    exact ⟨keep r, Q, by simp only [step, hrun, Outcome.map, Outcome.bind_ok], hi, hc⟩
  | status objects encodes =>
    cases hr : regionsOf s objects with
    | none => exact ⟨s, [], by simp only [step, hr], h, iff_of_true trivial rfl⟩
    | some objects =>
      obtain ⟨s', hrun, hi⟩ := serverStatus_ok haddr h objects encodes (regionsOf_refers h _ _ hr)
      exact ⟨s', [], by simp only [step, hr, hrun], hi, iff_of_true trivial rfl⟩
  | call images objects encodes sent a interrupted =>
    cases hi : imagesOf s images with
    | none => exact ⟨s, [], by simp only [step, hi], h, iff_of_true trivial rfl⟩
    | some images =>
      cases hr : regionsOf s objects with
      | none => exact ⟨s, [], by simp only [step, hi, hr], h, iff_of_true trivial rfl⟩
      | some objects =>
        by_cases hlen : images.length = 3
        · obtain ⟨r, hrun, hk⟩ := clientCall_ok haddr h images objects encodes sent hp interrupted (imagesOf_refers h _ _ hi) (regionsOf_refers h _ _ hr)
          exact ⟨keep r, [], by simp only [step, hi, hr, if_pos hlen, hrun, Outcome.map, Outcome.bind_ok], hk, iff_of_true trivial rfl⟩
        · exact ⟨s, [], by simp only [step, hi, hr, if_neg hlen], h, iff_of_true trivial rfl⟩

theorem run_ok (haddr : ∀ l, addr l ∉ l) (ops : List Op) : ∀ {s : State} {P : List Nat}, Inv s [] P → (∀ op ∈ ops, Possible op) →
    ∃ s' Q, run addr ops s = .ok s' ∧ Inv s' [] (Q ++ P) ∧ ((∀ op ∈ ops, Clean op) ↔ Q = []) := by
  induction ops with
  | nil => intro s P h _; exact ⟨s, [], rfl, h, by simp⟩
  | cons op rest ih =>
    intro s P h hp
    obtain ⟨s1, Q1, r1, i1, c1⟩ := step_ok haddr h op (hp op List.mem_cons_self)
    obtain ⟨s2, Q2, r2, i2, c2⟩ := ih i1 (fun o ho => hp o (List.mem_cons_of_mem _ ho))
    refine ⟨s2, Q2 ++ Q1, by simp only [run, r1, Outcome.bind_ok, r2], by rwa [List.append_assoc], ?_⟩
    rw [List.append_eq_nil_iff, ← c1, ← c2]
    simp [and_comm]

theorem start_inv : Inv start [] [] := by
  refine ⟨?_, ?_, ?_, ?_, ?_, ?_, ?_, ?_, ?_, ?_, ?_⟩ <;> simp [start, At]

/-- What the program can reach. -/
theorem reached_live {s : State} {P : List Nat} (h : Inv s [] P) (p : Nat) : Live s p ↔ p ∈ P ∨ Reached s p := by
  have := h.live p
  unfold Live Reached
  unfold At at this
  rw [this]
  refine or_congr_right ⟨?_, ?_⟩
  · rintro ⟨e, he, ho, hi⟩
    have hv : e.2.wrapper ∈ s.vars.flatten := by
      rcases (h.known _).mp ⟨e, he, rfl⟩ with hv | hv
      · exact hv
      · cases hv
    obtain ⟨v, hv, hw⟩ := List.mem_flatten.mp hv
    exact ⟨v, hv, _, hw, e, he, rfl, hi⟩
  · rintro ⟨v, hv, w, hw, e, he, rfl, hi⟩
    exact ⟨e, he, (h.simple e he (List.mem_flatten.mpr ⟨v, hv, hw⟩)).1, hi⟩

end Trax.Py.Life
