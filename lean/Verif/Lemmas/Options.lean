import Verif.Model.Options
import Verif.Spec.Options
import Mathlib.Data.List.Forall2
import Mathlib.Tactic.Tauto

/-!
# Lemmas about `getopt`
-/

namespace Trax.Opt
open Trax.Spec (Letters Item PlainLetter Group Reads)

theorem proper_tail {p : Byte × Bool} {t : Letters} (h : Letters.Proper (p :: t)) : Letters.Proper t :=
  ⟨fun q hq => h.1 q (by simp [hq]), (List.nodup_cons.mp h.2).2⟩

theorem text_cons (p : Byte × Bool) (t : Letters) :
    Letters.text (p :: t) = (if p.2 then [p.1, ch%':'] else [p.1]) ++ Letters.text t := by
  simp [Letters.text]

theorem text_head {t : Letters} (h : t.Proper) : t.text.head? ≠ some ch%':' := by
  cases t with
  | nil => simp [Letters.text]
  | cons p t =>
    have := (h.1 p (by simp)).2.2
    rw [text_cons]
    split <;> simpa using this

theorem strchr_text {t : Letters} (h : t.Proper) (c : Byte) (b : Bool) (hm : (c, b) ∈ t) :
    ∃ rest, strchrRest c t.text = some rest ∧ (rest.head? = some ch%':' ↔ b = true) := by
  induction t with
  | nil => simp at hm
  | cons p t ih =>
    obtain ⟨d, b'⟩ := p
    have hd := h.1 (d, b') (by simp)
    by_cases hc : d = c
    · subst hc
      have hb : b' = b := by
        rcases List.mem_cons.mp hm with h1 | h1
        · injection h1 with _ h2; exact h2.symm
        · exact absurd (List.mem_map.mpr ⟨_, h1, rfl⟩) (List.nodup_cons.mp h.2).1
      subst hb
      rw [text_cons]
      cases b' with
      | true => exact ⟨ch%':' :: Letters.text t, by simp [strchrRest], by simp⟩
      | false => exact ⟨Letters.text t, by simp [strchrRest], by simpa using text_head (proper_tail h)⟩
    · have hm' : (c, b) ∈ t := by
        rcases List.mem_cons.mp hm with h1 | h1
        · injection h1 with h2 _; exact absurd h2.symm hc
        · exact h1
      obtain ⟨rest, h1, h2⟩ := ih (proper_tail h) hm'
      refine ⟨rest, ?_, h2⟩
      have hcc : ch%':' ≠ c := fun e => ((proper_tail h).1 _ hm').2.2 e.symm
      rw [text_cons]
      cases b' <;> simp [strchrRest, hc, hcc, h1]

theorem strchr_none {t : Letters} (c : Byte) (hc : c ≠ ch%':') (hm : c ∉ t.map (·.1)) : strchrRest c t.text = none := by
  induction t with
  | nil => rfl
  | cons p t ih =>
    obtain ⟨d, b'⟩ := p
    simp only [List.map_cons, List.mem_cons, not_or] at hm
    have h1 : d ≠ c := fun e => hm.1 e.symm
    have h2 : ch%':' ≠ c := fun e => hc e.symm
    rw [text_cons]
    cases b' <;> simp [strchrRest, h1, h2, ih hm.2]

/-- What a call shows of an item. -/
def Shows (i : Item) (e : Event) : Prop := i.Shown e.result e.optopt e.optarg

/-- Calls of `getopt` that do not return -1. -/
inductive Chain (argv : List Str) (opts : Str) : Scan → List Event → Scan → Prop where
  | nil (s : Scan) : Chain argv opts s [] s
  | cons (s s1 s2 : Scan) (r : Int) (es : List Event) : getopt argv opts s = .ok (r, s1) → r ≠ -1 →
      Chain argv opts s1 es s2 → Chain argv opts s (⟨r, s1.optopt, s1.optarg⟩ :: es) s2

theorem Chain.append {argv : List Str} {opts : Str} {s s1 s2 : Scan} {es fs : List Event}
    (h : Chain argv opts s es s1) (h' : Chain argv opts s1 fs s2) : Chain argv opts s (es ++ fs) s2 := by
  induction h with
  | nil s => exact h'
  | cons s s1 _ r es h1 h2 _ ih => exact .cons s s1 s2 r _ h1 h2 (ih h')

theorem Chain.loop {argv : List Str} {opts : Str} {s s1 s2 : Scan} {es : List Event}
    (h : Chain argv opts s es s1) (h' : getopt argv opts s1 = .ok (-1, s2)) (fuel : Nat) (hf : es.length < fuel) :
    optionLoop argv opts fuel s = .ok (es, s2.optind) := by
  induction h generalizing fuel with
  | nil s =>
    obtain ⟨n, rfl⟩ : ∃ n, fuel = n + 1 := ⟨fuel - 1, by simp at hf; omega⟩
    simp [optionLoop, h']
  | cons s s1 _ r es h1 h2 _ ih =>
    obtain ⟨n, rfl⟩ : ∃ n, fuel = n + 1 := ⟨fuel - 1, by simp at hf; omega⟩
    have := ih h' n (by simp at hf; omega)
    simp [optionLoop, h1, h2, this, Outcome.map]

theorem charInt_ascii {c : Byte} (h : c.toNat < 128) : charInt c = c.toNat := by simp [charInt, h]

theorem charAt_some {a : Str} {i : Nat} {c : Byte} (h : a[i]? = some c) : charAt a i = .ok c := by simp [charAt, h]

theorem charAt_end (a : Str) : charAt a a.length = .ok 0 := by simp [charAt]

/-- A word of options: a minus sign and at least one letter, not two minus signs. -/
theorem getopt_word {argv : List Str} {opts : Str} {s : Scan} {cs : Str} (h : argv[s.optind]? = some (ch%'-' :: cs))
    (hne : cs ≠ []) (h0 : (0 : Byte) ∉ cs) (hd : cs ≠ b!"-") : getopt argv opts s = takeLetter argv opts s := by
  obtain ⟨c, cs', rfl⟩ := List.exists_cons_of_ne_nil hne
  have hc : c ≠ 0 := fun e => h0 (by simp [e])
  have hw : ¬ (ch%'-' :: c :: cs' = b!"--") := by
    intro e
    apply hd
    have := congrArg List.tail e
    simpa using this
  unfold getopt
  split
  · rw [h]
    simp only [charAt, List.getElem?_cons_zero, List.getElem?_cons_succ, Outcome.bind_ok]
    rw [if_neg (by simp), if_neg hc, if_neg hw]
  · rfl

/-- The state after a letter without argument. -/
theorem advance_more {a : Str} {s : Scan} {d : Byte} (h : a[s.sp + 1]? = some d) (h0 : d ≠ 0) :
    advance a s = .ok { s with sp := s.sp + 1 } := by
  simp [advance, charAt_some h, h0, Outcome.map]

theorem advance_end {a : Str} {s : Scan} (h : s.sp + 1 = a.length) :
    advance a s = .ok { s with optind := s.optind + 1, sp := 1 } := by
  simp [advance, h, charAt_end, Outcome.map]

theorem take_simple {t : Letters} (ht : t.Proper) {argv : List Str} {s s1 : Scan} {a : Str} {c : Byte} {i : Item}
    (h : argv[s.optind]? = some a) (hc : a[s.sp]? = some c) (h0 : c ≠ 0) (hs : PlainLetter t c i)
    (ha : advance a { s with optopt := c } = .ok s1) :
    ∃ r s2, takeLetter argv t.text s = .ok (r, s2) ∧ r ≠ -1 ∧ s2.optind = s1.optind ∧ s2.sp = s1.sp ∧
      Shows i ⟨r, s2.optopt, s2.optarg⟩ := by
  have hopt : s1.optopt = c := by
    unfold advance at ha
    rcases hx : charAt a (s.sp + 1) with d | _ | _
    · rw [hx] at ha
      simp only [Outcome.map, Outcome.bind_ok] at ha
      injection ha with ha
      subst ha
      split <;> rfl
    · rw [hx] at ha; simp [Outcome.map] at ha
    · rw [hx] at ha; simp [Outcome.map] at ha
  unfold takeLetter
  rw [h]
  simp only [charAt_some hc, Outcome.bind_ok]
  rw [if_neg h0]
  cases hs with
  | flag hm =>
    obtain ⟨rest, h1, h2⟩ := strchr_text ht c false hm
    have hp := ht.1 _ hm
    rw [if_neg hp.2.2, h1]
    simp only [] at *
    rw [if_neg (by rw [h2]; simp), ha]
    refine ⟨charInt c, { s1 with optarg := none }, rfl, ?_, rfl, rfl, ?_⟩
    · rw [charInt_ascii hp.2.1]; omega
    · exact ⟨charInt_ascii hp.2.1, hopt, rfl⟩
  | unknown hm =>
    by_cases hcc : c = ch%':'
    · rw [if_pos hcc, ha]
      exact ⟨_, s1, rfl, by decide, rfl, rfl, rfl, hopt⟩
    · rw [if_neg hcc, strchr_none c hcc hm, ha]
      exact ⟨_, s1, rfl, by decide, rfl, rfl, rfl, hopt⟩

theorem getElem_mid (x : Byte) (pre : Str) (c : Byte) (rest : Str) : (x :: (pre ++ c :: rest))[1 + pre.length]? = some c := by
  rw [Nat.add_comm, List.getElem?_cons_succ]
  simp

/-- The letters of a word that have no argument. -/
theorem chain_group {t : Letters} (ht : t.Proper) {argv : List Str} {cs : Str} {is : List Item} (hg : Group t cs is)
    (k : Nat) (tail : Str) : ∀ (pre : Str) (s : Scan), argv[k]? = some (ch%'-' :: (pre ++ (cs ++ tail))) →
    (0 : Byte) ∉ pre ++ (cs ++ tail) → pre ++ (cs ++ tail) ≠ b!"-" → s.optind = k → s.sp = 1 + pre.length →
    ∃ es s', Chain argv t.text s es s' ∧ List.Forall₂ Shows is es ∧
      (if tail = [] ∧ cs ≠ [] then s'.optind = k + 1 ∧ s'.sp = 1 else s'.optind = k ∧ s'.sp = 1 + pre.length + cs.length) := by
  induction hg with
  | nil =>
    intro pre s _ _ _ h1 h2
    exact ⟨[], s, .nil s, .nil, by simp [h1, h2]⟩
  | cons c i cs is hs hg ih =>
    intro pre s hw h0 hd h1 h2
    have hc0 : c ≠ 0 := fun e => h0 (by simp [e])
    have hmid : (ch%'-' :: (pre ++ (c :: cs ++ tail)))[s.sp]? = some c := by
      rw [h2]; exact getElem_mid _ pre c (cs ++ tail)
    have hgo := getopt_word (opts := t.text) (s := s) (by rw [h1]; exact hw) (by simp) h0 hd
    by_cases he : cs ++ tail = []
    · obtain ⟨hcs, htl⟩ := List.append_eq_nil_iff.mp he
      have hadv := advance_end (a := ch%'-' :: (pre ++ (c :: cs ++ tail))) (s := { s with optopt := c }) (by
        simp [h2, hcs, htl]; omega)
      obtain ⟨r, s2, e1, e2, e3, e4, e5⟩ := take_simple ht (by rw [h1]; exact hw) hmid hc0 hs hadv
      subst hcs
      cases hg
      refine ⟨[⟨r, s2.optopt, s2.optarg⟩], s2, .cons _ _ _ _ _ (by rw [hgo, e1]) e2 (.nil _), .cons e5 .nil, ?_⟩
      rw [if_pos ⟨htl, by simp⟩]
      exact ⟨by rw [e3]; simp [h1], by rw [e4]⟩
    · obtain ⟨d, rest, hdr⟩ := List.exists_cons_of_ne_nil he
      have hd0 : d ≠ 0 := fun e => h0 (by
        have : (0 : Byte) ∈ cs ++ tail := by rw [hdr, e]; simp
        simp only [List.cons_append, List.mem_append, List.mem_cons] at this ⊢
        tauto)
      have hadv := advance_more (a := ch%'-' :: (pre ++ (c :: cs ++ tail))) (s := { s with optopt := c }) (d := d) (by
        have := getElem_mid ch%'-' (pre ++ [c]) d rest
        simp only [List.append_assoc, List.singleton_append, List.length_append, List.length_singleton] at this
        rw [← hdr] at this
        simp only [h2, List.cons_append]
        rw [Nat.add_assoc]
        exact this) hd0
      obtain ⟨r, s2, e1, e2, e3, e4, e5⟩ := take_simple ht (by rw [h1]; exact hw) hmid hc0 hs hadv
      obtain ⟨es, s', f1, f2, f3⟩ := ih (pre ++ [c]) s2 (by simpa using hw) (by simpa using h0) (by simpa using hd)
        (by rw [e3]; exact h1) (by rw [e4]; simp [h2]; omega)
      refine ⟨⟨r, s2.optopt, s2.optarg⟩ :: es, s', .cons _ _ _ _ _ (by rw [hgo, e1]) e2 f1, .cons e5 f2, ?_⟩
      by_cases htl : tail = []
      · have hcs : cs ≠ [] := fun e => he (by simp [e, htl])
        rw [if_pos ⟨htl, hcs⟩] at f3
        rw [if_pos ⟨htl, by simp⟩]
        exact f3
      · rw [if_neg (by tauto)] at f3
        rw [if_neg (by tauto)]
        refine ⟨f3.1, ?_⟩
        rw [f3.2]
        simp
        omega

/-- An option with an argument. -/
theorem take_value {t : Letters} (ht : t.Proper) {argv : List Str} {s : Scan} {a : Str} {c : Byte}
    (h : argv[s.optind]? = some a) (hc : a[s.sp]? = some c) (hm : (c, true) ∈ t) :
    takeLetter argv t.text s = (charAt a (s.sp + 1)).bind fun d =>
      if d ≠ 0 then
        .ok ((c.toNat : Int), { s with optopt := c, optarg := some (a.drop (s.sp + 1)), optind := s.optind + 1, sp := 1 })
      else
        match argv[s.optind + 1]? with
        | none => .ok (((ch%'?').toNat : Int), { s with optopt := c, optind := s.optind + 1, sp := 1 })
        | some b => .ok ((c.toNat : Int), { s with optopt := c, optarg := some b, optind := s.optind + 2, sp := 1 }) := by
  have hp := ht.1 _ hm
  obtain ⟨rest, h1, h2⟩ := strchr_text ht c true hm
  unfold takeLetter
  rw [h]
  simp only [charAt_some hc, Outcome.bind_ok]
  rw [if_neg hp.1, if_neg hp.2.2, h1]
  simp only [h2, if_true, charInt_ascii hp.2.1]
  rfl

end Trax.Opt
