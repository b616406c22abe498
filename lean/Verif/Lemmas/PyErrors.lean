import Verif.Lemmas.PySession
import Verif.Props.ErrorText
import Verif.Spec.PyErrors

/-!
# Lemmas about the texts of Python exceptions
-/

namespace Trax.Py
open Trax.Spec (Refused)
open Py.Spec Handle
open Region (bind_eq_ok map_eq_ok)

theorem fromC_ascii {t : Text} (h : ∀ c ∈ t, c < 128) : fromC (ascii t) = .ok t := by
  unfold fromC
  rw [decode_encode (ascii_encode h)]

/-- A text that explains something. -/
def Telling (e : ErrorText) : Prop := e = .garbled ∨ ∃ t : Text, t ≠ [] ∧ (∀ c ∈ t, c < 128) ∧ e = .text (ascii t)

theorem telling_text {s : Str} (t : Text) (h : s = ascii t) (hn : t ≠ []) (hc : ∀ c ∈ t, c < 128) : Telling (.text s) := .inr ⟨t, hn, hc, by rw [h]⟩

theorem raiseTold_explains {tried : Text} {e : ErrorText} (h : Telling e) : Explains tried e (raiseTold tried e) := by
  rcases h with rfl | ⟨t, h1, h2, rfl⟩
  · exact .inr ⟨rfl, rfl⟩
  · refine .inl ⟨t, h1, h2, rfl, ?_⟩
    simp only [raiseTold, fromC_ascii h2]

theorem clientFrame_texts {env : Env} {h : Handle} {images : ImageList} {objects : Option ObjList} {props : Option Properties}
    {r : Int × Handle} (hr : h.clientFrame env images objects props = .ok r) :
    (r.1 = TRAX_ERROR ∧ Telling r.2.error) ∨ (r.1 = TRAX_OK ∧ r.2.error = .none ∧ r.2.terminated = false) := by
  unfold clientFrame at hr
  dsimp only at hr
  split at hr
  · cases hr
  split at hr
  · cases hr; exact .inl ⟨rfl, telling_text t!"Client not alive" rfl (by decide) (by decide)⟩
  rename_i hal
  have hal : h.terminated = false := by simpa [alive, clearError] using hal
  split at hr
  · split at hr
    · cases hr; exact .inl ⟨rfl, telling_text t!"Invalid mode" rfl (by decide) (by decide)⟩
    · obtain ⟨s, -, hr⟩ := bind_eq_ok hr
      obtain ⟨a, -, rfl⟩ := map_eq_ok hr
      cases a
      · exact .inl ⟨rfl, .inl rfl⟩
      · exact .inr ⟨rfl, rfl, hal⟩
  · split at hr
    · cases hr; exact .inl ⟨rfl, telling_text t!"Unable to add new objects" rfl (by decide) (by decide)⟩
    · obtain ⟨a, -, rfl⟩ := map_eq_ok hr
      cases a
      · exact .inl ⟨rfl, .inl rfl⟩
      · exact .inr ⟨rfl, rfl, hal⟩

theorem clientInitialize_texts {env : Env} {h : Handle} {images : ImageList} {objects : ObjList} {props : Option Properties}
    {r : Int × Handle} (hr : h.clientInitialize env images objects props = .ok r) :
    (r.1 = TRAX_ERROR ∧ Telling r.2.error) ∨ (r.1 = TRAX_OK ∧ r.2.error = .none ∧ r.2.terminated = false) := by
  unfold clientInitialize at hr
  dsimp only at hr
  split at hr
  · cases hr
  split at hr
  · cases hr; exact .inl ⟨rfl, telling_text t!"Client not alive" rfl (by decide) (by decide)⟩
  rename_i hal
  have hal : h.terminated = false := by simpa [alive, clearError] using hal
  split at hr
  · cases hr; exact .inl ⟨rfl, telling_text t!"At least one object required" rfl (by decide) (by decide)⟩
  split at hr
  · cases hr; exact .inl ⟨rfl, telling_text t!"Too many objects given" rfl (by decide) (by decide)⟩
  split at hr
  · exact clientFrame_texts hr
  · split at hr
    · cases hr
    · split at hr
      · cases hr
      · obtain ⟨a, -, hr⟩ := bind_eq_ok hr
        cases a with
        | none => cases hr; exact .inl ⟨rfl, .inl rfl⟩
        | some a =>
          obtain ⟨d, -, rfl⟩ := map_eq_ok hr
          exact .inr ⟨rfl, rfl, hal⟩

theorem toC_error {t : Text} {e : Exc} (h : toC t = .error e) : e = .unicode := by
  unfold toC at h
  split at h <;> cases h
  rfl

theorem propSetAll_error : ∀ {d : Dict} {p : Properties} {e : Exc}, propSetAll p d = .error e → e = .unicode
  | [], _, _, h => by cases h
  | (k, v) :: d, p, e, h => by
    unfold propSetAll propSet at h
    cases hk : toC k with
    | error x => rw [hk] at h; cases h; exact toC_error hk
    | ok a =>
      rw [hk] at h
      cases hv : toC v with
      | error x => simp only [Except.bind, hv] at h; cases h; exact toC_error hv
      | ok b =>
        simp only [Except.bind, hv] at h
        exact propSetAll_error h

theorem wrapObjectsLoop_error (env : Env) : ∀ {objects : List (Region × Dict)} {i : Nat} {l : ObjList} {e : Exc},
    wrapObjectsLoop env objects i l = .ok (.error e) → e = .unicode
  | [], _, _, _, h => by cases h
  | (r, d) :: objects, i, l, e, h => by
    unfold wrapObjectsLoop at h
    cases hp : propNew d with
    | error x =>
      rw [hp] at h
      cases h
      exact propSetAll_error hp
    | ok p =>
      rw [hp] at h
      obtain ⟨l', -, h⟩ := bind_eq_ok h
      split at h
      · cases h
      · exact wrapObjectsLoop_error env h

/-- How the first half of a call of the client ends. -/
theorem clientSend_cases {env : Env} {start : Bool} {h : Handle} {images : List (Text × Image)} {objects : Option (List (Region × Dict))} {properties : Dict}
    {r : Except Exc Unit} {h' : Handle} (hr : clientSend env start h images objects properties = .ok (r, h')) :
    (r = .ok () ∧ h'.error = .none ∧ h'.terminated = false) ∨ (r = .error .trax ∧ Telling h'.error) ∨
    (h' = h ∧ (r = .error .unicode ∨ (r = .error .type ∧ objects = none))) := by
  unfold clientSend at hr
  rw [wrapImages_ok, Outcome.bind_ok] at hr
  cases objects with
  | none => cases hr; exact .inr (.inr ⟨rfl, .inr ⟨rfl, rfl⟩⟩)
  | some objects =>
    obtain ⟨tob, ho, hr⟩ := bind_eq_ok hr
    cases tob with
    | error e =>
      cases hr
      obtain rfl := wrapObjectsLoop_error env ho
      exact .inr (.inr ⟨rfl, .inl rfl⟩)
    | ok tob =>
      cases hp : propNew properties with
      | error e =>
        rw [hp] at hr
        cases hr
        obtain rfl := propSetAll_error hp
        exact .inr (.inr ⟨rfl, .inl rfl⟩)
      | ok p =>
        rw [hp] at hr
        dsimp only at hr
        obtain ⟨⟨ret, g⟩, hs, e⟩ := map_eq_ok hr
        have key : (ret = TRAX_ERROR ∧ Telling g.error) ∨ (ret = TRAX_OK ∧ g.error = .none ∧ g.terminated = false) := by
          cases start with
          | true => exact clientInitialize_texts hs
          | false => exact clientFrame_texts hs
        rcases key with ⟨rfl, ht⟩ | ⟨rfl, ht⟩
        · cases e; exact .inr (.inl ⟨rfl, ht⟩)
        · cases e; exact .inl ⟨rfl, ht⟩

end Trax.Py
