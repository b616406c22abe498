import Verif.Model.MexClient
import Verif.Spec.MexServer

/-!
# Specification: what a callback of `traxclient` sees and does, and what its arguments mean
-/

namespace Trax.Mex.Client.Spec
open Trax.Spec (ShowsRegion RegionArray MeansRegion FieldName mexRegions mexImages mexChannels AnyCase doubleValue)

/-- The cells are a row with the name of each member of the set, once. -/
def IsSet (table : List (Str × UInt32)) (f : UInt32) (cells : Cells Str) : Prop :=
  ∃ l, cells = .many 1 l.length l ∧ l.Nodup ∧ ∀ name, name ∈ l ↔ ∃ code, (name, code) ∈ table ∧ f &&& code ≠ 0

/-- A region that can be shown as an array. -/
inductive Drawable : Region → Prop where
  | rectangle (x y w h : Flt) : Drawable (.rectangle x y w h)
  | polygon (ps : List (Flt × Flt)) : Drawable (.polygon ps)
  | mask (x y w h : Nat) (data : List UInt8) (hw : 1 ≤ w) (hh : 1 ≤ h) (hl : data.length = w * h) (hf : (h + y) * (w + x) < 2147483648) :
      Drawable (.mask x y w h data)

/-- The value of the last answer that has one for the key. -/
def LastValue (answers : List Answer) (k v : Str) : Prop :=
  ∃ before a after, answers = before ++ a :: after ∧ a.properties.get k = some v ∧ ∀ b ∈ after, b.properties.get k = none

/-- The names in the answers are names of fields. -/
def Nameable (answers : List Answer) : Prop := ∀ a ∈ answers, a.properties.WF ∧ ∀ kv ∈ a.properties.enumerate, FieldName kv.1

/-- What the callback gets after these answers of the tracker. -/
structure Shows (d : Declaration) (answers : List Answer) (sh : Shown) : Prop where
  /-- nothing at first -/
  first : answers = [] → sh.region = none ∧ sh.time = Flt.zero ∧ sh.properties = []
  /-- then the region and the time of the last answer -/
  region : ∀ a, answers.getLast? = some a → sh.time = a.time ∧ ∃ arr, sh.region = some arr ∧ (Drawable a.region → ShowsRegion a.region arr)
  /-- the properties of the answers, of each name the last value -/
  properties : Nameable answers → ∃ kvs : List (Str × Str), sh.properties = kvs.map (fun kv => (kv.1, Value.text kv.2)) ∧ (kvs.map Prod.fst).Nodup ∧
    ∀ k v, (k, v) ∈ kvs ↔ NoNul k ∧ LastValue answers k v
  /-- the tracker -/
  tracker : sh.name = d.name ∧ sh.description = d.description ∧ sh.family = d.family ∧ IsSet mexRegions d.regions sh.regions ∧
    IsSet mexImages d.images sh.images ∧ IsSet mexChannels d.channels sh.channels

/-- The request in a reply of the callback. -/
structure Asks {σ γ δ : Type} (S : Setting σ γ δ) (r : Reply δ) (images : ImageList) (region : Option Region) (p : Properties) : Prop where
  images : ∃ cells, r.images = some cells ∧ arrayToImages S.fresh S.declared.channels cells = .ok (some images) ∧ ∃ image, some image ∈ images
  region : r.region = none ∧ region = none ∨ ∃ arr x, r.region = some arr ∧ region = some x ∧ (RegionArray arr → MeansRegion arr x)
  parameters : (∃ fields, r.parameters = some (.struct fields) ∧ p = structToParameters fields) ∨
    (∃ m n l, r.parameters = some (.cell m n l) ∧ cellToParameters m n l = .ok (some p)) ∨
    (r.parameters.all (fun a => match a with | .struct _ => false | .cell _ _ _ => false | _ => true) = true ∧ p = Properties.create)

/-- Rounds of a run. In each the callback is called with what the tracker answered before, and with the data it gave before. A region starts the tracker (again), after a
reset if it was started before; otherwise the images are the next frame. Then the tracker answers. -/
inductive Rounds {σ γ δ : Type} (S : Setting σ γ δ) : Bool → List Answer → δ → List (Event δ) → Bool → List Answer → δ → Prop where
  | nil (b : Bool) (as : List Answer) (d : δ) : Rounds S b as d [] b as d
  | start (b : Bool) (as : List Answer) (d : δ) (sh : Shown) (r : Reply δ) (images : ImageList) (x : Region) (p : Properties) (a : Answer) (es : List (Event δ))
      (b' : Bool) (as' : List Answer) (d' : δ) (hs : Shows S.declared as sh) (hr : Asks S r images (some x) p) (h : Rounds S true (as ++ [a]) r.data es b' as' d') :
      Rounds S b as d ([.call sh d r] ++ (if b then [.reset] else []) ++ [.init images x p, .answer a] ++ es) b' as' d'
  | frame (as : List Answer) (d : δ) (sh : Shown) (r : Reply δ) (images : ImageList) (p : Properties) (a : Answer) (es : List (Event δ))
      (b' : Bool) (as' : List Answer) (d' : δ) (hs : Shows S.declared as sh) (hr : Asks S r images none p) (h : Rounds S true (as ++ [a]) r.data es b' as' d') :
      Rounds S true as d ([.call sh d r, .frame images p, .answer a] ++ es) b' as' d'

/-- The reply ends the run: there are no images, or there is no region although the tracker was not started. -/
def Ends {σ γ δ : Type} (S : Setting σ γ δ) (started : Bool) (r : Reply δ) : Prop :=
  r.images = none ∨ (∃ cells images, r.images = some cells ∧ arrayToImages S.fresh S.declared.channels cells = .ok (some images) ∧ ∀ image, some image ∉ images) ∨
    started = false ∧ r.region = none

/-- What happens after the last complete round. A run that gives data ends with a reply of the callback that ends it. A run with an error ends anywhere. -/
inductive Conclusion {σ γ δ : Type} (S : Setting σ γ δ) (started : Bool) (answers : List Answer) (d : δ) : List (Event δ) → End δ → Prop where
  | data (sh : Shown) (r : Reply δ) (hs : Shows S.declared answers sh) (he : Ends S started r) : Conclusion S started answers d [.call sh d r] (.data r.data)
  | nothing : Conclusion S started answers d [] .error
  | reply (sh : Shown) (r : Reply δ) (hs : Shows S.declared answers sh) : Conclusion S started answers d [.call sh d r] .error
  | start (sh : Shown) (r : Reply δ) (hs : Shows S.declared answers sh) (images : ImageList) (x : Region) (p : Properties) (hr : Asks S r images (some x) p) :
      Conclusion S started answers d ([.call sh d r] ++ (if started then [.reset] else []) ++ [.init images x p]) .error
  | frame (sh : Shown) (r : Reply δ) (hs : Shows S.declared answers sh) (images : ImageList) (p : Properties) (hr : Asks S r images none p) (hb : started = true) :
      Conclusion S started answers d [.call sh d r, .frame images p] .error

/-! ## The arguments -/

/-- A named argument of `traxclient`. -/
inductive Named where
  | debug (b : Bool)
  | timeout (n : Int)
  | connection (m : Environ.Mode)
  | environment (l : List (Str × Str))
  | data (a : Arg)
  | directory (s : Str)
  | log (s : Str)

/-- How a user writes a named argument: a number of seconds is rounded toward zero. -/
inductive Named.Written : Named → Arg → Arg → Prop where
  | debugFlag (k : Str) (hk : AnyCase k b!"debug") (b : Bool) : Written (.debug b) (.mx (.text k)) (.logical b)
  | debugNumber (k : Str) (hk : AnyCase k b!"debug") (neg : Bool) (m : Nat) (b : Bool) (hb : b = true ↔ doubleValue (.fin neg m) ≠ 0) :
      Written (.debug b) (.mx (.text k)) (.mx (.double 1 1 [.fin neg m]))
  | timeout (k : Str) (hk : AnyCase k b!"timeout") (neg : Bool) (m : Nat) (n : Int) (h1 : -2147483648 ≤ n) (h2 : n ≤ 2147483647)
      (h3 : |(n : ℚ)| ≤ |doubleValue (.fin neg m)| ∧ |doubleValue (.fin neg m)| < |(n : ℚ)| + 1) (h4 : n < 0 → doubleValue (.fin neg m) < 0)
      (h5 : 0 < n → 0 < doubleValue (.fin neg m)) :
      Written (.timeout n) (.mx (.text k)) (.mx (.double 1 1 [.fin neg m]))
  | standard (k s : Str) (hk : AnyCase k b!"connection") (hs : AnyCase s b!"standard") : Written (.connection .standard) (.mx (.text k)) (.mx (.text s))
  | explicit (k s : Str) (hk : AnyCase k b!"connection") (hs : AnyCase s b!"explicit") : Written (.connection .explicit) (.mx (.text k)) (.mx (.text s))
  | sockets (k s : Str) (hk : AnyCase k b!"connection") (hs : AnyCase s b!"socket") : Written (.connection .sockets) (.mx (.text k)) (.mx (.text s))
  | environment (k : Str) (hk : AnyCase k b!"environment") (l : List (Str × Str)) (hl : ∀ kv ∈ l, NoNul kv.2) :
      Written (.environment l) (.mx (.text k)) (.struct (l.map fun kv => (kv.1, Value.text kv.2)))
  | data (k : Str) (hk : AnyCase k b!"data") (a : Arg) : Written (.data a) (.mx (.text k)) a
  | directory (k s : Str) (hk : AnyCase k b!"directory") (hs : NoNul s) : Written (.directory s) (.mx (.text k)) (.mx (.text s))
  | log (k s : Str) (hk : AnyCase k b!"log") (hs : NoNul s) : Written (.log s) (.mx (.text k)) (.mx (.text s))

/-- The named arguments in the order in which they are written. -/
inductive WrittenAll : List Named → List Arg → Prop where
  | nil : WrittenAll [] []
  | cons (n : Named) (k v : Arg) (ns : List Named) (as : List Arg) (h : n.Written k v) (hs : WrittenAll ns as) : WrittenAll (n :: ns) (k :: v :: as)

/-- The last of the values that are given, or `d`. -/
def lastOf {α : Type} (f : Named → Option α) (d : α) (l : List Named) : α := (l.filterMap f).getLast?.getD d

/-- All variables of the environment that are given. -/
def allVariables (l : List Named) : List (Str × Str) := l.flatMap fun n => match n with
  | .environment l => l
  | _ => []

def Named.debug? : Named → Option Bool
  | .debug b => some b
  | _ => none

def Named.timeout? : Named → Option Int
  | .timeout n => some n
  | _ => none

def Named.connection? : Named → Option Environ.Mode
  | .connection m => some m
  | _ => none

def Named.data? : Named → Option Arg
  | .data a => some a
  | _ => none

def Named.directory? : Named → Option Str
  | .directory s => some s
  | _ => none

def Named.log? : Named → Option Str
  | .log s => some s
  | _ => none

/-- The names of the arguments. -/
def clientNames : List Str := [b!"debug", b!"timeout", b!"connection", b!"environment", b!"data", b!"directory", b!"log"]

end Trax.Mex.Client.Spec
