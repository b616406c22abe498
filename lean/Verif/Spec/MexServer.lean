import Verif.Model.MexServer
import Verif.Spec.Matlab
import Verif.Spec.Session
import Verif.Spec.Single

/-!
# Specification: what a user of `traxserver` writes and gets
-/

namespace Trax.Spec
open Mex

/-- `s` is the word `name`, in letters of either case. -/
def AnyCase (s name : Str) : Prop :=
  List.Forall₂ (fun a b : UInt8 => a = b ∨ (65 ≤ a.toNat ∧ a.toNat ≤ 90 ∧ b.toNat = a.toNat + 32)) s name

/-- The argument says the set `c`: by one name, or by a row or a column of names. -/
inductive Says (table : List (Str × UInt32)) (c : UInt32) : Arg → Prop where
  | one (s : Str) (h : Names table s c) : Says table c (.mx (.text s))
  | many (m n : Nat) (l : List Str) (hv : min m n = 1) (hl : l.length = max m n) (hn : ∀ s ∈ l, ∃ code, Names table s code)
      (h : Union table l c) : Says table c (.cell m n (l.map .text))

/-- A named argument of `setup`. -/
inductive Named where
  | name (s : Str)
  | description (s : Str)
  | family (s : Str)
  | channels (c : UInt32)
  | custom (key value : Str)

/-- The words that are names of arguments, of `traxserver` or of `traxclient`. -/
def reservedNames : List Str :=
  [b!"propstruct", b!"name", b!"description", b!"family", b!"debug", b!"timeout", b!"environment", b!"data", b!"connection", b!"directory",
    b!"log", b!"channels"]

/-- How a user writes a named argument. -/
inductive Named.Written : Named → Arg → Arg → Prop where
  | name (s k : Str) (hk : AnyCase k b!"name") (hs : Plain s) : Written (.name s) (.mx (.text k)) (.mx (.text s))
  | description (s k : Str) (hk : AnyCase k b!"description") (hs : Plain s) : Written (.description s) (.mx (.text k)) (.mx (.text s))
  | family (s k : Str) (hk : AnyCase k b!"family") (hs : Plain s) : Written (.family s) (.mx (.text k)) (.mx (.text s))
  | channels (c : UInt32) (k : Str) (a : Arg) (hk : AnyCase k b!"channels") (ha : Says mexChannels c a) : Written (.channels c) (.mx (.text k)) a
  | custom (key value : Str) (hk : ValidKey key) (hr : ∀ w ∈ reservedNames, ¬ AnyCase key w) (ht : ¬ b!"trax." <+: key) (hv : Plain value) :
      Written (.custom key value) (.mx (.text key)) (.mx (.text value))

/-- The named arguments in the order in which they are written. -/
inductive WrittenAll : List Named → List Arg → Prop where
  | nil : WrittenAll [] []
  | cons (n : Named) (k v : Arg) (ns : List Named) (as : List Arg) (h : n.Written k v) (hs : WrittenAll ns as) : WrittenAll (n :: ns) (k :: v :: as)

/-- The last of the values that are given, or `d`. -/
def lastOf {α : Type} (f : Named → Option α) (d : α) (l : List Named) : α := (l.filterMap f).getLast?.getD d

def Named.name? : Named → Option Str
  | .name s => some s
  | _ => none

def Named.description? : Named → Option Str
  | .description s => some s
  | _ => none

def Named.family? : Named → Option Str
  | .family s => some s
  | _ => none

def Named.channels? : Named → Option UInt32
  | .channels c => some c
  | _ => none

def Named.custom? : Named → Option (Str × Str)
  | .custom k v => some (k, v)
  | _ => none

/-- The custom properties that are given; a later value of the same key counts. -/
def customOf (l : List Named) : AMap := (l.filterMap Named.custom?).foldl (fun (b : AMap) kv => AMap.set b kv.1 kv.2) AMap.empty

/-! ## Exchanges -/

/-- What a client asks for: to start with a region, or to go on with a frame. -/
structure Request where
  start : Option Region
  images : ImageList
  props : List (Str × Str)

/-- The call of the client. -/
def Request.send (clientEnv : Env) (c : Handle) (q : Request) : Outcome (Int × Option Handle) :=
  match q.start with
  | some r => Cpp.clientInitializeRegion clientEnv (some c) q.images (some r) (some (Properties.ofPairs q.props))
  | none => Cpp.clientFrameImages clientEnv (some c) q.images (some (Properties.ofPairs q.props))

/-- A region that can be shown as an array: numbers, or a mask that is not above or left of the image. -/
def Showable : Region → Prop
  | .special _ => False
  | .mask x y w h _ => 0 ≤ x ∧ 0 ≤ y ∧ (h + y) * (w + x) < 2147483648
  | _ => True

/-- A request that the client may make when `n` objects are tracked; the region is sent as `sent`. -/
structure Request.Proper (clientEnv : Env) (c s : Handle) (n : Nat) (q : Request) (sent : Option Region) : Prop where
  started : q.start = none → n = 1
  images : SendableImages s.metadata.channels s.metadata.images q.images
  region : ∀ r, q.start = some r → WellFormed r ∧ ∃ r', sent = some r' ∧ Region.toSend clientEnv.legacy clientEnv.fresh r c.metadata.regions = .ok r' ∧
    Sendable r' ∧ Showable r'
  props : SendablePairs q.props

/-- The arguments of `wait`; a flag tells whether properties are wanted as a structure. -/
inductive WaitArgs : List Arg → Bool → Prop where
  | plain (op : Str) (hop : AnyCase op b!"wait") : WaitArgs [.mx (.text op)] false
  | logical (op key : Str) (hop : AnyCase op b!"wait") (hk : AnyCase key b!"propstruct") (b : Bool) :
      WaitArgs [.mx (.text op), .mx (.text key), .logical b] b
  | number (op key : Str) (hop : AnyCase op b!"wait") (hk : AnyCase key b!"propstruct") (neg : Bool) (m : Nat) (b : Bool)
      (hb : b = true ↔ 0 < doubleValue (.fin neg m)) :
      WaitArgs [.mx (.text op), .mx (.text key), .mx (.double 1 1 [.fin neg m])] b

/-- The array shows the image: the path of a file, the pixels, or the content of a file in a buffer. -/
inductive ShowsImage : Image → Mx → Prop where
  | path (p : Str) : ShowsImage (.path p) (.text p)
  | memory (w h : Nat) (f : Int) (data : List UInt8) (arr : Mx) (hp : SamePixels w h data f arr) : ShowsImage (.memory w h f data) arr
  | png (data : List UInt8) : ShowsImage (.buffer 1 data) (.file b!"png" data)
  | jpeg (data : List UInt8) : ShowsImage (.buffer 2 data) (.file b!"jpeg" data)

/-- The cells show the images of the channels, in the order of the channels. -/
def ShowsImages (channels : UInt32) (images : ImageList) (cells : List Mx) : Prop :=
  List.Forall₂ (fun c a => ∃ img img', images[c.1]? = some (some img) ∧ ImageArrives img img' ∧ ShowsImage img' a)
    (channelFlags.filter fun c => channels &&& c.2 ≠ 0) cells

/-- The array shows the region. -/
inductive ShowsRegion : Region → Mx → Prop where
  | rectangle (x y w h a b c d : Flt) (hx : SameNumber x a) (hy : SameNumber y b) (hw : SameNumber w c) (hh : SameNumber h d) :
      ShowsRegion (.rectangle x y w h) (.double 1 4 [a, b, c, d])
  | polygon (ps : List (Flt × Flt)) (r : List Flt) (hl : r.length = 2 * ps.length)
      (hp : ∀ k p, ps[k]? = some p → ∃ a b, r[2 * k]? = some a ∧ r[2 * k + 1]? = some b ∧ SameNumber p.1 a ∧ SameNumber p.2 b) :
      ShowsRegion (.polygon ps) (.double 1 (2 * ps.length) r)
  | mask (x y w h : Nat) (data out : List UInt8) (hl : out.length = (h + y) * (w + x))
      (hp : ∀ r c, r < h + y → c < w + x → arrayByte 1 (h + y) (w + x) out r c 0 0 = some (maskAt x y w h data r c)) :
      ShowsRegion (.mask x y w h data) (.bytes 1 [h + y, w + x] out)

/-- An array that a user may give as a region: four numbers, six or more in pairs, or an image of bytes. -/
inductive RegionArray : Mx → Prop where
  | rectangle (a b c d : Flt) : RegionArray (.double 1 4 [a, b, c, d])
  | polygon (n : Nat) (r : List Flt) (hn : 3 ≤ n) (hl : r.length = 2 * n) : RegionArray (.double 1 (2 * n) r)
  | mask (w h : Nat) (r : List UInt8) (hw : 1 ≤ w) (hh : 1 ≤ h) (hl : r.length = h * w) (hf : h * w < 2147483648) :
      RegionArray (.bytes 1 [h, w] r)

/-- The region that the array means: a rectangle, a polygon, or a mask at the origin. -/
inductive MeansRegion : Mx → Region → Prop where
  | rectangle (a b c d x y w h : Flt) (hx : NextFloat a x) (hy : NextFloat b y) (hw : NextFloat c w) (hh : NextFloat d h) :
      MeansRegion (.double 1 4 [a, b, c, d]) (.rectangle x y w h)
  | polygon (n : Nat) (r : List Flt) (ps : List (Flt × Flt)) (hn : ps.length = n)
      (hp : ∀ k a b, k < n → r[2 * k]? = some a → r[2 * k + 1]? = some b → ∃ x y, ps[k]? = some (x, y) ∧ NextFloat a x ∧ NextFloat b y) :
      MeansRegion (.double 1 (2 * n) r) (.polygon ps)
  | mask (w h : Nat) (r data : List UInt8) (hl : data.length = w * h)
      (hp : ∀ i j, i < h → j < w → data[w * i + j]? = arrayByte 1 h w r i j 0 0) : MeansRegion (.bytes 1 [h, w] r) (.mask 0 0 w h data)

/-- The properties as a structure, or as a matrix of two columns with a property in each row. -/
inductive ShowsProperties (p : AMap) : Bool → Out → Prop where
  | cell (kvs : List (Str × Str)) (hn : (kvs.map Prod.fst).Nodup) (h : ∀ k v, (k, v) ∈ kvs ↔ p k = some v) :
      ShowsProperties p false (.cell kvs.length 2 (kvs.map (fun kv => Value.text kv.1) ++ kvs.map fun kv => Value.text kv.2))
  | struct (kvs : List (Str × Str)) (hn : (kvs.map Prod.fst).Nodup) (h : ∀ k v, (k, v) ∈ kvs ↔ p k = some v) :
      ShowsProperties p true (.struct (kvs.map fun kv => (kv.1, Value.text kv.2)))

end Trax.Spec
