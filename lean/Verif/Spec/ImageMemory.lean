import Verif.Model.ImageMemory

/-!
# What programs that use images and image lists may expect

Images and lists as things with an identity (a number): an image has a value until it is released, variables and lists only
say which image they mean. So there is one value for all that mean the same image. There are no blocks and no pointers here.
-/

namespace Trax
namespace ImgMem
namespace Spec

/-- Which image a list has for each channel. -/
structure Channels where
  color : Option Nat
  depth : Option Nat
  infrared : Option Nat
deriving DecidableEq, Repr

/-- The images and lists (`none` once they are released), and what the variables mean (`none`: nothing). -/
structure World where
  images : List (Option Image)
  lists : List (Option Channels)
  vars : List (Option Nat)
  listVars : List (Option Nat)
deriving DecidableEq, Repr

/-- A program that has done nothing. -/
def World.start : World := ⟨[], [], [], []⟩

/-- How many bytes a pixel takes: one for grey, two for 16-bit grey, three for colors. -/
def pixelBytes (format : Int) : Nat :=
  if format = 1 then 1 else if format = 2 then 2 else if format = 3 then 3 else 0

/-- The value of the image that a variable means. -/
def World.value (w : World) (i : Nat) : Option Image :=
  match w.vars[i]? with
  | some (some n) => (w.images[n]?).join
  | _ => none

/-- The list that a variable means, if it is there. -/
def World.list (w : World) (l : Nat) : Option (Nat × Channels) :=
  match w.listVars[l]? with
  | some (some n) => ((w.lists[n]?).join).map fun c => (n, c)
  | _ => none

/-- A new image in a new variable. -/
def World.add (w : World) (img : Image) : World × Answer :=
  ({ w with images := w.images ++ [some img], vars := w.vars ++ [some w.images.length] }, .null false)

/-- A new variable that means something there already is. -/
def World.name (w : World) (n : Option Nat) : World × Answer :=
  ({ w with vars := w.vars ++ [n] }, .null n.isNone)

/-- A question about the value of an image, which has to be there. -/
def World.ask (w : World) (i : Nat) (answer : Image → Outcome Answer) : Outcome (World × Answer) :=
  match w.value i with
  | none => .ub
  | some img => (answer img).map fun a => (w, a)

/-- The image of a channel. -/
def Channels.get (c : Channels) (channel : Int) : Option Nat :=
  if channel = 1 then c.color else if channel = 2 then c.depth else if channel = 4 then c.infrared else none

/-- Another image for a channel. -/
def Channels.set (c : Channels) (channel : Int) (n : Option Nat) : Channels :=
  if channel = 1 then { c with color := n } else if channel = 2 then { c with depth := n }
  else if channel = 4 then { c with infrared := n } else c

/-- The images in a list. -/
def Channels.images (c : Channels) : List Nat := c.color.toList ++ c.depth.toList ++ c.infrared.toList

/-- The pixel bytes of a memory image from byte `j` of a row on: where they begin. (Rows are as far apart as one pixel is wide, which is
the subject of C29.) -/
def rowPosition (img : Image) (row : Int) (j : Nat) : Outcome (List UInt8 × Nat) :=
  match img with
  | .memory _ height format data =>
    if 0 ≤ row ∧ row < height then
      (if pixelBytes format * row.toNat + j < data.length then .ok (data, pixelBytes format * row.toNat + j) else .ub)
    else .abort
  | _ => .abort

/-- The image with other pixel bytes. -/
def withData (img : Image) (data : List UInt8) : Image :=
  match img with
  | .memory w h f _ => .memory w h f data
  | img => img

/-- The calls. -/
def step (fresh : Nat → UInt8) (w : World) : Op → Outcome (World × Answer)
  | .createPath t => .ok (w.add (.path (t.takeWhile (· != 0))))
  | .createUrl t => .ok (w.add (.url (t.takeWhile (· != 0))))
  | .createMemory width height format =>
    if format = 1 ∨ format = 2 ∨ format = 3 then
      if InInt32 (width * height) ∧ InInt32 (width * height * pixelBytes format) then
        .ok (w.add (.memory width height format ((List.range (width * height * pixelBytes format).toNat).map fresh)))
      else .ub
    else .abort
  | .createBuffer data =>
    if 4 < data.length ∧ [255, 216, 255, 224] <+: data then .ok (w.add (.buffer 2 data))
    else if 4 < data.length ∧ [137, 80, 78, 71] <+: data then .ok (w.add (.buffer 1 data))
    else .abort
  | .copyPointer i =>
    match w.vars[i]? with
    | none => .ub
    | some n => .ok (w.name n)
  | .null => .ok (w.name none)
  | .release i =>
    match w.vars[i]?, w.value i with
    | some (some n), some _ => .ok ({ w with images := w.images.set n none, vars := w.vars.set i none }, .nothing)
    | _, _ => .ub
  | .type i =>
    match w.vars[i]? with
    | none => .ub
    | some none => .ok (w, .int 0)
    | some (some _) => w.ask i fun img =>
        match img with
        | .path _ => .ok (.int 1)
        | .url _ => .ok (.int 2)
        | .memory .. => .ok (.int 4)
        | .buffer .. => .ok (.int 8)
  | .path i => w.ask i fun img => match img with | .path p => .ok (.text p) | _ => .abort
  | .url i => w.ask i fun img => match img with | .url u => .ok (.text u) | _ => .abort
  | .header i => w.ask i fun img => match img with | .memory width height format _ => .ok (.header width height format) | _ => .abort
  | .buffer i => w.ask i fun img => match img with | .buffer format data => .ok (.buffer format data) | _ => .abort
  | .read i row j => w.ask i fun img => (rowPosition img row j).map fun (data, k) => .byte (data.getD k 0)
  | .write i row j v =>
    match w.vars[i]?, w.value i with
    | some (some n), some img => (rowPosition img row j).map fun (data, k) =>
        ({ w with images := w.images.set n (some (withData img (data.set k v))) }, .nothing)
    | _, _ => .ub
  | .createList => .ok ({ w with lists := w.lists ++ [some ⟨none, none, none⟩], listVars := w.listVars ++ [some w.lists.length] }, .nothing)
  | .clear l =>
    match w.list l with
    | none => .ub
    | some (n, c) =>
      -- every image of the list is there, and in it once: all of them go
      if c.images.Nodup ∧ ∀ k ∈ c.images, ((w.images[k]?).join).isSome then
        .ok ({ w with images := w.images.mapIdx (fun k img => if k ∈ c.images then none else img), lists := w.lists.set n (some ⟨none, none, none⟩) }, .nothing)
      else .ub
  | .releaseList l =>
    match w.list l with
    | none => .ub
    | some (n, _) => .ok ({ w with lists := w.lists.set n none, listVars := w.listVars.set l none }, .nothing)
  | .get l channel =>
    if channel = 1 ∨ channel = 2 ∨ channel = 4 then
      match w.list l with
      | none => .ub
      | some (_, c) => .ok (w.name (c.get channel))
    else if l < w.listVars.length then .ok (w.name none) else .ub
  | .set l i channel =>
    match w.vars[i]? with
    | none => .ub
    | some n =>
      if channel = 1 ∨ channel = 2 ∨ channel = 4 then
        match w.list l with
        | none => .ub
        | some (k, c) => .ok ({ w with lists := w.lists.set k (some (c.set channel n)) }, .nothing)
      else if l < w.listVars.length then .ok (w, .nothing) else .ub

/-- A program. -/
def run (fresh : Nat → UInt8) : World → List Op → Outcome (World × List Answer)
  | w, [] => .ok (w, [])
  | w, op :: ops => (step fresh w op).bind fun r => (run fresh r.1 ops).map fun rest => (rest.1, r.2 :: rest.2)

/-- How many images are not released. -/
def World.imagesLeft (w : World) : Nat := w.images.countP (·.isSome)

/-- How many lists are not released. -/
def World.listsLeft (w : World) : Nat := w.lists.countP (·.isSome)

end Spec
end ImgMem
end Trax
