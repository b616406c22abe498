import Verif.Model.Handle

/-!
# The C++ classes `Client`, `ServerMOT` and `ServerSOT` for single objects (`src/traxpp.cpp` 288–510)

The methods that take or give one `Region` instead of a list of objects. A method of a C++ object whose handle could not
be set up (`claims()` is 0) returns −1. The `Properties` object of the caller is given by its C properties after
`ensure_unique`; the `Region` object of the caller by its C region, `none` for NULL.
-/

namespace Trax.Cpp

open Handle

/-- `trax_object_list_release` (`src/trax.c` 2069–2082): a NULL region in the list is dereferenced. -/
def releaseObjects (l : ObjList) : Outcome Unit := if l.all fun e => e.1.isSome then .ok () else .ub

/-- `trax_object_list_create(1)` and `trax_object_list_set(objects, 0, region.region)` (`src/traxpp.cpp` 350–351, 470–471). -/
def oneObject (env : Env) (region : Option Region) : Outcome ObjList :=
  ObjList.set env.legacy env.fresh (ObjList.create 1) 0 region

/-- What a waiting method gives back. -/
structure Waited where
  ret : Int
  images : Option ImageList
  /-- the C region of the caller's object afterwards -/
  region : Option Region
  props : Properties
  handle : Option Handle

/-- How a list with the objects of a message becomes a region (`src/traxpp.cpp` 311–323, 450–460). The C++ classes pass
the object's properties on to the caller's. `free`: the list is released at the end (client) or not (server). -/
def takeObject (env : Env) (w : WaitResult) (region : Option Region) (props : Properties) (free : Bool) : Outcome Waited :=
  match w.objects with
  | none => .ok ⟨w.ret, w.images, region, props, some w.handle⟩
  | some l =>
    if l.count > 1 then (releaseObjects l).map fun _ => ⟨TRAX_ERROR, w.images, region, props, some w.handle⟩
    else
      (if l.count = 1 then
          (Region.clone env.legacy env.fresh (l.get 0)).map fun c =>
            (c.or region, Properties.append ((l.properties 0).getD Properties.create) props false)
        else .ok (region, props)).bind fun (region, props) =>
          (if free then releaseObjects l else .ok ()).map fun _ => ⟨w.ret, w.images, region, props, some w.handle⟩

/-- `Client::wait(Region&, Properties&)` (`src/traxpp.cpp` 300–327). -/
def clientWaitRegion (env : Env) (h : Option Handle) (region : Option Region) (props : Properties) : Outcome Waited :=
  match h with
  | none => .ok ⟨-1, none, region, props, none⟩
  | some h => (clientWait env h (some props)).bind fun w => takeObject env w region (w.props.getD props) true

/-- `Client::initialize(const ImageList&, const Region&, const Properties&)` (`src/traxpp.cpp` 347–359). -/
def clientInitializeRegion (env : Env) (h : Option Handle) (images : ImageList) (region : Option Region) (props : Option Properties) :
    Outcome (Int × Option Handle) :=
  match h with
  | none => .ok (-1, none)
  | some h => (oneObject env region).bind fun objects => (clientInitialize env h images objects props).bind fun (ret, h) =>
      (releaseObjects objects).map fun _ => (ret, some h)

/-- `Client::frame(const ImageList&, const Properties&)` (`src/traxpp.cpp` 368–373). -/
def clientFrameImages (env : Env) (h : Option Handle) (images : ImageList) (props : Option Properties) : Outcome (Int × Option Handle) :=
  match h with
  | none => .ok (-1, none)
  | some h => (clientFrame env h images none props).map fun (ret, h) => (ret, some h)

/-- `ServerMOT::wait(ImageList&, Region&, Properties&)` (`src/traxpp.cpp` 434–464). -/
def serverWaitRegion (env : Env) (fuel : Nat) (h : Option Handle) (region : Option Region) (props : Properties) : Option (Outcome Waited) :=
  match h with
  | none => some (.ok ⟨-1, none, region, props, none⟩)
  | some h => (serverWaitMot env fuel h (some props)).map fun o => o.bind fun w => takeObject env w region (w.props.getD props) false

/-- `ServerMOT::reply(const Region&, const Properties&)` (`src/traxpp.cpp` 466–480): the result, the handle, and the C properties of the
caller's object afterwards. `trax_properties_append` (whose first argument is the source) is called with the new object's
properties as source and the caller's as drain. -/
def serverReplyRegion (env : Env) (h : Option Handle) (region : Option Region) (props : Option Properties) :
    Outcome (Int × Option Handle × Option Properties) :=
  match h with
  | none => .ok (-1, none, props)
  | some h => (oneObject env region).bind fun objects =>
      let props := props.map fun p => Properties.append ((objects.properties 0).getD Properties.create) p false
      (serverReplyMot h objects).bind fun (ret, h) => (releaseObjects objects).map fun _ => (ret, some h, props)

/-! ## The class `ServerSOT` -/

/-- `ServerSOT::wait(ImageList&, Region&, Properties&)` (`src/traxpp.cpp` 393–414): the region and the images of the caller
change only if the C function gives new ones. -/
def serverSotWait (env : Env) (h : Option Handle) (region : Option Region) (props : Properties) : Outcome Waited :=
  match h with
  | none => .ok ⟨-1, none, region, props, none⟩
  | some h => (serverWaitSot env h (some props)).map fun w => ⟨w.ret, w.images, w.region.or region, w.props.getD props, some w.handle⟩

/-- `ServerSOT::reply(const Region&, const Properties&)` (`src/traxpp.cpp` 416–422). -/
def serverSotReply (h : Option Handle) (region : Option Region) (props : Option Properties) : Outcome (Int × Option Handle) :=
  match h with
  | none => .ok (-1, none)
  | some h => (serverReplySot h region props).map fun (ret, h) => (ret, some h)

end Trax.Cpp
