import Verif.Model.Wrapper
import Verif.Model.Properties
import Verif.Model.RegionApi

/-!
# The C++ classes `Properties` and `Region` (`src/traxpp.cpp` 784–1027, 1030–1166)

The methods that read or change the wrapped C object, on the memory of `Verif/Model/Wrapper.lean`.
-/

namespace Trax.Cpp

namespace Mem

/-! ## `Properties` -/

/-- `Properties::ensure_unique` (`src/traxpp.cpp` 1156–1166). -/
def ensureUnique (m : Mem Properties) (x : Nat) : Outcome (Mem Properties) :=
  (m.var x).bind fun w => match w.ptr with
    | .null => m.wrapNew x .create
    | original => (m.claims x).bind fun n =>
      if n > 1 then
        (m.wrapNew x .create).bind fun m => (m.object original).bind fun p => (m.var x).bind fun w =>
          (m.object w.ptr).bind fun q => m.setObject w.ptr (p.enumerate.foldl Properties.copyOverwrite q)
      else .ok m

/-- `Properties::set` (`src/traxpp.cpp` 1065–1068). The other two `set` methods (1070–1078) differ in how the
value's text is made. -/
def setProperty (m : Mem Properties) (x : Nat) (k v : Str) : Outcome (Mem Properties) :=
  (m.ensureUnique x).bind fun m => (m.var x).bind fun w => (m.object w.ptr).bind fun p => m.setObject w.ptr (p.set k v)

/-- `Properties::clear` (`src/traxpp.cpp` 1057–1063). -/
def clearProperties (m : Mem Properties) (x : Nat) : Outcome (Mem Properties) :=
  (m.var x).bind fun w => match w.ptr with
    | .null => .ok m
    | p => (m.claims x).bind fun n => if n > 1 then m.release x else (m.object p).bind fun c => m.setObject p c.clear

/-- `Properties::get` (`src/traxpp.cpp` 1084–1094): `none` stands for the default value. -/
def getProperty (m : Mem Properties) (x : Nat) (k : Str) : Outcome (Option Str) :=
  (m.var x).bind fun w => match w.ptr with
    | .null => .ok none
    | p => (m.object p).map fun c => c.get k

/-- `Properties::size` (`src/traxpp.cpp` 1052–1055). -/
def sizeProperties (m : Mem Properties) (x : Nat) : Outcome Nat :=
  (m.var x).bind fun w => match w.ptr with
    | .null => .ok 0
    | p => (m.object p).map fun c => c.count

/-! ## `Region` -/

/-- `Region::type` (`src/traxpp.cpp` 844–846). -/
def regionType (m : Mem Region) (x : Nat) : Outcome UInt32 :=
  (m.var x).bind fun w => match w.ptr with
    | .null => .ok (Region.getType none)
    | p => (m.object p).map fun r => Region.getType (some r)

/-- What the methods of a region object can read: its C region, `none` for NULL. -/
def readRegion (m : Mem Region) (x : Nat) : Outcome (Option Region) :=
  (m.var x).bind fun w => match w.ptr with
    | .null => .ok none
    | p => (m.object p).map some

/-- A change of the C region in place. -/
def changeRegion (m : Mem Region) (x : Nat) (f : Region → Outcome Region) : Outcome (Mem Region) :=
  (m.var x).bind fun w => (m.object w.ptr).bind fun r => (f r).bind fun r => m.setObject w.ptr r

/-- `Region::set(int)` (`src/traxpp.cpp` 852–857). -/
def setSpecial (m : Mem Region) (x : Nat) (code : Int) : Outcome (Mem Region) :=
  (m.regionType x).bind fun t => (m.claims x).bind fun n =>
    if t ≠ 1 ∨ n > 1 then m.wrapNew x (Region.createSpecial code) else m.changeRegion x fun r => r.setSpecial code

/-- `Region::set(float, float, float, float)` (`src/traxpp.cpp` 863–868). -/
def setRectangle (m : Mem Region) (x : Nat) (l t w h : Flt) : Outcome (Mem Region) :=
  (m.regionType x).bind fun ty => (m.claims x).bind fun n =>
    if ty ≠ 2 ∨ n > 1 then m.wrapNew x (Region.createRectangle l t w h) else m.changeRegion x fun r => r.setRectangle l t w h

/-- `wrap` of the result of a C function, which may be NULL (`src/traxpp.cpp` 943–948). -/
def wrapMaybe (m : Mem Region) (x : Nat) : Option Region → Outcome (Mem Region)
  | none => .ok m
  | some r => m.wrapNew x r

/-- `Region::set_polygon_point` (`src/traxpp.cpp` 876–882). -/
def setPoint (legacy : Bool) (fresh : Nat → List UInt8) (m : Mem Region) (x : Nat) (i : Int) (px py : Flt) : Outcome (Mem Region) :=
  (m.claims x).bind fun n =>
    (if n > 1 then (m.readRegion x).bind fun r => (Region.apiConvert legacy fresh r 4).bind fun c => m.wrapMaybe x c else .ok m).bind fun m =>
      m.changeRegion x fun r => r.setPolygonPoint i px py

/-- A write to pixel `j` of the row that `Region::write_mask_row` returns (`src/traxpp.cpp` 898–902). -/
def writePixel (m : Mem Region) (x : Nat) (row j : Int) (v : UInt8) : Outcome (Mem Region) :=
  m.changeRegion x fun r => r.writeMaskPixel row j v

/-- The end of `operator>>` (`src/traxpp.cpp` 984–1027): the line read is decoded and wrapped. -/
def readText (m : Mem Region) (x : Nat) (line : Str) : Outcome (Mem Region) :=
  (Region.decode line).bind fun r => m.wrapMaybe x r

end Mem

/-! ## Programs -/

/-- The steps of a program that uses `Properties` objects. -/
inductive PropsOp where
  | construct (x : Nat)
  | copy (x y : Nat)
  | move (x y : Nat)
  | assign (x y : Nat)
  | destroy (x : Nat)
  /-- `x.set(k, v);` -/
  | set (x : Nat) (k v : Str)
  /-- `x.clear();` -/
  | clear (x : Nat)
deriving DecidableEq, Repr

def PropsOp.step (m : Mem Properties) : PropsOp → Outcome (Mem Properties)
  | .construct x => .ok (m.construct x)
  | .copy x y => m.copyConstruct x y
  | .move x y => m.moveConstruct .properties x y
  | .assign x y => m.assign x y
  | .destroy x => m.destroy x
  | .set x k v => m.setProperty x k v
  | .clear x => m.clearProperties x

def runPropsOps : List PropsOp → Mem Properties → Outcome (Mem Properties)
  | [], m => .ok m
  | op :: ops, m => (op.step m).bind (runPropsOps ops)

/-- The steps of a program that uses `Region` objects. -/
inductive RegionOp where
  | construct (x : Nat)
  /-- `Region x = Region::create_...` or a conversion of another region -/
  | create (x : Nat) (r : Region)
  | copy (x y : Nat)
  | move (x y : Nat)
  | assign (x y : Nat)
  | moveAssign (x y : Nat)
  | destroy (x : Nat)
  /-- `x.set(code);` -/
  | special (x : Nat) (code : Int)
  /-- `x.set(l, t, w, h);` -/
  | rectangle (x : Nat) (l t w h : Flt)
  /-- `x.set_polygon_point(i, px, py);` -/
  | point (x : Nat) (i : Int) (px py : Flt)
  /-- `x.write_mask_row(row)[j] = v;` -/
  | pixel (x : Nat) (row j : Int) (v : UInt8)
  /-- `in >> x;` where the next line of `in` is given -/
  | text (x : Nat) (line : Str)
deriving DecidableEq, Repr

def RegionOp.step (legacy : Bool) (fresh : Nat → List UInt8) (m : Mem Region) : RegionOp → Outcome (Mem Region)
  | .construct x => .ok (m.construct x)
  | .create x r => (m.construct x).wrapNew x r
  | .copy x y => m.copyConstruct x y
  | .move x y => m.moveConstruct .region x y
  | .assign x y => m.assign x y
  | .moveAssign x y => m.moveAssign x y
  | .destroy x => m.destroy x
  | .special x c => m.setSpecial x c
  | .rectangle x l t w h => m.setRectangle x l t w h
  | .point x i px py => m.setPoint legacy fresh x i px py
  | .pixel x row j v => m.writePixel x row j v
  | .text x line => m.readText x line

def runRegionOps (legacy : Bool) (fresh : Nat → List UInt8) : List RegionOp → Mem Region → Outcome (Mem Region)
  | [], m => .ok m
  | op :: ops, m => (op.step legacy fresh m).bind (runRegionOps legacy fresh ops)

end Trax.Cpp
