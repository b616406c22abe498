import Verif.Model.WrapperValue
import Verif.Model.Environment

/-!
# The C++ class `Properties` and standard containers (`src/traxpp.cpp` 1138–1154, 1168–1196)
-/

namespace Trax.Cpp.Mem

open Environ (EnvMap)

/-- What `trax_properties_enumerate` shows of the object behind `x`, nothing for a NULL pointer (`src/traxpp.cpp` 1168–1173,
1182–1196: `if (!properties) return`). -/
def shown (m : Mem Properties) (x : Nat) : Outcome (List (Str × Str)) :=
  (m.var x).bind fun w => match w.ptr with
    | .null => .ok []
    | p => (m.object p).map fun c => c.enumerate

/-- `Properties::from_map` (`src/traxpp.cpp` 1175–1180): the entries of the map in their order, each by `set`, which passes the
C strings of its arguments (1065–1068). -/
def fromMap (m : Mem Properties) (x : Nat) : EnvMap → Outcome (Mem Properties)
  | [] => .ok m
  | (k, v) :: rest => (m.setProperty x (cstr k) (cstr v)).bind fun m => fromMap m x rest

/-- `Properties::to_map` with `map_enumerator` (`src/traxpp.cpp` 1144–1148, 1182–1188); `into` is the map that is passed. -/
def toMap (m : Mem Properties) (x : Nat) (into : EnvMap) : Outcome EnvMap :=
  (m.shown x).map fun l => l.foldl (fun e kv => e.set kv.1 kv.2) into

/-- `Properties::to_vector` with `vector_enumerator` (`src/traxpp.cpp` 1150–1154, 1190–1196); `into` is the vector that is
passed. -/
def toVector (m : Mem Properties) (x : Nat) (into : List Str) : Outcome (List Str) :=
  (m.shown x).map fun l => l.foldl (fun e kv => e ++ [kv.1]) into

/-- `operator<<` with `print_enumerator` (`src/traxpp.cpp` 1138–1142, 1168–1173); `out` is what the stream has been given so far.
`std::endl` writes a newline. -/
def print (m : Mem Properties) (x : Nat) (out : Str) : Outcome Str :=
  (m.shown x).map fun l => l.foldl (fun e kv => e ++ kv.1 ++ b!"=" ++ kv.2 ++ b!"\n") out

end Trax.Cpp.Mem
