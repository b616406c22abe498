import Verif.Model.Float
import Verif.Model.Properties

/-!
# Number properties (`src/trax.c` 1963–2033)
-/

namespace Trax.Properties

/-- `trax_properties_set_int` (`src/trax.c` 1963–1969). The buffer of 128 characters is not
modelled; `C71` shows that the longest text fits it. -/
def setInt (p : Properties) (k : Str) (n : Int) : Properties := p.set k (fmtInt n)

/-- `trax_properties_set_float` (`src/trax.c` 1971–1977): `"%f"`, i.e. six decimals. -/
def setFloat (p : Properties) (k : Str) (x : Flt) : Properties := p.set k (fmtFloat 6 x)

/-- `trax_properties_get_int` (`src/trax.c` 1998–2014). For an empty text `ret` is returned without
having been assigned: undefined. The conversion to `int` is done before the text is checked. -/
def getInt (p : Properties) (k : Str) (dflt : Int) : Outcome Int :=
  match p.get k with
  | none => .ok dflt
  | some v =>
    if v = [] then .ub
    else (strtod v).1.doubleToInt.map fun ret => if (strtod v).2 = some [] then ret else dflt

/-- `trax_properties_get_float` (`src/trax.c` 2017–2033). -/
def getFloat (p : Properties) (k : Str) (dflt : Flt) : Outcome Flt :=
  match p.get k with
  | none => .ok dflt
  | some v =>
    if v = [] then .ub
    else .ok (if (strtod v).2 = some [] then (strtod v).1.toFloat else dflt)

end Trax.Properties
