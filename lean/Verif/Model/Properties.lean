import Verif.Model.StrMap

/-!
# Properties (`src/trax.c` 218–241, 520–528, 1909–2046)

`struct trax_properties` is a string map with 32 buckets. Number conversions
(`*_int`, `*_float`) are in `Verif/Model/NumText.lean`.
-/

namespace Trax

/-- `struct trax_properties` (`src/trax.c` 110–112). -/
abbrev Properties := StrMap

namespace Properties

/-- `trax_properties_create` and the result of `trax_properties_clear`
(`src/trax.c` 1919–1936): a fresh map with 32 buckets. -/
def create : Properties := StrMap.new 32

/-- `trax_properties_clear` (`src/trax.c` 1919–1926). -/
def clear (_ : Properties) : Properties := StrMap.new 32

/-- `trax_properties_set` (`src/trax.c` 1957–1961). The key is not validated. -/
def set (p : Properties) (k v : Str) : Properties := StrMap.put p k v

/-- `trax_properties_get` (`src/trax.c` 1979–1991): two calls of `sm_get`, first for the
size, then for the value. A failing second call would leave the returned buffer
uninitialised; it is represented by `none` as well, and `Properties.get_second_call`
(in the lemmas) shows that it cannot happen. -/
def get (p : Properties) (k : Str) : Option Str :=
  let size := StrMap.getSize p k
  if size < 1 then none else StrMap.getCopy p k size

/-- `trax_properties_has` (`src/trax.c` 1993–1996). -/
def has (p : Properties) (k : Str) : Bool := if StrMap.getSize p k < 1 then false else true

/-- `trax_properties_count` (`src/trax.c` 2035–2039). -/
def count (p : Properties) : Nat := StrMap.count p

/-- `trax_properties_enumerate` (`src/trax.c` 2041–2046): the callback sequence. -/
def enumerate (p : Properties) : List (Str × Str) := StrMap.enum p

/-- `strncmp(key, "trax.", 5) == 0` (`src/trax.c` 233, 239). -/
def isInternalKey (k : Str) : Bool := b!"trax.".isPrefixOf k

/-- `copy_property_overwrite` (`src/trax.c` 220–223). -/
def copyOverwrite (dest : Properties) (kv : Str × Str) : Properties := dest.set kv.1 kv.2

/-- `copy_property_safe` (`src/trax.c` 225–229). -/
def copySafe (dest : Properties) (kv : Str × Str) : Properties :=
  if dest.has kv.1 then dest else dest.set kv.1 kv.2

/-- `copy_property_external_overwrite` (`src/trax.c` 231–235). -/
def copyExternalOverwrite (dest : Properties) (kv : Str × Str) : Properties :=
  if isInternalKey kv.1 then dest else dest.set kv.1 kv.2

/-- `copy_property_external_safe` (`src/trax.c` 237–241). -/
def copyExternalSafe (dest : Properties) (kv : Str × Str) : Properties :=
  if dest.has kv.1 || isInternalKey kv.1 then dest else dest.set kv.1 kv.2

/-- The flags of `copy_properties` (`src/trax.c` 35–37: `COPY_ALL` 1, `COPY_EXTERNAL` 0,
`COPY_OVERWRITE` 2). -/
abbrev COPY_ALL : Nat := 1
@[inherit_doc COPY_ALL] abbrev COPY_EXTERNAL : Nat := 0
@[inherit_doc COPY_ALL] abbrev COPY_OVERWRITE : Nat := 2

/-- `copy_properties` (`src/trax.c` 520–528). The overwrite test is a *logical* and in
the code (`flags && COPY_OVERWRITE`): it holds for every nonzero `flags`. -/
def copyProperties (source dest : Properties) (flags : Nat) : Properties :=
  let f := if flags &&& COPY_ALL ≠ 0 then
      (if flags ≠ 0 ∧ COPY_OVERWRITE ≠ 0 then copyOverwrite else copySafe)
    else
      (if flags ≠ 0 ∧ COPY_OVERWRITE ≠ 0 then copyExternalOverwrite else copyExternalSafe)
  (enumerate source).foldl f dest

/-- `trax_properties_copy` (`src/trax.c` 1938–1946). -/
def copy (p : Properties) : Properties := copyProperties p create COPY_ALL

/-- `trax_properties_append` (`src/trax.c` 1948–1955). -/
def append (source drain : Properties) (overwrite : Bool) : Properties :=
  copyProperties source drain (if overwrite then COPY_ALL ||| COPY_OVERWRITE else COPY_ALL)

end Properties

end Trax
