#!/usr/bin/env python3
"""Regenerate lean/Verif/Audit.lean from MANIFEST.json: the build fails if a theorem named in
the manifest does not exist or depends on an axiom other than the three standard ones."""
import json, os
root = os.path.dirname(os.path.dirname(os.path.abspath(__file__)))
claims = json.load(open(os.path.join(root, "MANIFEST.json")))["claims"]
names = sorted({t for c in claims for t in c["theorems"]})
props = sorted(f[:-5] for f in os.listdir(os.path.join(root, "lean/Verif/Props")) if f.endswith(".lean"))
out = ["import Lean"] + [f"import Verif.Props.{p}" for p in props] + ["", """/-!
# Axiom audit (generated by tools/gen_audit.py from MANIFEST.json)

`#audit` fails the build if a theorem depends on an axiom other than `propext`,
`Classical.choice` and `Quot.sound`.
-/

open Lean Elab Command in
elab "#audit " ids:ident* : command => do
  for id in ids do
    let name ← liftCoreM <| realizeGlobalConstNoOverload id
    let axs ← liftCoreM <| collectAxioms name
    for a in axs do
      unless a == ``propext || a == ``Classical.choice || a == ``Quot.sound do
        throwErrorAt id "{name} depends on the axiom {a}"
""", "#audit"]
out += [f"  {n}" for n in names]
open(os.path.join(root, "lean/Verif/Audit.lean"), "w").write("\n".join(out) + "\n")
print(len(names), "theorems")
