#!/usr/bin/env python3
"""Test the theorems against wrong programs.

Usage: mutate.py MUTANTS.json OUT.jsonl [name ...]

Each mutant edits one definition of the model in a scratch copy (default /tmp/mut/work) of lean/. The copy is rebuilt.
A lemma or theorem whose proof fails is given up (its proof is replaced by a placeholder in the scratch copy only) and the build
is repeated, until it goes through; then every theorem of MANIFEST.json is checked for dependence on something that was given
up. The result is one JSON line per mutant: what failed itself, and which theorems of the manifest no longer stand. First only
the modules with the theorems of the properties that the mutant is to break are built ("scope"); if none of these theorems
fails, everything is.
"""
import json, os, re, shutil, subprocess, sys, time

ROOT = os.path.dirname(os.path.dirname(os.path.abspath(__file__)))
SCRATCH = os.environ.get("MUT_SCRATCH", "/tmp/mut")
BASE, WORK = SCRATCH + "/base", SCRATCH + "/work"
DECL = re.compile(r"^(?:@\[[^\]]*\]\s*)?(?:private |protected |noncomputable )*(theorem|lemma|example|instance|def|abbrev|structure|inductive)\b\s*([^\s:({\[]*)")
TOP = re.compile(r"^(/--|/-!|end\b|namespace\b|section\b|open\b|set_option\b|variable\b|macro|elab|#|import\b|@\[|attribute\b|local\b|private |protected |noncomputable |theorem\b|lemma\b|example\b|instance\b|def\b|abbrev\b|structure\b|inductive\b|deriving\b)")

def sh(cmd, cwd, timeout):
    try:
        p = subprocess.run(cmd, cwd=cwd, shell=True, capture_output=True, text=True, timeout=timeout)
        return p.returncode, p.stdout + p.stderr
    except subprocess.TimeoutExpired:
        subprocess.run("pkill -f %s/lean" % WORK, shell=True)
        return 124, "timeout"

def prepare():
    if os.path.exists(BASE): shutil.rmtree(BASE)
    os.makedirs(BASE)
    subprocess.run(["cp", "-a", ROOT + "/lean", BASE + "/lean"], check=True)
    shutil.rmtree(BASE + "/lean/Verif")
    subprocess.run("git archive HEAD MANIFEST.json lean/Verif lean/Verif.lean | tar -x -C " + BASE, shell=True, cwd=ROOT, check=True)
    p = BASE + "/lean/Verif.lean"
    s = open(p).read().replace("import Verif.Audit\n", "")
    open(p, "w").write(s)
    rc, out = sh("lake build", BASE + "/lean", 3600)
    assert rc == 0, out[-2000:]

def block(lines, k):
    """Start and end (exclusive) of the top-level declaration around line k (0-based)."""
    i = k
    while i >= 0 and not DECL.match(lines[i]): i -= 1
    j = i + 1
    while j < len(lines) and not TOP.match(lines[j]): j += 1
    return i, j

def split_statement(text):
    """Position where the proof of a theorem begins."""
    depth, i = 0, 0
    while i < len(text):
        c = text[i]
        if c in "([{⟨": depth += 1
        elif c in ")]}⟩": depth -= 1
        elif depth == 0 and text.startswith(" where\n", i):
            return i + 1
        elif depth == 0 and text.startswith(":=", i):
            before = text[:i]
            m = re.search(r"\blet\s+[^;\n]*$", before)
            if not m: return i
        elif depth == 0 and c == "\n":
            if re.match(r"\n\s+\|", text[i:]) and not re.search(r"\bmatch\b", text[:i]):
                return i
        i += 1
    return None

def give_up(path, linenos, failed, rel):
    lines = open(path).read().split("\n")
    spans = {}
    for ln in linenos:
        i, j = block(lines, ln - 1)
        if i < 0: return False
        spans[i] = j
    for i in sorted(spans, reverse=True):
        j = spans[i]
        kind, name = DECL.match(lines[i]).groups()
        text = "\n".join(lines[i:j])
        tail = ""
        if kind == "example":
            failed["examples"].append("%s:%d" % (rel, i + 1))
            new = "\n" * text.count("\n")
            d = i - 1
            if d >= 0 and lines[d].rstrip().endswith("-/"):
                while d >= 0 and not lines[d].startswith("/--"): d -= 1
                for k in range(max(d, 0), i): lines[k] = ""
        elif kind in ("theorem", "lemma", "instance"):
            if "sorry" in text: return False
            p = split_statement(text)
            if p is None: return False
            failed["proofs"].append(name or "%s:%d" % (rel, i + 1))
            new = text[:p] + ":= sorry" + "\n" * text[p:].count("\n")
        else:
            failed["definitions"].append(name)
            return False
        lines[i:j] = new.split("\n")
    open(path, "w").write("\n".join(lines))
    return True

def manifest():
    m = json.load(open(BASE + "/MANIFEST.json"))["claims"]
    return {t: c["property"] for c in m for t in c["theorems"]}

def modules(names):
    """The modules of Props in which the theorems are."""
    res = set()
    for f in sorted(os.listdir(BASE + "/lean/Verif/Props")):
        if not f.endswith(".lean"): continue
        found = {m for m in re.findall(r"^theorem\s+(\S+)", open(BASE + "/lean/Verif/Props/" + f).read(), re.M)}
        if any(n.split(".")[-1] in {x.split(".")[-1] for x in found} for n in names): res.add(f[:-5])
    return sorted(res)

def stage(mut, failed, targets):
    """Builds the targets (everything if none are given), giving up what fails; a note if that is not possible."""
    for rnd in range(40):
        rc, out = sh("lake build " + " ".join(targets) + " 2>&1", WORK + "/lean", 1500)
        if rc == 0: return None
        errs = {}
        for m in re.finditer(r"^error: (Verif/\S+\.lean):(\d+):\d+: ", out, re.M):
            errs.setdefault(m.group(1), set()).add(int(m.group(2)))
        if not errs: return "build failed: " + out[-300:]
        if mut["file"] in errs: return "the edited file does not compile: " + out[-600:]
        if not all(give_up(WORK + "/lean/" + f, ls, failed, f) for f, ls in errs.items()):
            return "could not give up a failing declaration in " + ", ".join(errs)
    return "too many rounds"

def query(names, props):
    q = ["import Lean"] + ["import Verif.Props." + x for x in props] + ["open Lean Elab Command in", 'elab "#stands " ids:ident* : command => do', "  for id in ids do",
        "    unless (← getEnv).contains id.getId do", "      logInfo m!\"MISSING {id.getId}\"", "      continue",
        "    let axs ← liftCoreM <| collectAxioms id.getId",
        "    if axs.contains ``sorryAx then logInfo m!\"DOWN {id.getId}\"", "#stands"] + ["  " + n for n in sorted(names)]
    open(WORK + "/lean/Q.lean", "w").write("\n".join(q) + "\n")
    rc, out = sh("lake env lean Q.lean", WORK + "/lean", 900)
    return rc, out, sorted(set(re.findall(r"DOWN (\S+)", out)))

def run(mut):
    if os.path.exists(WORK): shutil.rmtree(WORK)
    os.makedirs(WORK)
    subprocess.run(["cp", "-a", BASE + "/lean", WORK + "/lean"], check=True)
    p = WORK + "/lean/" + mut["file"]
    s = open(p).read()
    edits = mut["edits"] if "edits" in mut else [[mut["old"], mut["new"]]]
    for old, new in edits:
        if s.count(old) != 1: return {"name": mut["name"], "error": "%d occurrences of %r" % (s.count(old), old)}
        s = s.replace(old, new)
    open(p, "w").write(s)
    failed = {"proofs": [], "examples": [], "definitions": []}
    names, t0 = manifest(), time.time()
    claimed = [t for t, c in names.items() if c in mut["claims"]]
    scope, note, down = (modules(claimed) if claimed else []), None, []
    if scope:
        note = stage(mut, failed, ["Verif.Props." + x for x in scope])
        if not note:
            rc, out, down = query(claimed, scope)
            if rc != 0: note = "query failed: " + out[-300:]
    if not note and not down:
        scope = sorted(f[:-5] for f in os.listdir(WORK + "/lean/Verif/Props") if f.endswith(".lean"))
        note = stage(mut, failed, [])
        if not note:
            rc, out, down = query(names, scope)
            if rc != 0: note = "query failed: " + out[-300:]
        scope = "all"
    res = {"name": mut["name"], "failed_proofs": failed["proofs"], "failed_examples": failed["examples"], "scope": scope, "seconds": round(time.time() - t0)}
    if note:
        res["note"] = note
        res["failed_definitions"] = failed["definitions"]
    res["theorems_down"] = down
    res["claims_down"] = sorted({names[d] for d in down})
    return res

if __name__ == "__main__":
    muts = json.load(open(sys.argv[1]))
    done = set()
    if os.path.exists(sys.argv[2]):
        done = {json.loads(l)["name"] for l in open(sys.argv[2]) if "note" not in json.loads(l)}
    want = sys.argv[3:]
    prepare()
    for m in muts:
        if want and m["name"] not in want: continue
        if not want and m["name"] in done: continue
        r = run(m)
        with open(sys.argv[2], "a") as f: f.write(json.dumps(r) + "\n")
        print(json.dumps(r)[:400], flush=True)
