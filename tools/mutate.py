#!/usr/bin/env python3
"""Applies wrong edits to a scratch copy of the model and records which theorems stop proving.

usage: mutate.py SCRATCH MUTANTS.json [--log LOG.jsonl] [--only N,M] [--until-claim]

SCRATCH is a built copy of lean/ outside this repository.  MUTANTS.json is a list of objects
{file, definition, old, new, edit, claim}.  A property theorem counts as failed when its own proof fails or when it
depends on a theorem (or definition) whose proof fails; dependencies are those of the unchanged development.
Proofs that fail are cut short in the scratch copy and the build goes on, so that what is downstream of them is
examined as well; with --until-claim, only until theorems of all the claimed properties have failed, beginning with the
modules of these properties.
"""
import json, os, re, shutil, signal, subprocess, sys, time

scratch, spec = sys.argv[1], sys.argv[2]
log = sys.argv[sys.argv.index("--log") + 1] if "--log" in sys.argv else None
only = set(map(int, sys.argv[sys.argv.index("--only") + 1].split(","))) if "--only" in sys.argv else None
until = "--until-claim" in sys.argv

DEPS = r'''
import Verif
open Lean
partial def visit (env : Environment) (n : Name) : StateM NameSet Unit := do
  if (← get).contains n then return
  if !(`Snips).isPrefixOf n && !n.isInternal then return
  modify (·.insert n)
  match env.find? n with
  | some c =>
    for d in c.type.getUsedConstants do visit env d
    match c.value? (allowOpaque := true) with
    | some v => for d in v.getUsedConstants do visit env d
    | none => pure ()
  | none => pure ()
def isProp (n : Name) : Bool :=
  match n with
  | .str `Snips s =>
    let rest := (s.toList.drop 1).dropWhile Char.isDigit
    s.length > 4 && s.front == 'c' && rest.length + 3 ≤ s.length && rest.head? == some '_' && !n.isInternal
  | _ => false
#eval show CoreM Unit from do
  let env ← getEnv
  let ns := env.constants.map₁.toList.map (·.1) |>.filter isProp
  for n in ns do
    let (_, s) := (visit env n).run {}
    IO.println s!"DEP {n} : {String.intercalate " " (s.toList.map toString)}"
'''

def deps():
    cache = os.path.join(scratch, "deps.json")
    newest = max(os.path.getmtime(os.path.join(d, f)) for d, _, fs in os.walk(os.path.join(scratch, "Verif"))
                 for f in fs)
    if os.path.exists(cache) and os.path.getmtime(cache) > newest:
        return json.load(open(cache))
    open(os.path.join(scratch, "deps.lean"), "w").write(DEPS)
    out = subprocess.run(["lake", "env", "lean", "deps.lean"], cwd=scratch, capture_output=True, text=True).stdout
    res = {}
    for line in out.splitlines():
        m = re.match(r"DEP Snips\.(\S+) : (.*)", line)
        if m:
            res[m.group(1)] = [x.removeprefix("Snips.") for x in m.group(2).split()]
    assert res, out[:2000]
    json.dump(res, open(cache, "w"))
    return res

HEAD = re.compile(r"^(?:@\[[^\]]*\]\s*)?(?:private |protected |noncomputable )*"
                  r"(theorem|lemma|def|abbrev|instance|example|structure|inductive)\b\s*(\S*)")

def enclosing(path, line):
    """Name of the declaration around a line, with its namespace below Snips."""
    ns, name = [], None
    for i, l in enumerate(open(path), 1):
        if i > line: break
        m = re.match(r"^namespace (\S+)", l)
        if m: ns.append(m.group(1))
        m = re.match(r"^end (\S+)", l)
        if m and ns: ns.pop()
        m = HEAD.match(l)
        if m:
            short = m.group(2) if m.group(1) not in ("example",) else f"example (line {i})"
            name = ".".join([n for n in ns if n != "Snips"] + [short])
    return name

TOP = re.compile(r"^(/--|/-!|@\[|namespace|end|open|section|variable|example|theorem|lemma|def|abbrev|instance|structure|"
                 r"inductive|private|protected|noncomputable|set_option|attribute|#|where|deriving)")

def cut(path, line):
    """Replaces the proof of the declaration around a line; False if there is no proof to replace."""
    lines = open(path).read().split("\n")
    start = max((i for i in range(min(line, len(lines))) if HEAD.match(lines[i])), default=None)
    if start is None: return False
    if HEAD.match(lines[start]).group(1) not in ("theorem", "lemma", "example"): return False
    stop = start + 1
    while stop < len(lines) and not TOP.match(lines[stop]): stop += 1
    block = "\n".join(lines[start:stop])
    depth, pos = 0, None
    for i, c in enumerate(block):
        if c in "([{⟨": depth += 1
        elif c in ")]}⟩": depth -= 1
        elif depth == 0 and block.startswith(":=", i): pos = i; break
        elif depth == 0 and block.startswith("\n  | ", i): pos = i; break
    if pos is None or block[pos:].strip() == ":= by sorry": return False
    lines[start:stop] = (block[:pos] + " := by sorry\n").split("\n")
    open(path, "w").write("\n".join(lines))
    return True

ERROR = re.compile(r"^error: (Verif/\S+\.lean):(\d+):\d+")

def build(targets=(), enough=None):
    """Builds until `enough` of the errors so far; whether all is built, and the errors."""
    p = subprocess.Popen(["lake", "build", *targets], cwd=scratch, stdout=subprocess.PIPE, stderr=subprocess.STDOUT,
                         text=True, start_new_session=True)
    errors = []
    for line in p.stdout:
        m = ERROR.match(line)
        if m:
            errors.append(m.groups())
            if enough and enough(errors):
                os.killpg(p.pid, signal.SIGKILL)
                p.wait()
                return False, errors
    return p.wait() == 0, errors

def modules(claim):
    """Modules of the claimed properties."""
    cs = re.findall(r"C\d+", claim)
    return ["Verif.Props." + f[:-5] for f in sorted(os.listdir(os.path.join(scratch, "Verif", "Props")))
            if f.endswith(".lean") and f.split("_")[0] in cs]

def named(errors):
    return [f + " " + str(enclosing(os.path.join(scratch, f), int(l))) for f, l in errors]

def failures(direct):
    names = {d.split(" ", 1)[1] for d in direct}
    return sorted(t for t, ds in D.items() if t in names or names & set(ds))

def missing(claim, failed):
    return [c for c in re.findall(r"C\d+", claim) if not any(t.startswith(c.lower() + "_") for t in failed)]

OUT, KEPT = os.path.join(scratch, ".lake", "build"), os.path.join(scratch, "kept")

def walk(d):
    return {os.path.relpath(os.path.join(r, f), d) for r, _, fs in os.walk(d) for f in fs}

def restore(since):
    """Brings back the compiled files of the unchanged development."""
    kept = walk(KEPT)
    for f in walk(OUT) - kept: os.remove(os.path.join(OUT, f))
    for f in kept:
        q = os.path.join(OUT, f)
        if not os.path.exists(q) or os.path.getmtime(q) >= since - 1: shutil.copy2(os.path.join(KEPT, f), q)

D = deps()
assert build()[0]
if not os.path.exists(KEPT): shutil.copytree(OUT, KEPT)
muts = json.load(open(spec))
for k, m in enumerate(muts):
    if only is not None and k not in only: continue
    path = os.path.join(scratch, m["file"])
    src = open(path).read()
    if src.count(m["old"]) != 1:
        print(k, "OLD TEXT OCCURS", src.count(m["old"]), "TIMES:", m["definition"]); continue
    t0 = time.time()
    saved = {path: src}
    open(path, "w").write(src.replace(m["old"], m["new"]))
    direct, stuck = [], False
    targets = modules(m["claim"]) if until else []
    enough = (lambda es: not missing(m["claim"], failures(direct + named(es)))) if until and m["claim"] else None
    try:
        while True:
            ok, errors = build(targets, enough)
            if ok and targets:
                targets = []
                continue
            if ok: break
            spots = {}
            for f, l in errors:
                n = f + " " + str(enclosing(os.path.join(scratch, f), int(l)))
                if n not in direct: direct.append(n)
                spots.setdefault((f, n), int(l))
            if until and m["claim"] and not missing(m["claim"], failures(direct)): break
            progress = False
            for (f, n), l in sorted(spots.items(), key=lambda x: -x[1]):
                if f.startswith("Verif/Model"): continue
                q = os.path.join(scratch, f)
                saved.setdefault(q, open(q).read())
                progress |= cut(q, l)
            if not progress or any(f.startswith("Verif/Model") for f, _ in errors):
                stuck = True
                break
    finally:
        for q, text in saved.items(): open(q, "w").write(text)
        restore(t0)
    inmodel = [d for d in direct if d.startswith("Verif/Model")]
    failed = failures(direct)
    print(k, m["definition"], "|", m["edit"], "->", "SURVIVED" if not direct else
          ("MODEL DOES NOT COMPILE " + str(inmodel) if inmodel else "stopped" if stuck else ""), f"{time.time()-t0:.0f}s")
    if m["claim"] and not inmodel:
        miss = missing(m["claim"], failed)
        if miss: print("   CLAIMED PROPERTY NOT AMONG THEM:", miss)
    print("   direct:", direct)
    print("   properties:", failed, flush=True)
    if log and not inmodel:
        rec = {"definition": m["definition"], "edit": m["edit"], "claim": m["claim"],
               "failed_directly": direct, "theorems_failed": failed, "theorems_tightened": []}
        open(log, "a").write(json.dumps(rec, ensure_ascii=False) + "\n")
