"""Seed wrong programs into a scratch copy of the model and see which theorems notice.

usage: mutate.py [--witness-only] MUTANTS.py     (MUTANTS.py defines MUTANTS = [dict(...), ...])

Each mutant has: definition, file, old, new, claim, and perhaps also = [(file, old, new), ...] for the
same edit in other models of the same code.  The scratch copy is
/tmp/mut/lean; /verif is not touched except for seeded/LOG.jsonl.

A proof that no longer compiles does not show that the property is false for the seeded
program (a harmless edit breaks proofs as well).  Therefore the counterexample search
Verif/Witness/*.lean is run on the seeded model too; the properties it finds violated are
recorded as `refuted`.  Edits after which the model itself does not compile are not programs;
they are not logged.  --witness-only adds `refuted` to the entries that are already logged.
"""
import json, os, re, subprocess, sys

SRC, DST = "/verif/lean", "/tmp/mut/lean"
LOG = "/verif/seeded/LOG.jsonl"
WIT = SRC + "/Verif/Witness"

def sync():
    os.makedirs(DST, exist_ok=True)
    subprocess.run(["rsync", "-a", "--delete", SRC + "/", DST + "/"], check=False) \
        if subprocess.run(["which", "rsync"], capture_output=True).returncode == 0 \
        else (subprocess.run(["rm", "-rf", DST]), subprocess.run(["cp", "-a", SRC, DST]))

def theorem_at(path, line):
    name = None
    for i, l in enumerate(open(path), 1):
        m = re.match(r"\s*(?:private |protected )?(theorem|lemma|def|example|instance|structure|abbrev)\s*(\S*)", l)
        if m and i <= line:
            name = "example" if m[1] == "example" else m[2]
    return name

def build():
    r = subprocess.run(["lake", "build"], cwd=DST, capture_output=True, text=True)
    out = r.stdout + r.stderr
    failed = []
    for m in re.finditer(r"error: (Verif/\S+\.lean):(\d+):\d+", out):
        n = theorem_at(os.path.join(DST, m[1]), int(m[2]))
        if n not in failed:
            failed.append(n)
    mods = re.findall(r"^- (Verif\.\S+)", out, re.M)
    return r.returncode, failed, mods, out

def model_compiles():
    mods = ["Verif.Model." + f[:-5] for f in sorted(os.listdir(DST + "/Verif/Model")) if f.endswith(".lean")]
    mods += ["Verif.Spec." + f[:-5] for f in sorted(os.listdir(DST + "/Verif/Spec")) if f.endswith(".lean")]
    return subprocess.run(["lake", "build"] + mods, cwd=DST, capture_output=True).returncode == 0

def refute(file):
    """Names of the properties with a concrete counterexample, None if there is no search."""
    found = None
    for w in sorted(os.listdir(WIT)):
        head = open(os.path.join(WIT, w)).read()
        if file not in covers(head):
            continue
        found = set() if found is None else found
        mod = "Verif.Witness." + w[:-5]
        if subprocess.run(["lake", "build", mod], cwd=DST, capture_output=True).returncode:
            found.add("search does not compile")
            continue
        with open("/tmp/mut/run.lean", "w") as f:
            f.write(f"import {mod}\ndef main := StepperPaths.Witness.{w[:-5]}.search\n")
        try:
            r = subprocess.run(["lake", "env", "lean", "--run", "/tmp/mut/run.lean"], cwd=DST,
                               capture_output=True, text=True, timeout=900)
        except subprocess.TimeoutExpired:
            found.add("diverges or too slow")
            continue
        if "done" not in r.stdout and "VIOLATED" not in r.stdout:
            found.add("search crashed")
        found |= set(re.findall(r"^VIOLATED (\S+)", r.stdout, re.M))
    return None if found is None else sorted(found)

def covers(text):
    """Model files below the imports of a search program (or those that it names)."""
    named = re.search(r"^-- covers: (.*)", text, re.M)
    if named:
        return set(named[1].split())
    todo = re.findall(r"^import (Verif\.\S+)", text, re.M)
    seen = set()
    while todo:
        f = todo.pop().replace(".", "/") + ".lean"
        if f not in seen:
            seen.add(f)
            todo += re.findall(r"^import (Verif\.\S+)", open(os.path.join(SRC, f)).read(), re.M)
    return seen

def witness_only(mutants):
    sync()
    log = [json.loads(l) for l in open(LOG)]
    for m in mutants:
        edit = f"{m['old'].strip()}  =>  {m['new'].strip()}"
        es = [e for e in log if e["edit"] == edit and e["definition"] == m["definition"]]
        p = os.path.join(DST, m["file"])
        orig = open(p).read()
        if not es or orig.count(m["old"]) < 1:
            print("NO MATCH", m["definition"], m["old"]); continue
        open(p, "w").write(orig.replace(m["old"], m["new"], 1))
        if model_compiles():
            r = refute(m["file"])
        else:
            r = "model does not compile: not a valid attempt"
        open(p, "w").write(orig)
        print(m["definition"], "|", edit[:100], "|", r, flush=True)
        log = [json.loads(l) for l in open(LOG)]
        for e in log:
            if e["edit"] == edit and e["definition"] == m["definition"]:
                e["refuted"] = r
        with open(LOG, "w") as f:
            f.writelines(json.dumps(e) + "\n" for e in log)
    model_compiles()

def main():
    env = {}
    only = sys.argv[1] == "--witness-only"
    exec(open(sys.argv[2 if only else 1]).read(), env)
    if only:
        return witness_only(env["MUTANTS"])
    sync()
    for m in env["MUTANTS"]:
        edits = [(m["file"], m["old"], m["new"])] + m.get("also", [])
        orig = {f: open(os.path.join(DST, f)).read() for f, _, _ in edits}
        text = dict(orig)
        missing = [old for f, old, _ in edits if old not in orig[f]]
        if missing:
            print("NO MATCH", m["definition"], missing[0]); continue
        for f, old, new in edits:
            text[f] = text[f].replace(old, new, 1)
        def put(t):
            for f in t:
                open(os.path.join(DST, f), "w").write(t[f])
        put(text)
        if not model_compiles():
            put(orig)
            print("INVALID ", m["definition"], "|", m["new"].strip()[:60], flush=True)
            continue
        rc, failed, mods, out = build()
        refuted = refute(m["file"])
        put(orig)
        print(("caught " if rc else "SURVIVED"), m["definition"], "|", m["old"].strip()[:60], "=>",
              m["new"].strip()[:60], "|", failed[:6], mods, refuted, flush=True)
        rec = dict(definition=m["definition"], edit=f"{m['old'].strip()}  =>  {m['new'].strip()}",
                   claim=m["claim"], failed=failed, tightened=m.get("tightened", []))
        if refuted is not None:
            rec["refuted"] = refuted
        if rc == 0:
            rec["survived"] = True
        if m.get("also"):
            rec["also"] = [f"{f}: {old.strip()}  =>  {new.strip()}" for f, old, new in m["also"]]
        if m.get("note"):
            rec["note"] = m["note"]
        os.makedirs(os.path.dirname(LOG), exist_ok=True)
        with open(LOG, "a") as f:
            f.write(json.dumps(rec) + "\n")
    # restore build products
    build()

main()
