#!/usr/bin/env python3
"""Mutation test: apply textual edits to a scratch copy of the model and rebuild.

usage: mutate.py FILE.json
FILE.json is a list of objects
  {"file": "Csr/Model.lean", "definition": "...", "old": "...", "new": "...", "edit": "...",
   "claim": "C01: ..."}
For each one: the scratch copy is reset, the edit applied, the modules with theorems of the claim
rebuilt (and, if these still prove, everything), and one line with the theorems that stopped proving
is appended to seeded/LOG.jsonl. An edit that leaves every theorem proved is printed as SURVIVED and
logged too.
"""
import json, os, re, shutil, subprocess, sys
root = os.path.dirname(os.path.dirname(os.path.abspath(__file__)))
scratch = "/tmp/mutants"


def reset():
    if not os.path.exists(scratch):
        shutil.copytree(f"{root}/lean", scratch)
    shutil.rmtree(f"{scratch}/Verif")
    shutil.copytree(f"{root}/lean/Verif", f"{scratch}/Verif")
    shutil.copy(f"{root}/lean/Verif.lean", f"{scratch}/Verif.lean")


def decl_at(path, line):
    name = None
    for n, text in enumerate(open(path), 1):
        m = re.match(r"(?:@\[.*\] )?(?:private |protected )?(theorem|def|example|instance|lemma)\b\s*(\S*)", text)
        if m and n <= line:
            name = m.group(2) if m.group(1) != "example" else f"example@{n}"
        if n > line:
            break
    return name


def modules(claim):
    mods = []
    pat = re.compile(r"^theorem %s_" % re.escape(claim[:claim.find(":")] if ":" in claim else claim), re.M)
    for d, _, fs in os.walk(f"{scratch}/Verif"):
        for f in fs:
            if f.endswith(".lean") and pat.search(open(f"{d}/{f}").read()):
                mods.append(os.path.relpath(f"{d}/{f}", scratch)[:-5].replace("/", "."))
    return sorted(mods)


def build(targets):
    r = subprocess.run(["lake", "build"] + targets, cwd=scratch, capture_output=True, text=True)
    out = r.stdout + r.stderr
    bad = []
    for m in re.finditer(r"error: (Verif/\S+\.lean):(\d+):", out):
        d = decl_at(f"{scratch}/{m.group(1)}", int(m.group(2)))
        mod = m.group(1)[:-5].replace("/", ".")
        mod = f"{mod}:{d}"
        if mod not in bad:
            bad.append(mod)
    return r.returncode, bad, out


def main():
    specs = json.load(open(sys.argv[1]))
    for s in specs:
        reset()
        p = f"{scratch}/Verif/{s['file']}"
        t = open(p).read()
        if t.count(s["old"]) != 1:
            print("BAD SPEC (occurrences %d):" % t.count(s["old"]), s["file"], s["old"]); continue
        open(p, "w").write(t.replace(s["old"], s["new"]))
        first = modules(s["claim"])
        rc, bad, out = build(first) if first else (0, [], "")
        if rc == 0:
            rc, bad, out = build([])
        if rc != 0 and not bad:
            print("BUILD PROBLEM", s["edit"], out[-500:]); continue
        model_err = [b for b in bad if ".Model:" in b or ".Spec:" in b]
        if model_err:
            print("EDIT DOES NOT COMPILE", s["edit"], model_err); continue
        print("killed" if bad else "SURVIVED", "|", s["claim"], "|", s["edit"], "|", bad, flush=True)
        rec = {"definition": f"{s['file']}: {s['definition']}", "edit": s["edit"],
               "claim": s["claim"], "failed": bad, "tightened": s.get("tightened", [])}
        if not bad:
            rec["note"] = s.get("note", "survived")
        with open(f"{root}/seeded/LOG.jsonl", "a") as f:
            f.write(json.dumps(rec, ensure_ascii=False) + "\n")


main()
