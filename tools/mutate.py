#!/usr/bin/env python3
"""Applies edits to a scratch copy of the Lean project and records which theorems fail.

usage: mutate.py FILE   (FILE: a python file defining MUT, a list of dicts with keys
file, old, new, definition, edit, claim)"""
import sys, os, subprocess, shutil, re, json
ROOT = os.path.abspath(os.path.join(os.path.dirname(__file__), ".."))
SCR = "/tmp/mut/lean"
LOG = os.path.join(ROOT, "seeded", "LOG.jsonl")
def sync():
    os.makedirs("/tmp/mut", exist_ok=True)
    subprocess.run(["rsync", "-a", "--delete", ROOT + "/lean/", SCR + "/"], check=False) if shutil.which("rsync") else (
        shutil.rmtree(SCR, ignore_errors=True), shutil.copytree(ROOT + "/lean", SCR, symlinks=True))
def enclosing(path, line):
    name = None
    ns = []
    for i, l in enumerate(open(path), 1):
        if i > line: break
        m = re.match(r"\s*namespace\s+(\S+)", l)
        if m: ns = [m.group(1)]
        m = re.match(r"\s*(?:@\[[^\]]*\]\s*)?(?:private\s+|protected\s+|noncomputable\s+)*(theorem|lemma|def|abbrev|structure|instance|example)\s*(\S*)", l)
        if m: name = (m.group(2) if m.group(1) != "example" else "example@%d" % i)
    return (".".join(ns + [name]) if name else path)
def main():
    g = {}
    exec(open(sys.argv[1]).read(), g)
    sync()
    for m in g["MUT"]:
        p = os.path.join(SCR, "Verif", m["file"])
        s = open(p).read()
        if s.count(m["old"]) < 1:
            print("NOT FOUND", m["definition"], m["old"]); continue
        open(p, "w").write(s.replace(m["old"], m["new"], m.get("count", 1)))
        r = subprocess.run(["lake", "build"], cwd=SCR, capture_output=True, text=True)
        out = r.stdout + r.stderr
        fails = []
        for f, ln in re.findall(r"error: (Verif/\S+?\.lean):(\d+):", out):
            e = enclosing(os.path.join(SCR, f), int(ln))
            if e not in fails: fails.append(e)
        compiled = not any((f.split(".")[-1] == m["definition"].split(".")[-1]) for f in fails)
        open(p, "w").write(s)
        rec = dict(definition=m["definition"], file=m["file"], edit=m["edit"], claim=m["claim"], failed=fails, survived=(r.returncode == 0), tightened=[])
        print(json.dumps(rec, ensure_ascii=False))
        if not compiled: print("   !! the definition itself failed to compile; not logged"); continue
        if r.returncode == 0: print("   !! SURVIVED")
        open(LOG, "a").write(json.dumps(rec, ensure_ascii=False) + "\n")
    subprocess.run(["lake", "build"], cwd=SCR, capture_output=True)
main()
