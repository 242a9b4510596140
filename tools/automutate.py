#!/usr/bin/env python3
"""Generates small edits of the definitions of the model, one at a time, in a scratch copy; records the first
theorems that fail, or that none does.

usage: automutate.py OUT.jsonl PER_DEF SEED [model files...]"""
import sys, os, re, json, random, subprocess, shutil, time, signal
ROOT = os.path.abspath(os.path.join(os.path.dirname(__file__), ".."))
SCR = "/tmp/mut/auto"
def sync():
    shutil.rmtree(SCR, ignore_errors=True); shutil.copytree(ROOT + "/lean", SCR, symlinks=True)
def enclosing(path, line):
    name, ns = None, []
    for i, l in enumerate(open(path), 1):
        if i > line: break
        m = re.match(r"\s*namespace\s+(\S+)", l)
        if m: ns = [m.group(1)]
        m = re.match(r"\s*(?:@\[[^\]]*\]\s*)?(?:private\s+|protected\s+|noncomputable\s+)*(theorem|lemma|def|abbrev|structure|instance|example)\s*(\S*)", l)
        if m: name = (m.group(2) if m.group(1) != "example" else "example@%d" % i)
    return ".".join(ns + [name]) if name else path
def defs(s):
    """(name, start of body, end)"""
    for m in re.finditer(r"^(?:noncomputable )?def ([A-Za-z0-9_.']+)", s, re.M):
        rest = s[m.end():]
        e = re.search(r"\n(?=\n|/--|end |def |noncomputable |theorem |structure |section|variable)", rest)
        end = m.end() + (e.start() if e else len(rest))
        body = s[m.end():end]
        k = re.search(r":=|\n  \|", body)
        if k: yield m.group(1), m.end() + k.start(), end
OPS = [
 (r" < ", " ≤ ", "strict comparison made weak"), (r" ≤ ", " < ", "weak comparison made strict"),
 (r" \+ 1\b", "", "+ 1 dropped"), (r" && ", " || ", "and → or"), (r" \|\| ", " && ", "or → and"), (r" ∧ ", " ∨ ", "and → or"),
 (r"\btrue\b", "false", "true → false"), (r"\bfalse\b", "true", "false → true"),
 (r"(?<=[A-Za-z0-9_)\]])\.1\b", ".2", ".1 → .2"), (r"(?<=[A-Za-z0-9_)\]])\.2\b", ".1", ".2 → .1"),
 (r"(\w+(?:\.\w+)*) \+\+ \[([^\[\]]*)\]", r"[\2] ++ \1", "appended in front"),
 (r"(\w+(?:\.\w+)*) \+\+ \[([^\[\]]*)\]", r"\1", "not appended"),
 (r"\bif ([^\n]*?) then", r"if ¬ (\1) then", "condition negated"),
 (r" - ", " + ", "- → +"), (r" \+ ", " - ", "+ → -"), (r" \* ", " + ", "* → +"), (r"⁻¹", "", "not inverted"),
 (r"\b0\b", "1", "0 → 1"), (r"\b1\b", "0", "1 → 0"), (r"\b4\b", "3", "4 → 3"), (r"\b3\b", "2", "3 → 2"),
 (r"OMap\.set (\([^()]*\)|\S+) (\([^()]*\)|\S+) (\([^()]*\)|\S+)", r"\1", "map not updated"),
 (r"\.reverse\b", "", "not reversed"), (r"List\.range (\S+)", r"List.range (\1 - 1)", "loop one short"),
 (r"List\.range (\S+)", r"(List.range \1).tail", "loop starts at 1"),
 (r"\.filter \(?fun [^\n]*?=> ", lambda m: m.group(0) + "!", "filter negated"),
 (r" = ", " ≠ ", "= → ≠"), (r" ≠ ", " = ", "≠ → ="), (r" == ", " != ", "== → !="),
 (r"\b(\w+) \* (\w+)\b", r"\2 * \1", "product commuted"), (r"\b(\w+)⁻¹ \* (\w+)\b", r"\2 * \1⁻¹", "product commuted"),
 (r"\b(\w+(?:\.\w+)+) (\w+(?:\.\w+)*) (\w+(?:\.\w+)*)\b", r"\1 \3 \2", "arguments swapped"),
 (r"\(([a-z]\w*), ([a-z]\w*)\)", r"(\2, \1)", "pair swapped"),
 (r"with (\w+) := ([^,{}]*), ", r"with ", "field not updated"), (r", (\w+) := ([^,{}]*)(?= \})", r"", "field not updated"),
 (r"\bsome (\w+)\b(?! =>)", "none", "some → none"), (r"\.headD\b", ".getLastD", "last instead of first"),
 (r"\.map ", ".reverse.map ", "reversed before map"), (r"\.tail\b", "", "tail dropped"), (r"\.zipIdx\b", ".zipIdx 1", "positions from 1"),
]
def candidates(s):
    out = []
    for name, a, b in defs(s):
        body = s[a:b]
        for pat, rep, desc in OPS:
            for m in re.finditer(pat, body):
                t = m.group(0)
                new = rep(m) if callable(rep) else re.sub(pat, rep, t, count=1) if not callable(rep) else t
                if callable(rep) is False:
                    new = m.expand(rep) if "\\" in rep else rep
                if new == t: continue
                line = s[:a + m.start()].count("\n") + 1
                ctx = s[:a + m.start()].rsplit("\n", 1)[-1] + t + s[a + m.end():].split("\n", 1)[0]
                out.append((name, a + m.start(), a + m.end(), new, "%s: `%s` → `%s` in `%s`" % (desc, t.strip(), new.strip(), ctx.strip()), line))
    return out
def run():
    env = dict(os.environ, LEAN_NUM_THREADS="2")
    p = subprocess.Popen(["nice", "-n", "10", "lake", "build"], cwd=SCR, stdout=subprocess.PIPE, stderr=subprocess.STDOUT, text=True, env=env, start_new_session=True)
    errs, t0 = [], None
    for l in p.stdout:
        m = re.match(r"error: (Verif/\S+?\.lean):(\d+):", l)
        if m:
            errs.append((m.group(1), int(m.group(2))))
        if "Some required" in l or (errs and l.startswith("✖")) : pass
        if errs and (l.startswith("error: Lean exited")):
            os.killpg(p.pid, signal.SIGKILL); break
    p.wait()
    return p.returncode, errs
def main():
    out, per, seed, files = sys.argv[1], int(sys.argv[2]), int(sys.argv[3]), sys.argv[4:]
    rng = random.Random(seed)
    sync()
    done = set()
    if os.path.exists(out):
        for l in open(out):
            r = json.loads(l); done.add((r["file"], r["definition"], r["edit"]))
    todo = []
    for f in files:
        s = open(os.path.join(SCR, "Verif", f)).read()
        by = {}
        for c in candidates(s): by.setdefault(c[0], []).append(c)
        for n, cs in by.items():
            rng.shuffle(cs)
            todo.append((f, n, cs))
    rng.shuffle(todo)
    for f, n, cs in todo:
        p = os.path.join(SCR, "Verif", f)
        got = 0
        for c in cs:
            if got >= per: break
            if (f, n, c[4]) in done: got += 1; continue
            s = open(p).read()
            open(p, "w").write(s[:c[1]] + c[3] + s[c[2]:])
            t = time.time()
            rc, errs = run()
            fails = []
            for ef, ln in errs:
                e = enclosing(os.path.join(SCR, ef), ln)
                if e not in fails: fails.append(e)
            open(p, "w").write(s)
            if any(e.split(".")[-1] == n.split(".")[-1] and ef == "Verif/" + f for e, (ef, _) in zip(fails, errs)) or any(ef == "Verif/" + f for ef, _ in errs):
                continue
            got += 1
            rec = dict(definition=n, file=f, edit=c[4], failed=fails, survived=(rc == 0), secs=round(time.time() - t))
            open(out, "a").write(json.dumps(rec, ensure_ascii=False) + "\n")
main()
