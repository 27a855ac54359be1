#!/usr/bin/env python3
"""Seeded faults: apply each edit of a list to a scratch copy of the model, rebuild, and report
which theorems fail.  Usage: mutate.py LIST.json OUT.jsonl [ID...]"""
import json, os, re, subprocess, shutil, sys
SRC = "/verif/lean"; SCR = "/tmp/mut/lean"
muts = json.load(open(sys.argv[1])); out = sys.argv[2]; only = set(sys.argv[3:])
done = set()
if os.path.exists(out):
    done = {json.loads(l)["id"] for l in open(out)}
def imports():
    g = {}
    for d, _, fs in os.walk(SCR + "/Verif"):
        for f in fs:
            if f.endswith(".lean"):
                p = os.path.join(d, f)
                m = os.path.relpath(p, SCR)[:-5].replace("/", ".")
                g[m] = set(re.findall(r"^import (Verif\.\S+)", open(p).read(), re.M))
    return g
def downstream(g, bad):
    bad = set(bad); grew = True
    while grew:
        grew = False
        for m, i in g.items():
            if m not in bad and i & bad:
                bad.add(m); grew = True
    return bad
def enclosing(path, line):
    ls = open(path).read().split("\n")
    for k in range(min(line, len(ls)) - 1, -1, -1):
        m = re.match(r"(?:@\[.*?\]\s*)?(?:private |protected |noncomputable )*(theorem|lemma|def|example|instance|abbrev|structure|inductive)\s*(\S*)", ls[k])
        if m:
            return m.group(1) + " " + m.group(2) if m.group(1) != "theorem" else m.group(2)
    return "?"
def targets(ids):
    """the modules with the theorems of these claims"""
    r = []
    for f in sorted(os.listdir(SCR + "/Verif/Props")):
        t = open(SCR + "/Verif/Props/" + f).read()
        if any(re.search(r"^theorem %s_" % i, t, re.M) for i in ids):
            r.append("Verif.Props." + f[:-5])
    return r
for mu in muts:
    if mu["id"] in done or (only and mu["id"] not in only):
        continue
    shutil.rmtree(SCR, ignore_errors=True)
    subprocess.run(["cp", "-a", SRC, SCR], check=True)
    f = f"{SCR}/Verif/{mu['file']}.lean"
    s = open(f).read()
    n = s.count(mu["old"])
    if n != 1:
        print("BAD", mu["id"], n, flush=True); continue
    open(f, "w").write(s.replace(mu["old"], mu["new"]))
    env = dict(os.environ, LEAN_NUM_THREADS=os.environ.get("MUT_THREADS", "2"))
    try:
        r = subprocess.run(["nice", "lake", "build"] + targets(mu["ids"]), cwd=SCR, env=env, stdout=subprocess.PIPE, stderr=subprocess.STDOUT, text=True, timeout=3600)
        txt = r.stdout
    except subprocess.TimeoutExpired as e:
        txt = (e.stdout or b"").decode() if isinstance(e.stdout, bytes) else (e.stdout or ""); txt += "\nTIMEOUT"
    fails = []; badmods = []
    for m in re.finditer(r"^error: (Verif/\S+?\.lean):(\d+):", txt, re.M):
        t = enclosing(SCR + "/" + m.group(1), int(m.group(2)))
        mod = m.group(1)[:-5].replace("/", ".")
        if mod not in badmods: badmods.append(mod)
        if t not in fails: fails.append(t)
    for m in re.finditer(r"^error: .*?(Verif\.\S+).*", txt, re.M):
        pass
    g = imports(); down = downstream(g, badmods) - set(badmods)
    blocked = set()
    for m in down:
        if ".Props." in m:
            t = open(SCR + "/" + m.replace(".", "/") + ".lean").read()
            blocked |= set(re.findall(r"^theorem (C\d\d+_\S+)", t, re.M))
    rec = dict(id=mu["id"], definition=mu["definition"], edit=f"{mu['old']!r} -> {mu['new']!r}", file=mu["file"],
               claim=mu["claim"], theorems_failed=fails, blocked_claims=sorted({b[:3] for b in blocked}), timeout="TIMEOUT" in txt)
    # theorems of the same file whose proofs use a failed one
    same = set()
    for m in badmods:
        t = open(SCR + "/" + m.replace(".", "/") + ".lean").read()
        parts = re.split(r"^(?=theorem |def |lemma |example)", t, flags=re.M)
        bad = set(fails); grew = True
        while grew:
            grew = False
            for q in parts:
                n = re.match(r"(?:theorem|lemma|def) (\S+)", q)
                if n and n.group(1) not in bad and any(re.search(r"(?<![\w.])%s(?![\w])" % re.escape(b), q) for b in bad if " " not in b):
                    bad.add(n.group(1)); grew = True
        same |= {b for b in bad - set(fails) if re.match(r"C\d\d+_", b)}
    rec["dependent_theorems"] = sorted(same)
    hit = {x[:3] for x in fails} | {b[:3] for b in blocked} | {b[:3] for b in same}
    rec["survived"] = not (set(mu["ids"]) & hit)
    rec["ids"] = mu["ids"]
    open(out, "a").write(json.dumps(rec) + "\n")
    print(mu["id"], "SURVIVED" if rec["survived"] else "killed", fails[:6], rec["blocked_claims"], flush=True)
