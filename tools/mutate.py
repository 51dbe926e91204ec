#!/usr/bin/env python3
"""mutate.py FILE.json: apply each edit to a scratch copy of /verif/lean, build, and log what failed.

FILE.json is a list of {"def": ..., "file": ..., "old": ..., "new": ..., "edit": ..., "claim": ...}.
The scratch copy is /tmp/mut/work (restored from /tmp/mut/lean before each edit).  /tmp/mut/deps.txt lists, for
each property theorem, the constants it depends on; a property theorem counts as failed when it fails itself or
rests on a lemma that fails.  One JSON line per edit goes to the file named by the second argument.
"""
import json, os, re, subprocess, sys
BASE, WORK = "/tmp/mut/lean", "/tmp/mut/work"

def enclosing(path, line):
    ns, name = [], None
    for i, l in enumerate(open(path), 1):
        m = re.match(r"(namespace|section|mutual)\b\s*(\S*)", l)
        if m and m.group(1) == "namespace": ns.append(m.group(2))
        elif m: ns.append("")
        elif re.match(r"end\b", l) and ns: ns.pop()
        m = re.match(r"(?:@\[.*?\]\s*)?(?:private |protected |noncomputable |partial )*(theorem|def|lemma|instance|abbrev|structure|example)\b\s*(\S*)", l)
        if m:
            short = m.group(2) if m.group(1) != "example" else "example"
            name = ".".join([x for x in ns if x] + [short])
        if i == line: break
    return name

def main():
    muts = json.load(open(sys.argv[1]))
    log = sys.argv[2]
    deps = {}
    for l in open("/tmp/mut/deps.txt"):
        w = l.split()
        deps[w[0]] = set(w)
    for m in muts:
        subprocess.run(f"rm -rf {WORK} && cp -a {BASE} {WORK}", shell=True, check=True)
        p = f"{WORK}/Verif/{m['file']}"
        t = open(p).read()
        n = t.count(m["old"])
        if n == 0 or (n > 1 and not m.get("all")):
            print("BAD EDIT", m["def"], n); continue
        open(p, "w").write(t.replace(m["old"], m["new"]))
        r = subprocess.run("timeout 3000 lake build 2>&1", shell=True, cwd=WORK, capture_output=True, text=True)
        errs = set()
        for f, ln in re.findall(r"error: (Verif/\S+\.lean):(\d+):", r.stdout):
            errs.add(enclosing(f"{WORK}/{f}", int(ln)) or f)
        bad = set(x for x in errs if not x.endswith("example"))
        failed = sorted(k.split(".")[-1] for k, d in deps.items() if d & bad)
        rec = {"definition": m["def"], "edit": m["edit"], "claim": m["claim"], "lemmas_failed": sorted(errs),
               "theorems_failed": failed, "theorems_tightened": m.get("tightened", [])}
        if r.returncode == 0: rec["survived"] = True
        open(log, "a").write(json.dumps(rec, ensure_ascii=False) + "\n")
        print(m["def"], "|", m["edit"], "| exit", r.returncode, "| lemmas", sorted(errs)[:4], "| props", failed[:6], len(failed), flush=True)

main()
