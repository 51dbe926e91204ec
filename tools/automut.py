#!/usr/bin/env python3
"""automut.py SEED PER_DEF OUT.jsonl [FILE ...]: random small edits of the definitions of the model.

Each edit changes one token of one definition (a number, a comparison, a connective, an operator, a Boolean) in a
scratch copy (/tmp/am/work, from /tmp/am/lean).  The edited file must still compile; then the project is built until
the first error.  One JSON line per edit: where, what, and the first lemma that failed, or "survived".
"""
import json, os, re, random, subprocess, sys, signal
BASE, WORK = "/tmp/am/lean", "/tmp/am/work"
sys.path.insert(0, os.path.dirname(os.path.abspath(__file__)))

OPS = {"<": ["≤"], "≤": ["<"], "=": ["≠"], "≠": ["="], "==": ["!="], "!=": ["=="], "&&": ["||"], "||": ["&&"],
       "∧": ["∨"], "∨": ["∧"], "+": ["-"], "-": ["+"], "*": ["+"], "<<<": [">>>"], ">>>": ["<<<"], "&&&": ["|||"],
       "|||": ["&&&"], "^^^": ["|||"], "true": ["false"], "false": ["true"], "some": [], "++": [], "/": ["*"], "%": ["/"]}
TOK = re.compile(r"0x[0-9A-Fa-f]+|\b\d+\b|<<<|>>>|&&&|\|\|\||\^\^\^|==|!=|&&|\|\||\+\+|:=|=>|->|<-|←|→|[<≤=≠∧∨+*/%-]|\b(?:true|false)\b")

def strip(t):
    """blank out comments and strings, keeping positions"""
    out, i, n = list(t), 0, len(t)
    while i < n:
        if t.startswith("/-", i):
            d, j = 1, i+2
            while d: 
                if t.startswith("/-", j): d += 1; j += 2
                elif t.startswith("-/", j): d -= 1; j += 2
                else: j += 1
            for k in range(i, j):
                if out[k] != "\n": out[k] = " "
            i = j
        elif t.startswith("--", i):
            while i < n and t[i] != "\n": out[i] = " "; i += 1
        elif t[i] == '"':
            j = i+1
            while t[j] != '"': j += 2 if t[j] == "\\" else 1
            for k in range(i, j+1): out[k] = " "
            i = j+1
        else: i += 1
    return "".join(out)

def defs(t):
    s = strip(t)
    starts = [m.start() for m in re.finditer(r"^(?=\S)", s, re.M)]
    starts.append(len(s))
    for a, b in zip(starts, starts[1:]):
        m = re.match(r"(?:@\[[^\]]*\]\s*)?(?:private |protected |noncomputable )*(def|abbrev|structure)\s+(\S+)", s[a:b])
        if m and m.group(1) != "structure": yield m.group(2), a, b, s

def mutants(path):
    t = open(path).read()
    for name, a, b, s in defs(t):
        body = s.find(":=", a, b)
        bar = s.find("\n  |", a, b)
        body = min(x for x in (body, bar, b) if x >= 0)
        c = []
        for m in TOK.finditer(s, body+2, b):
            k = m.group(0)
            if re.match(r"0x", k): c.append((m.span(), [hex(int(k, 16) ^ 1), hex(int(k, 16) + 8)]))
            elif k.isdigit(): c.append((m.span(), [str(int(k)+1)] + ([str(int(k)-1)] if int(k) else [])))
            elif OPS.get(k): c.append((m.span(), OPS[k]))
        yield name, t, c

def enclosing(path, line):
    from importlib import util
    ns, name = [], None
    for i, l in enumerate(open(path), 1):
        m = re.match(r"(?:@\[.*?\]\s*)?(?:private |protected |noncomputable )*(theorem|def|lemma|instance|abbrev|example)\b\s*(\S*)", l)
        if m: name = m.group(2) if m.group(1) != "example" else "example"
        if i == line: break
    return name

def main():
    rnd = random.Random(int(sys.argv[1])); per = int(sys.argv[2]); out = sys.argv[3]
    files = sys.argv[4:] or sorted(f"Model/{f}" for f in os.listdir(f"{BASE}/Verif/Model"))
    done = set()
    if os.path.exists(out):
        for l in open(out):
            d = json.loads(l); done.add((d["file"], d["def"], d["n"]))
    jobs = []
    for f in files:
        for name, t, c in mutants(f"{BASE}/Verif/{f}"):
            rnd.shuffle(c)
            jobs.append((f, name, t, c))
    rnd.shuffle(jobs)
    for n in range(per):
      for f, name, t, c in jobs:
        if n >= len(c) or (f, name, n) in done: continue
        (a, b), alts = c[n]
        new = rnd.choice(alts)
        line = t.count("\n", 0, a) + 1
        src = t.split("\n")[line-1].strip()
        subprocess.run(f"rm -rf {WORK} && cp -a {BASE} {WORK}", shell=True, check=True)
        p = f"{WORK}/Verif/{f}"
        open(p, "w").write(t[:a] + new + t[b:])
        rec = {"file": f, "def": name, "n": n, "line": line, "old": t[a:b], "new": new, "src": src}
        r = subprocess.run(f"timeout 600 lake build Verif.{f[:-5].replace('/', '.')} 2>&1", shell=True, cwd=WORK, capture_output=True, text=True)
        if r.returncode != 0: rec["result"] = "does not compile"
        else:
            q = subprocess.Popen("exec timeout 3600 nice -n 5 lake build 2>&1", shell=True, cwd=WORK, stdout=subprocess.PIPE, text=True, preexec_fn=os.setsid)
            err = None; txt = ""
            for l in q.stdout:
                txt += l
                m = re.match(r"error: (Verif/\S+\.lean):(\d+):", l)
                if m:
                    err = f"{m.group(1)}:{enclosing(f'{WORK}/{m.group(1)}', int(m.group(2)))}"
                    os.killpg(q.pid, signal.SIGKILL); break
            q.wait()
            rec["result"] = "killed" if err else ("survived" if q.returncode == 0 else "error")
            if err: rec["by"] = err
            elif q.returncode: rec["tail"] = txt[-400:]
        open(out, "a").write(json.dumps(rec, ensure_ascii=False) + "\n")
        print(rec["result"], f, name, line, rec["old"], "->", new, rec.get("by", ""), flush=True)

main()
