"""Try wrong models against the theorems.

usage: mutate.py BATCH.py [first]

BATCH.py defines MUTS, a list of (file under lean/Verif, old text, new text, broken claims, what breaks).  Every edit is made in a scratch copy,
in which the modules with the theorems of the claim are rebuilt.  A proof that no longer goes through is replaced by sorry and the build repeated, so that in the end the property theorems which
depend on a broken proof can be told from those which are really proved for the wrong model (#print axioms).  One JSON line per edit is printed and
appended to BATCH.out.
"""
import json, os, re, runpy, subprocess, sys

ROOT = os.path.dirname(os.path.dirname(os.path.abspath(__file__)))
SCRATCH = os.environ.get("MUT_DIR", "/tmp/mut")
BASE = SCRATCH + "base"  # a copy of lean/, made at the start
DECL = re.compile(r"^(?:@\[[^\]]*\]\s*)?(?:private |protected |noncomputable )*(theorem|lemma|def|instance|example|structure|inductive|abbrev)\b\s*([^\s:({\[]*)")
ROUNDS = 12


def decls(lines):
    """(first line, end line, kind, name), lines counted from 0"""
    out = []
    for i, l in enumerate(lines):
        m = DECL.match(l)
        if m:
            j = i + 1
            while j < len(lines) and (lines[j].strip() == "" or lines[j][0] in " \t|·)}⟩"):
                j += 1
            out.append((i, j, m.group(1), m.group(2) or "%s at line %d" % (m.group(1), i + 1)))
    return out


def enclosing(lines, line):
    best = None
    for d in decls(lines):
        if d[0] < line:
            best = d
    return best


def main():
    batch = sys.argv[1]
    first = int(sys.argv[2]) if len(sys.argv) > 2 else 0
    muts = runpy.run_path(batch)["MUTS"]
    manifest = {c["property"]: c["theorems"] for c in json.load(open(ROOT + "/MANIFEST.json"))["claims"]}
    subprocess.run("rm -rf %s && cp -a %s/lean %s" % (BASE, ROOT, BASE), shell=True, check=True)
    where = {}
    for dd, _, xs in os.walk(BASE + "/Verif/Props"):
        for x in xs:
            for l in open(os.path.join(dd, x)):
                m = DECL.match(l)
                if m and m.group(1) == "theorem":
                    where[m.group(2).split(".")[-1]] = "Verif.Props." + x[:-5]
    for n, (file, old, new, claims, what) in enumerate(muts):
        if n < first:
            continue
        subprocess.run("rm -rf %s && cp -a %s %s" % (SCRATCH, BASE, SCRATCH), shell=True, check=True)
        path = SCRATCH + "/Verif/" + file
        s = open(path).read()
        if s.count(old) < 1:
            print(json.dumps({"n": n, "bad": "text not found", "old": old}), flush=True)
            continue
        d = enclosing(s.split("\n"), s[: s.index(old)].count("\n") + 1 + (len(old) - len(old.lstrip("\n"))))
        open(path, "w").write(s.replace(old, new, 1))
        failed = []
        stuck = []
        names = [t for c in claims for t in manifest.get(c, [])]
        mods = sorted({where[t.split(".")[-1]] for t in names})
        for _ in range(ROUNDS):
            r = subprocess.run(["lake", "build"] + mods, cwd=SCRATCH, capture_output=True, text=True)
            out = r.stdout + r.stderr
            errs = {}
            for m in re.finditer(r"error: (Verif/\S+?\.lean):(\d+):", out):
                errs.setdefault(m.group(1), set()).add(int(m.group(2)))
            if not errs:
                break
            progress = False
            for f, ls in errs.items():
                lines = open(SCRATCH + "/" + f).read().split("\n")
                bad = {enclosing(lines, l) for l in ls}
                for b in sorted([x for x in bad if x], reverse=True):
                    text = "\n".join(lines[b[0]: b[1]])
                    name = f + ":" + b[3]
                    k = text.find(":= by")
                    if k < 0:
                        k = text.rfind(" := ")
                    if b[2] in ("theorem", "lemma", "example") and k >= 0 and not text[k:].startswith(":= by sorry"):
                        failed.append(name)
                        # keep the number of lines, so that the names of examples stay the same
                        repl = (text[:k] + ":= by sorry").split("\n")
                        if b[2] == "example":
                            repl = ["example : True := trivial"]
                        repl += [""] * (b[1] - b[0] - len(repl))
                        lines[b[0]: b[1]] = repl
                        progress = True
                    elif name not in stuck:
                        stuck.append(name)
                open(SCRATCH + "/" + f, "w").write("\n".join(lines))
            if not progress:
                break
        # only modules that have been built this time can be imported
        with open(SCRATCH + "/check.lean", "w") as f:
            f.write("".join("import %s\n" % m for m in mods if built(m)))
            f.write("".join("#print axioms %s\n" % t for t in names))
        o = subprocess.run(["lake", "env", "lean", "check.lean"], cwd=SCRATCH, capture_output=True, text=True)
        o = o.stdout + o.stderr
        st = {}
        for t in names:
            m = re.search(r"'%s' (depends on axioms: \[[^\]]*\]|does not depend on any axioms)" % re.escape(t), o)
            st[t.split(".")[-1]] = "blocked" if not m else ("fails" if "sorryAx" in m.group(1) else "still proved")
        vs = set(st.values())
        verdict = "SURVIVES" if not failed and not stuck else ("caught" if "fails" in vs else ("BLOCKED" if "blocked" in vs else "CLAIM NOT HIT"))
        rec = {"n": n, "definition": file + ":" + (d[3] if d else "?"), "edit": "%s -> %s" % (old.strip(), new.strip()), "claim": ", ".join(claims) + ": " + what,
               "failed": failed, "stuck": stuck, "claim_theorems": st, "verdict": verdict}
        line = json.dumps(rec, ensure_ascii=False)
        print(line, flush=True)
        with open(batch.replace(".py", ".out"), "a") as f:
            f.write(line + "\n")


def built(mod):
    r = subprocess.run(["lake", "build", "--no-build", mod], cwd=SCRATCH, capture_output=True)
    return r.returncode == 0


main()
