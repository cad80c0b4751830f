"""Check the citations in the model: a name in backquotes followed by (/repo/file:a-b) must occur in those lines of that file or name the
function they are in, and the lines must exist."""
import glob, os, re
root = os.path.dirname(os.path.dirname(os.path.abspath(__file__)))
bad = n = 0
for path in sorted(glob.glob(root + "/lean/Verif/**/*.lean", recursive=True)):
    s = open(path).read()
    for m in re.finditer(r"/repo/([A-Za-z_./-]+?):(\d+)(?:-(\d+))?((?:, \d+(?:-\d+)?)*)", s):
        n += 1
        where = "%s:%d" % (os.path.relpath(path, root), s[: m.start()].count("\n") + 1)
        src = "/repo/" + m.group(1)
        if not os.path.exists(src):
            print(where, "no such file", src); bad += 1
            continue
        lines = open(src).read().split("\n")
        a = int(m.group(2)); b = int(m.group(3) or a)
        if not 1 <= a <= b <= len(lines):
            print(where, "no such lines", m.group(0)); bad += 1
        before = s[max(0, m.start() - 60): m.start()]
        q = re.search(r"`([A-Za-z_][A-Za-z_0-9.]*)`[^`]{0,12}\($", before)
        if q:
            name = q.group(1).split(".")[-1]
            heads = [l for l in lines[: a] if re.match(r"\s*def |(static |void|int|struct|double)[^;=]*\(", l)]
            if not any(name in l for l in lines[a - 1: b] + heads[-1:]):
                print(where, "`%s` not in %s" % (q.group(1), m.group(0))); bad += 1
print("%d citations, %d doubtful" % (n, bad))
