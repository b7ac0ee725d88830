"""Compares the model of ast.NewCommentMap (lean/Verif/CommentMap.lean) with the independent implementation in goparse.py, on all files
of /repo/analysis/testdata and on variants of them in which lines were joined, removed or inserted."""
import glob, os, random, subprocess, sys
sys.path.insert(0, os.path.dirname(__file__))
import goparse
from goparse import children, IMPORTANT


def case(src):
    f = goparse.parse(src)
    nodes = []

    def collect(n):
        if n.k != "CommentGroup":
            nodes.append(n)
            for c in children(n):
                collect(c)
    collect(f)
    num = {n.id: k for k, n in enumerate(nodes)}
    want = sorted((g.pos, num[i]) for i, gs in goparse.comment_map(f).items() for g in gs)
    starts = [0] + [i + 1 for i, ch in enumerate(src) if ch == "\n"]
    gs = list(f.comments)
    random.shuffle(gs)
    b = lambda x: "true" if x else "false"
    return (f"check {starts}\n  [" + ", ".join(f"⟨{k}, {n.pos}, {n.end}, {b(n.k in IMPORTANT)}⟩" for k, n in enumerate(nodes)) + "]\n  ["
            + ", ".join(f"⟨{g.pos}, {g.end}, []⟩" for g in gs) + "]\n  [" + ", ".join(str(n) for _, n in want) + "]")


def variants(src, rnd):
    yield src
    for _ in range(4):
        ls = src.split("\n")
        for _ in range(rnd.randrange(1, 30)):
            i = rnd.randrange(len(ls))
            r = rnd.random()
            if r < 0.4:
                ls.insert(i, "")
            elif r < 0.7:
                ls.insert(i, "// note")
            elif ls[i].strip() == "":
                del ls[i]
            elif not ls[i].strip().startswith("//"):
                ls[i] += " // behind"
        yield "\n".join(ls)


rnd = random.Random(1)
random.seed(2)
cases = []
for path in sorted(glob.glob("/repo/analysis/testdata/src/**/*.go", recursive=True)):
    for v in variants(open(path).read(), rnd):
        try:
            cases.append(case(v))
        except Exception:
            pass
text = """import Verif.CommentMap
open Serum CommentMap
def check (starts : List Nat) (nodes : List Item) (cs : List Group) (want : List Nat) : Bool :=
  (newCommentMap (fun o => (starts.filter (· ≤ o)).length) nodes cs).map (fun m => m.map (·.1.id)) == some want
set_option maxRecDepth 100000
"""
for k, c in enumerate(cases):
    text += f"#eval ({k}, {c})\n"
open("/tmp/comments_check.lean", "w").write(text)
out = subprocess.run(["lake", "env", "lean", "/tmp/comments_check.lean"], cwd="/verif/lean", capture_output=True, text=True).stdout
good, bad = out.count(", true)"), out.count(", false)")
print(len(cases), "cases,", good, "agree,", bad, "disagree")
if good != len(cases):
    print(out[:2000])
