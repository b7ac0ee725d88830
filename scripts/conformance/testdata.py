"""Writes the packages of /repo/analysis/testdata as Lean modules /verif/lean/Verif/Testdata/*.lean, each with the theorem that the model
has the expected result for it, in every order of iteration.  The expected results are those of the evaluated model, after they have been
compared with the expectations in the comments of the packages (run.py)."""
import os, re, subprocess, sys, textwrap, time
import load, emit, gotypes, run

OUT = "/verif/lean/Verif/Testdata"
CAMEL = lambda p: "".join(w.capitalize() for w in re.split(r"[/_]", p)).replace("001", "P001")
NS = lambda p: CAMEL(p)[0].lower() + CAMEL(p)[1:]

HEAD = """{imports}

/-!
# C54: the package analysis/testdata/src/{path}

Generated by `scripts/conformance/testdata.py` from {files}.  Numbers of syntax nodes, objects and types are arbitrary.  The tables hold
what `go/parser` and `go/types` say about the package.
-/

set_option maxRecDepth 100000
set_option linter.all false

namespace Serum.Testdata.{ns}
open Serum Serum.Testdata

"""

DUMP = """
open Serum Serum.Check
def dump (P : Package) (names : Names) (n : Nat) : String :=
  match runVerify P source true with
  | .error (.panic loc) => "PANIC " ++ loc
  | .error _ => "FUEL"
  | .ok o =>
    let f (l : List String) : String := "[" ++ String.intercalate ",@" l ++ "]"
    String.intercalate "\\n@@\\n" [f (o.tags.map reprStr), f (o.ifaces.map reprStr), f (o.signatures.map reprStr), f (o.claims.map reprStr),
      f (o.bodies.map reprStr), f (o.mismatches.map reprStr), f (o.conversions.map reprStr),
      f ((List.range n).filterMap fun i => (o.facts.codes i).map fun c => reprStr (i, c)),
      f ((List.range n).filterMap fun i => (o.facts.ctor i).map fun c => reprStr (i, c)),
      f ((List.range n).filterMap fun i => (o.facts.errorType i).map fun c => reprStr (i, c)),
      f ((List.range n).filterMap fun i => (o.facts.interface i).map fun c => reprStr (i, c)),
      f ((List.range P.env.funcs.length).map fun f =>
        reprStr (((P.plan (RunSpec.during P o.facts) f).calls ++ (P.plan o.facts f).calls).eraseDups,
          ((P.plan (RunSpec.during P o.facts) f).visits ++ (P.plan o.facts f).visits).eraseDups)),
      String.intercalate "\\n" ((o.shown P names).map fun d => s!"{d.1}\\t{String.fromUTF8! ⟨d.2.toArray⟩}"),
      String.intercalate " " (["."] ++ (o.tags.filterMap fun d => match d.msg with | .noCodes o => some (toString o) | _ => none) ++
        (o.bodies.filterMap fun d => match d.2.msg with | .constructorAsValue o => some (toString o) | _ => none) ++
        (o.conversions.filterMap fun d => d.interface.map toString))]
"""
FIELDS = ["tags", "ifaces", "signatures", "claims", "bodies", "mismatches", "conversions", "codes", "ctors", "errorTypes", "interfaces"]


def strings(t):
    """Lists of bytes as string literals."""
    def f(m):
        b = bytes(int(x) for x in re.findall(r"\d+", m.group(0)))
        return emit.lstr(b)
    return re.sub(r"\[\d+(?:,\s*\d+)*\]", f, t)


def wrap(text):
    res = []
    for l in text.splitlines():
        if len(l) > 150 and 'b!"' not in l:
            l = "\n".join(textwrap.wrap(l, 148, subsequent_indent="  ", break_long_words=False, break_on_hyphens=False))
        res.append(l)
    return "\n".join(res) + "\n"


def texts(em, shown, used):
    """What is printed."""
    at = sorted({i for i, _ in shown})
    info = []
    for i in at:
        f, nd = em.nodepos[i]
        info.append((i, f"({emit.lstr(f.filename)}, {f.scanner.line(nd.pos)}, {emit.lstr(nd.k)})"))
    lines = []
    for i, t in shown:
        f, nd = em.nodepos[i]
        lines.append(f"({emit.lstr(f.filename)}, {f.scanner.line(nd.pos)}, {emit.lstr(t)})")
    names = [(o.id, emit.lstr(o.name)) for o in gotypes.Obj.all if o.id in used]
    s = "/-- For the nodes with diagnostics: file, line, and type of node. -/\ndef nodes : Tree (GoString × Nat × GoString) :=\n  " + emit.tree(info) + "\n\n"
    s += "/-- The names of the objects named in diagnostics other than by identifiers. -/\ndef objectNames : Tree GoString :=\n  " + emit.tree(names) + "\n\n"
    s += "def names : Names where\n  object := fun o => (objectNames.find o).getD []\n  kind := fun n => ((nodes.find n).map fun p => p.2.2).getD []\n\n"
    s += "def place (n : NodeId) : GoString × Nat := ((nodes.find n).map fun p => (p.1, p.2.1)).getD ([], 0)\n\n"
    s += "/-- What is printed: file, line and text. -/\ndef lines : List Check.Line := [" + ",\n    ".join(lines) + "]\n\n"
    s += "/-- **C54**: for every run over the package, these lines are printed. -/\ntheorem prints : Check.Prints package Imported true names place lines :=\n"
    s += "  Check.prints always (by decide +kernel)\n\n"
    return s


def lean(fn):
    r = subprocess.run(["lake", "env", "lean", fn], cwd="/verif/lean", capture_output=True, text=True)
    return r.stdout + r.stderr


def main(paths):
    os.makedirs(OUT, exist_ok=True)
    os.makedirs("/tmp/conf", exist_ok=True)
    for p in load.PATTERNS:
        load.load(p)
    order = []

    def visit(p):
        for q in run.deps(load.load(p)):
            visit(q)
        if p not in order:
            order.append(p)
    for p in load.PATTERNS:
        visit(p)
    n = len(gotypes.Obj.all)
    for path in order:
        pkg = load.load(path)
        ds = run.deps(pkg)
        em = emit.Emitter(pkg, NS(path), [NS(q) for q in ds])
        body = em.emit()          # numbers types, so do this for all packages
        if paths and path not in paths:
            continue
        imports = "import Verif.Testdata.Support\n" + "".join(f"import Verif.Testdata.{CAMEL(q)}\n" for q in ds)
        head = HEAD.format(imports=imports.rstrip(), path=path, ns=NS(path), files=", ".join(f.filename for f in pkg.files))
        body = body.split("\n", 1)[1].rsplit("\nend ", 1)[0] + "\n"
        tmp = f"/tmp/conf/g_{NS(path)}.lean"
        objs = [(o.id, emit.lstr(o.name)) for o in gotypes.Obj.all if o.kind in ("type", "func")]
        kinds = [(i, emit.lstr(nd.k)) for i, (f, nd) in em.nodepos.items()]
        tables = f"def objs : Tree GoString := {emit.tree(objs)}\ndef kinds : Tree GoString := {emit.tree(kinds)}\n"
        open(tmp, "w").write(head + body + DUMP + tables +
                             f"#eval IO.println (dump package ⟨fun o => (objs.find o).getD [], fun o => (kinds.find o).getD []⟩ {n})\n")
        out = lean(tmp)
        parts = out.rstrip("\n").split("\n@@\n")
        if len(parts) != 14:
            print(path, "FAILED", out[:2000])
            sys.exit(1)
        shown = [(int(x.split("\t")[0]), x.split("\t")[1]) for x in parts[12].split("\n") if x]
        used = sorted({int(x) for x in parts[13].split() if x != "."})
        parts = [strings(re.sub(r"\s*\n\s*", " ", x)).replace(",@", ",\n    ") for x in parts]
        parts[11] = out.rstrip("\n").split("\n@@\n")[11].replace("\n", " ").replace(",@", ", ")
        text = head + wrap(body)
        wants = [f"{f.filename}:{l}: {nm + ': ' if nm else ''}{rx}" for f in pkg.files for l, nm, rx in run.expectations(f)]
        doc = "\n".join(wants).replace("-/", "- /").replace("/-", "/ -")
        text += "/-- What is expected.  The comments in the package say (with facts as `object: fact`):\n```\n" + doc + "\n```" + EXTRA.get(path, "") + " -/\n"
        text += "def expected : Check.Expected where\n" + "".join(f"  {k} := {v}\n" for k, v in zip(FIELDS, parts)) + f"  objects := {n}\n\n"
        text += "/-- What functions call, and which literals they visit. -/\ndef graph : Check.Graph :=\n  " + "\n  ".join(textwrap.wrap(parts[11], 140)) + "\n\n"
        text += "theorem checked : Check.run package true expected graph = true := by decide +kernel\n\n"
        imp, same, facts = "tables_noFacts", "(.refl _)", "noFacts"
        for k, q in enumerate(ds):
            imp = f"({imp}.merge {NS(q)}.exported)"
            same = f"(Props.Run.SameFacts.merge {same} ({NS(q)}.exports_same h{k}))"
            facts = f"merge ({facts}) F{k}"
        text += f"theorem imports : Check.Tables package.env.facts := {imp}\n\n"
        text += "theorem exported : Check.Tables (Check.factsOf result) := Check.tables checked imports\n\n"
        text += "/-- The facts known before a run: those exported by some run over the imported packages. -/\ndef Imported (F : Facts) : Prop :=\n  "
        if ds:
            text += f"∃ {' '.join(f'F{k}' for k in range(len(ds)))}, " + " ∧ ".join(f"{NS(q)}.Exports F{k}" for k, q in enumerate(ds)) + f" ∧ F = {facts}\n\n"
        else:
            text += "F = noFacts\n\n"
        text += "/-- The facts known after a run. -/\ndef Exports (F : Facts) : Prop := Check.Exports package Imported true F\n\n"
        text += "theorem imports_same (F : Facts) (h : Imported F) : Props.Run.SameFacts package.env.facts F := by\n"
        pat = "⟨" + ", ".join([f"F{k}" for k in range(len(ds))] + [f"h{k}" for k in range(len(ds))] + ["rfl"]) + "⟩" if ds else "rfl"
        text += f"  obtain {pat} := h\n  exact {same}\n\n"
        text += "theorem exports_same {F : Facts} (h : Exports F) : Props.Run.SameFacts (Check.factsOf result) F :=\n  Check.exports_same checked imports imports_same h\n\n"
        text += "/-- **C54**: every run over the package has the expected result. -/\ntheorem always : Check.Always package Imported true expected :=\n  Check.always checked imports imports_same\n\n"
        text += texts(em, shown, used)
        text += f"end Serum.Testdata.{NS(path)}\n"
        open(f"{OUT}/{CAMEL(path)}.lean", "w").write(text)
        t = time.time()
        r = subprocess.run(["lake", "build", f"Verif.Testdata.{CAMEL(path)}"], cwd="/verif/lean", capture_output=True, text=True)
        print(path, len(text), f"{time.time() - t:.0f}s", "ok" if r.returncode == 0 else r.stdout[-1500:], flush=True)


NOT = "\nBesides, these are reported, as listed in `TestNotImplemented` (analyse_test.go:60-97):\n```\n%s\n```"
EXTRA = {p: NOT % "\n".join(l) for p, l in run.NOT_IMPLEMENTED.items()}
if __name__ == "__main__":
    main(sys.argv[1:])
