"""Runs the model on the packages of /repo/analysis/testdata and compares with the expectations in their comments."""
import os, re, subprocess, sys
import load, emit, gotypes, goparse

SHOW = """
def str (s : GoString) : String := String.fromUTF8! ⟨s.toArray⟩
def isPrint (r : Nat) : Bool := 32 ≤ r && r < 127
def showAll (P : Package) (r : Except Stop Outcome) (objs : Nat) (names : Names) : String :=
  match r with
  | .error (.panic loc) => "PANIC " ++ loc
  | .error _ => "FUEL"
  | .ok o => String.intercalate "\\n" (
    (o.shown P names).map (fun d => s!"D\\t{d.1}\\ttext\\t{str d.2}") ++
    (List.range objs).flatMap fun i =>
      ((o.facts.codes i).toList.map fun c => s!"F\\t{i}\\t{str (errorCodesText id c)}") ++
      ((o.facts.ctor i).toList.map fun c => s!"F\\t{i}\\t{str (errorConstructorText c)}") ++
      ((o.facts.errorType i).toList.map fun c => s!"F\\t{i}\\t{str (errorTypeText isPrint c).1}") ++
      ((o.facts.interface i).toList.map fun c => s!"F\\t{i}\\t{str (errorInterfaceText id (c.map Prod.fst))}"))
"""


def ident(path):
    return "p_" + path.replace("/", "_")


def deps(pkg):
    r = []
    for f in pkg.files:
        for d in f.decls:
            if d.k == "GenDecl" and d.tok == "import":
                for sp in d.specs:
                    q = load.load(sp.path.value.strip('"'))
                    if isinstance(q, gotypes.Package) and q.path not in r:
                        r.append(q.path)
    return r


def expectations(f):
    """[(line, kind, name, regex)]"""
    res = []
    for g in f.comments:
        for text, start in zip(g.list, g.starts):
            t = text
            t = t[2:-2] if t.startswith("/*") else t[2:]
            t = t.strip()
            if not t.startswith("want"):
                i = text.rfind("// want")
                if i < 0 or text.startswith("/*") and False:
                    continue
                t = text[i + 2:].strip()
            line = f.scanner.line(start)
            rest = t[4:].strip()
            while rest:
                m = re.match(r'(?:([A-Za-z_]\w*):)?("(?:\\.|[^"\\])*"|`[^`]*`)\s*', rest)
                if not m:
                    raise Exception(f"{f.filename}:{line}: {rest}")
                res.append((line, m.group(1), gotypes.unquote(m.group(2)), ))
                rest = rest[m.end():]
    return res


# analyse_test.go:60-97 TestNotImplemented
NOT_IMPLEMENTED = {
    "dereference_assignment": [
        'assign.go:7: function "DereferenceAssignment" has a mismatch of declared and actual error codes: unused codes: [other-error]',
        'assign.go:18: function "DereferenceAssignment2" has a mismatch of declared and actual error codes: unused codes: [other-error]'],
    "type_assertion": [
        'assert.go:6: function "TypeAssertionMethod" has a mismatch of declared and actual error codes: unused codes: [interface-error]',
        'assert.go:8: type assertion is not supported in error code analysis',
        'assert.go:14: function "TypeAssertionInterface" has a mismatch of declared and actual error codes: unused codes: [empty-interface-error]',
        'assert.go:15: type assertion is not supported in error code analysis',
        'assert.go:21: function "TypeAssertion" has a mismatch of declared and actual error codes: unused codes: [standard-error]',
        'assert.go:22: type assertion is not supported in error code analysis',
        'assert.go:47: function "TypeAssertionSwitch" has a mismatch of declared and actual error codes: unused codes: [maybe-error]',
        'assert.go:49: type assertion switch is not supported in error code analysis',
        'assert.go:63: function "TypeAssertionSwitchFromNonError" has a mismatch of declared and actual error codes: unused codes: [empty-interface-error]',
        'assert.go:65: type assertion switch is not supported in error code analysis']}


def main(paths):
    os.makedirs("/tmp/conf", exist_ok=True)
    total = [0, 0, 0]
    for path in paths:
        pkg = load.load(path)
        ds = deps(pkg)
        text = emit.SUPPORT
        for q in ds:
            text += emit.Emitter(load.load(q), ident(q), [ident(x) for x in deps(load.load(q))]).emit()
        em = emit.Emitter(pkg, ident(path), [ident(x) for x in ds])
        text += em.emit()
        n = len(gotypes.Obj.all)
        names = [(o.id, emit.lstr(o.name)) for o in gotypes.Obj.all if o.kind in ("type", "func")]
        kinds = [(i, emit.lstr(nd.k)) for i, (f, nd) in em.nodepos.items()]
        text += SHOW + f"def nameTable : Tree GoString := {emit.tree(names)}\ndef kindTable : Tree GoString := {emit.tree(kinds)}\n"
        text += f"#eval IO.println (showAll {ident(path)}.package {ident(path)}.result {n} ⟨fun o => (nameTable.find o).getD [], fun o => (kindTable.find o).getD []⟩)\nend Serum.Testdata\n"
        fn = f"/tmp/conf/{ident(path)}.lean"
        open(fn, "w").write(text)
        r = subprocess.run(["lake", "env", "lean", fn], cwd="/verif/lean", capture_output=True, text=True)
        out = r.stdout
        if "PANIC" in out or re.search(r"\.lean:\d+:\d+: error", out) or "FUEL" in out:
            print(f"== {path}: FAILED\n" + out[:3000] + r.stderr[:500])
            total[2] += 1
            continue
        objline = {}
        for i, o in pkg.defs.items():
            if i in em.nodepos:
                f, nd = em.nodepos[i]
                objline[o.id] = (f.filename, f.scanner.line(nd.pos), o.name)
        want = [[f.filename] + list(e) + [False] for f in pkg.files for e in expectations(f)]
        for e in NOT_IMPLEMENTED.get(path, []):
            m = re.match(r"([^:]*):(\d+): (.*)", e)
            want.append([m.group(1), int(m.group(2)), None, re.escape(m.group(3)), False])
        bad = []
        for l in out.splitlines():
            a = l.split("\t")
            if a[0] == "D":
                f, nd = em.nodepos[int(a[1])]
                line = f.scanner.line(nd.pos)
                hit = None
                for w in want:
                    if w[0] == f.filename and w[1] == line and w[2] is None and not w[4] and re.search(w[3], a[3]):
                        hit = w
                        break
                if hit is None:
                    bad.append(f"unexpected {f.filename}:{line} {a[2]} {a[3]}")
                else:
                    hit[4] = True
            elif a[0] == "F":
                o = int(a[1])
                if o not in objline:
                    continue
                fnm, line, nm = objline[o]
                hit = None
                for w in want:
                    if w[0] == fnm and w[1] == line and w[2] == nm and not w[4] and re.search(w[3], a[2]):
                        hit = w
                        break
                if hit is None:
                    bad.append(f"unexpected fact {fnm}:{line} {nm} {a[2]}")
                else:
                    hit[4] = True
            elif l:
                bad.append("output: " + l)
        for w in want:
            if not w[4]:
                bad.append(f"missing {w[0]}:{w[1]} {w[2] or ''} {w[3]}")
        total[0] += len(want)
        total[1] += len(bad)
        print(f"== {path}: {len(want)} expectations, {len(bad)} disagreements")
        for b in bad:
            print("   " + b)
    print("total", total)


if __name__ == "__main__":
    main(sys.argv[1:] or load.PATTERNS)
