"""Writes /verif/lean/Verif/Testdata/Extras.lean: for the packages of /repo/analysis/testdata, the parts of the programs which the syntax
trees of the model leave out (`Runtime.Extra`)."""
import load, emit, gotypes, run, goparse
from testdata import CAMEL, NS
from emit import children, under

def unparen(n):
    while n.k == "ParenExpr":
        n = n.x
    return n

def is_type(p, n):
    n = unparen(n)
    if n.k == "Ident":
        o = p.uses.get(n.id)
        return o is not None and o.kind == "type"
    if n.k == "SelectorExpr":
        o = p.uses.get(n.sel.id)
        return n.id not in p.selections and o is not None and o.kind == "type"
    if n.k == "StarExpr":
        return is_type(p, n.x)
    return n.k in ("ArrayType", "MapType", "ChanType", "FuncType", "InterfaceType", "StructType")

def deref(t):
    return t[1] if t[0] == "pointer" else t

def owner(t, name):
    """The named type whose struct declares the field that is selected."""
    level = [deref(t)]
    seen = set()
    while level:
        nxt = []
        for ty in level:
            if ty in seen:
                continue
            seen.add(ty)
            u = under(ty)
            if u[0] == "struct":
                for n, ft, emb in u[1]:
                    if n == name:
                        return ty
                    if emb:
                        nxt.append(deref(ft))
        level = nxt
    return None

def defers(n):
    for c in children(n):
        if c.k == "DeferStmt":
            return True
        if c.k not in ("FuncLit", "FuncDecl", "CommentGroup") and defers(c):
            return True
    return False

def extras(em):
    p = em.p
    conv, shift, op, fields, deref_, deferred = [], [], [], [], [], []
    for i, (f, n) in em.nodepos.items():
        if n.k == "CallExpr":
            fun = unparen(n.fun)
            if is_type(p, fun):
                conv.append(i)
            elif fun.k == "SelectorExpr" and is_type(p, fun.x):
                shift.append(i)
        elif n.k == "AssignStmt" and n.tok not in ("=", ":="):
            op.append(i)
        elif n.k == "SelectorExpr" and n.id in p.selections and p.selections[n.id][1].kind not in ("func", "method"):
            ty = owner(p.selections[n.id][0], n.sel.name)
            if ty is not None and ty[0] == "named":
                fields.append((i, f"({ty[1].id}, {emit.lstr(n.sel.name)})"))
        elif n.k == "StarExpr" and not is_type(p, n):
            t = p.types.get(i)
            if t is not None and (emit.implements(p, t, emit.M_ERROR) or emit.implements(p, ("pointer", t), emit.M_ERROR)):
                deref_.append(i)
        elif n.k in ("FuncDecl", "FuncLit") and n.body is not None and defers(n.body):
            deferred.append(em.fnid[i])
    return conv, shift, op, fields, deref_, deferred

def main():
    for p in load.PATTERNS:
        load.load(p)
    order = []
    def visit(p):
        for q in run.deps(load.load(p)):
            visit(q)
        if p not in order:
            order.append(p)
    for p in load.PATTERNS:
        visit(p)
    out = ["import Verif.Testdata.Bodies", "import Verif.ScopeCheck", "", "/-!", "# What the syntax trees of the packages in analysis/testdata leave out", "",
           "Generated by `scripts/conformance/sound.py`: `Runtime.Extra` of the packages.  The listed fields are all selected fields of structs, with the declared type",
           "that has the field.", "-/", "", "set_option linter.all false", "set_option maxRecDepth 100000", "", "namespace Serum.Testdata", "open Serum", "",
           "/-- The error type of a selected field, if it is the field with the error code. -/",
           "def codeField (fields : Tree (Object × GoString)) (types : List (Object × ErrorType)) (n : NodeId) : Option ErrorType :=",
           "  (fields.find n).bind fun p => (Check.find p.1 types).bind fun et => if et.field.any (fun fd => fd.name == p.2) then some et else none", "",
           "/-- The extra parts of a program, from tables. -/",
           "def extraOf (conversions shifted ops : List NodeId) (fields : Tree (Object × GoString)) (types : List (Object × ErrorType)) (derefs : List NodeId)",
           "    (deferred : List FnId) : Runtime.Extra where",
           "  conversion := fun n => conversions.contains n", "  shift := fun n => if shifted.contains n then 1 else 0", "  op := fun n => ops.contains n",
           "  codeField := codeField fields types", "  deref := fun n => derefs.contains n", "  deferred := fun f => deferred.contains f",
           "  foreign := fun _ _ => False", "  declared := fun _ _ _ => False", ""]
    for path in order:
        pkg = load.load(path)
        em = emit.Emitter(pkg, NS(path), [NS(q) for q in run.deps(pkg)])
        text = em.emit()
        c, s, o, f, d, df = extras(em)
        ns = NS(path)
        out.append(f"def {ns}.extra : Runtime.Extra :=\n  extraOf {c} {s} {o}\n    {emit.tree(f)}\n    {ns}.expected.errorTypes {d} {df}\n")
        # the numbers are those of the generated modules
        have = open(f"/verif/lean/Verif/Testdata/{CAMEL(path)}.lean").read()
        line = [l for l in text.splitlines() if l.startswith("def calleeTable")][0]
        norm = lambda t: "".join(t.split())
        assert norm(line) in norm(have), path
    out.append("end Serum.Testdata")
    open("/verif/lean/Verif/Testdata/Extras.lean", "w").write("\n".join(out) + "\n")

main()
