"""Writes a package of /repo/analysis/testdata as a Lean term of type Serum.Package."""
import goparse, gotypes
from goparse import children
from gotypes import Obj, method_set, implements, under, ERROR, STRING

SIG = lambda r: ("signature", (), r, False)
M_ERROR = [("Error", SIG((STRING,)))]
M_CODE = M_ERROR + [("Code", SIG((STRING,)))]
M_CAUSE = M_CODE + [("Cause", SIG((ERROR.typ,)))]

# numbers of composite types, shared by all packages
NUM = {}


def num(t):
    return NUM.setdefault(t, len(NUM) + 1)


def go_type(t):
    k = t[0]
    if t == STRING:
        return ".string"
    if t == gotypes.UNIL:
        return ".untypedNil"
    if k == "named":
        return f".named {t[1].id}"
    if k in ("pointer", "slice"):
        return f".{k} ({go_type(t[1])})"
    if k == "array":
        # the length only matters for identity of types
        return f".array ({go_type(t[2])})"
    if k == "map":
        return f".map ({go_type(t[1])}) ({go_type(t[2])})"
    if k == "chan":
        return f".chan ({go_type(t[2])})"
    if k in ("struct", "interface", "signature", "tuple"):
        return f".{k} {num(t)}"
    return f".other {num(t)}"


def type_key(t):
    """A number for the types that can have methods."""
    if t[0] == "named":
        return 5 * t[1].id
    if t[0] == "pointer" and t[1][0] == "named":
        return 5 * t[1][1].id + 1
    if t[0] == "interface":
        return 5 * num(t) + 2
    if t[0] == "struct":
        return 5 * num(t) + 3
    if t[0] == "pointer" and t[1][0] == "struct":
        return 5 * num(t[1]) + 4
    return None


def lstr(s):
    b = s.encode() if isinstance(s, str) else s
    out = ""
    for ch in b.decode():
        if ch == '"':
            out += '\\"'
        elif ch == "\\":
            out += "\\\\"
        elif ch == "\n":
            out += "\\n"
        elif ch == "\t":
            out += "\\t"
        elif ord(ch) < 32 or ord(ch) == 127:
            out += "\\x%02x" % ord(ch)
        else:
            out += ch
    return f'b!"{out}"'


def lst(xs):
    return "[" + ", ".join(xs) + "]"


def opt(x):
    return "none" if x is None else f"some ({x})"


def tree(entries):
    """A search tree for [(number, term)]."""
    es = sorted(entries)

    def go(lo, hi):
        if lo >= hi:
            return "Tree.nil"
        m = (lo + hi) // 2
        return f"(.node {go(lo, m)} {es[m][0]} ({es[m][1]}) {go(m + 1, hi)})"
    return go(0, len(es))


class Emitter:
    def __init__(s, pkg, name, deps):
        s.p, s.name, s.deps = pkg, name, deps
        s.base = {}
        s.funcs = []      # (node, kind, file)
        s.fnid = {}
        s.objs, s.objid = [], {}
        s.out = []
        s.pool = {}
        s.nodepos = {}    # node id -> (file, pos)
        s.parents = {}
        off = 0
        for f in pkg.files:
            s.base[id(f)] = off
            off += len(f.scanner.src) + 10
        for f in pkg.files:
            s.number(f, f)

    def s(s, text):
        """A string, from the pool of strings."""
        if text not in s.pool:
            s.pool[text] = f"s{len(s.pool)}"
        return s.pool[text]

    def number(s, n, f):
        s.nodepos[n.id] = (f, n)
        if n.k in ("FuncDecl", "FuncLit"):
            s.fnid[n.id] = len(s.funcs)
            s.funcs.append((n, f))
        if n.k == "Ident" and n.obj is not None and id(n.obj) not in s.objid:
            s.objid[id(n.obj)] = len(s.objs)
            s.objs.append((n.obj, f))
        for c in children(n):
            if c.k != "CommentGroup":
                s.parents[c.id] = n
                s.number(c, f)

    # -- syntax ----------------------------------------------------------
    def ident(s, n):
        o = "none" if n.obj is None else f"(some {s.objid[id(n.obj)]})"
        return f"⟨{n.id}, {s.s(n.name)}, {o}⟩"

    def field(s, f):
        return f"⟨{lst([s.ident(i) for i in f.names])}, {f.type.id}⟩"

    def functype(s, t, f):
        ps = lst([s.field(x) for x in t.params.list])
        rs = "none" if t.results is None else f"(some {lst([s.field(x) for x in t.results.list])})"
        rp = 0 if t.results is None else t.results.pos + s.base[id(f)]
        return f"⟨{ps}, {rs}, {rp}⟩"

    def nodes(s, l):
        return lst([s.node(x) for x in l if x is not None])

    def node(s, n):
        k, i = n.k, n.id
        if k == "Ident":
            return f".ident {s.ident(n)}"
        if k == "BasicLit":
            return f".basicLit {i}"
        if k == "CompositeLit":
            return f".compositeLit {i} {s.nodes(n.elts)}"
        if k == "KeyValueExpr":
            return f".keyValue {i} ({s.node(n.key)}) ({s.node(n.value)})"
        if k == "FuncLit":
            return f".funcLit {i} {s.fnid[i]} {s.functype(n.type, s.nodepos[i][0])} {s.nodes(n.body.list)}"
        if k == "ParenExpr":
            return f".paren {i} ({s.node(n.x)})"
        if k == "SelectorExpr":
            return f".selector {i} ({s.node(n.x)}) {s.ident(n.sel)}"
        if k == "IndexExpr":
            return f".index {i} ({s.node(n.x)}) ({s.node(n.index)})"
        if k == "TypeAssertExpr":
            return f".typeAssert {i} ({s.node(n.x)}) {'none' if n.type is None else f'(some {n.type.id})'}"
        if k == "CallExpr":
            return f".call {i} ({s.node(n.fun)}) {s.nodes(n.args)}"
        if k == "UnaryExpr":
            return f".unary {i} {'true' if n.op == '&' else 'false'} ({s.node(n.x)})"
        if k == "AssignStmt":
            return f".assign {i} {s.nodes(n.lhs)} {s.nodes(n.rhs)}"
        if k == "ReturnStmt":
            return f".ret {i} {s.nodes(n.results)}"
        if k == "ValueSpec":
            ty = "none" if n.type is None else f"(some {n.type.id})"
            return f".valueSpec {i} {lst([s.ident(x) for x in n.names])} {ty} {s.nodes(n.values)}"
        if k == "TypeSwitchStmt":
            return f".typeSwitch {i} {s.nodes([n.init])} ({s.node(n.assign)}) {s.nodes(n.body.list)}"
        if k == "CaseClause":
            return f".caseClause {i} {s.nodes(n.list or [])} {s.nodes(n.body)}"
        if k == "RangeStmt":
            o = lambda x: "none" if x is None else f"(some ({s.node(x)}))"
            return f".range {i} {o(n.key)} {o(n.value)} ({s.node(n.x)}) {s.nodes(n.body.list)}"
        if k == "SendStmt":
            return f".send {i} ({s.node(n.chan)}) ({s.node(n.value)})"
        return f".other {i} {s.nodes([c for c in children(n) if c.k != 'CommentGroup'])}"

    def doc(s, g):
        return "none" if g is None else f"some (CommentText.text {lst([s.s(c) for c in g.list])})"

    # -- tables ----------------------------------------------------------
    def emit(s):
        p = s.p
        d = s.out.append
        # functions
        defs = []
        for n, f in s.funcs:
            b = s.base[id(f)]
            name = f"some {s.ident(n.name)}" if n.k == "FuncDecl" else "none"
            if n.body is None:
                body, bp, be = "none", 0, 0
            else:
                body, bp, be = f"some {s.nodes(n.body.list)}", n.body.pos + b, n.body.end + b
            ft = n.type
            defs.append(f"⟨{n.id}, {name}, {s.functype(ft, f)}, {body}, {bp}, {be}⟩")
        for k, t in enumerate(defs):
            n, f = s.funcs[k]
            what = "`func " + n.name.name + "`" if n.k == "FuncDecl" else "a function literal"
            d(f"/-- {f.filename}:{f.scanner.line(n.pos)}: {what} -/")
            d(f"def f{k} : FuncDef := {t}")
        # objects
        objs = []
        for o, f in s.objs:
            dk = o.decl.k if o.decl is not None else None
            if dk == "FuncDecl":
                decl = f"(.funcDecl {s.fnid[o.decl.id]})"
            elif dk == "TypeSpec":
                decl = ".typeSpec"
            elif dk == "ValueSpec":
                decl = f"(.valueSpec {lst([s.ident(i) for i in o.decl.names])} {s.nodes(o.decl.values)})"
            else:
                decl = ".other"
            objs.append(f"⟨.{o.kind}, {o.pos + s.base[id(f)]}, {decl}⟩")
        d("/-- The objects of go/ast, in the order of their numbers. -/")
        d(f"def objects : List ObjInfo := [\n  " + ",\n  ".join(objs) + "]")
        # types of nodes
        types, vals, callee, uses, sels, pkgnames = {}, {}, {}, {}, {}, {}
        seen = set()

        def see(t):
            if t in seen:
                return
            seen.add(t)
            if t[0] in ("pointer", "slice"):
                see(t[1])
            elif t[0] in ("array", "chan"):
                see(t[2])
            elif t[0] == "map":
                see(t[1]); see(t[2])
            elif t[0] == "struct":
                for _, ft, _ in t[1]:
                    see(ft)
            elif t[0] == "tuple":
                for x in t[1]:
                    see(x)
            elif t[0] == "signature":
                for x in t[1] + t[2]:
                    see(x)
            elif t[0] == "named":
                see(under(t))
            see(("pointer", t)) if t[0] in ("named", "struct") else None
        for i, (f, n) in s.nodepos.items():
            t = p.types.get(i)
            o = p.defs.get(i) or p.uses.get(i)
            if t is None and o is not None and o.kind != "pkg":
                t = o.typ
            if t is not None and t != gotypes.INVALID:
                types[i] = t
                see(t)
            v = p.values.get(i)
            if v is not None:
                vals[i] = f".str {s.s(v)}" if isinstance(v, str) else ".other"
            if i in p.uses and p.uses[i].kind != "pkg":
                uses[i] = p.uses[i].id
            if i in p.selections:
                rt, so = p.selections[i]
                see(rt)
                sels[i] = f"({go_type(rt)}, {so.id})"
            if i in p.pkgnames:
                pkgnames[i] = s.s(p.pkgnames[i])
            if n.k == "CallExpr":
                fun = n.fun
                while fun.k == "ParenExpr":
                    fun = fun.x
                c = None
                if fun.k == "Ident":
                    c = p.uses.get(fun.id)
                elif fun.k == "SelectorExpr":
                    c = p.selections[fun.id][1] if fun.id in p.selections else p.uses.get(fun.sel.id)
                if c is not None and c.kind != "type":
                    callee[i] = c.id
        for o in list(p.scope.m.values()):
            if o.kind == "type":
                see(o.typ)
        named = sorted({t[1] for t in seen if t[0] == "named"}, key=lambda o: o.id)
        ptypes = sorted((t for t in seen if type_key(t) is not None), key=type_key)
        msets = []
        impl = {"E": [], "C": [], "K": []}
        for t in ptypes:
            ms = method_set(p, t)
            if ms:
                msets.append((type_key(t), lst([f"({s.s(m)}, {o.id})" for m, (o, _) in sorted(ms.items())])))
            for k, m in (("E", M_ERROR), ("C", M_CODE), ("K", M_CAUSE)):
                if implements(p, t, m):
                    impl[k].append((type_key(t), "()"))
        d("/-- Types of expressions (`Info.Types`, `Info.Defs`, `Info.Uses`). -/")
        d(f"def typeTable : Tree GoType := {tree([(i, go_type(t)) for i, t in types.items()])}")
        d("/-- Constant values of expressions. -/")
        d(f"def valueTable : Tree Const := {tree(list(vals.items()))}")
        d("/-- `typeutil.Callee` of call expressions. -/")
        d(f"def calleeTable : Tree Nat := {tree(list(callee.items()))}")
        d("/-- `Info.Uses`. -/")
        d(f"def usesTable : Tree Nat := {tree(list(uses.items()))}")
        d("/-- `Info.Selections`. -/")
        d(f"def selectionTable : Tree (GoType × Nat) := {tree(list(sels.items()))}")
        d("/-- Identifiers that are names of imported packages. -/")
        d(f"def pkgNameTable : Tree GoString := {tree(list(pkgnames.items()))}")
        d("/-- Method sets. -/")
        d(f"def methodSetTable : Tree (List (GoString × Nat)) := {tree(msets)}")
        for k, nm in (("E", "implErrorTable"), ("C", "implCodeTable"), ("K", "implCauseTable")):
            d("/-- Types implementing " + {"E": "`error`", "C": "`error` with a code", "K": "`error` with a cause"}[k] + ". -/")
            d(f"def {nm} : Tree Unit := {tree(impl[k])}")
        sigs = sorted((t for t in seen if t[0] == "signature"), key=num)
        d("/-- Signatures: types of parameters, variadic, number of results. -/")
        d(f"def sigTable : Tree (List GoType × Bool × Nat) := {tree([(num(t), f'({lst([go_type(x) for x in t[1]])}, {str(t[3]).lower()}, {len(t[2])})') for t in sigs])}")
        tups = sorted((t for t in seen if t[0] == "tuple"), key=num)
        d("/-- Tuples of results. -/")
        d(f"def tupleTable : Tree (List GoType) := {tree([(num(t), lst([go_type(x) for x in t[1]])) for t in tups])}")
        strs = sorted((t for t in seen if t[0] == "struct"), key=num)
        d("/-- Fields of structs. -/")
        d(f"def structTable : Tree (List (GoString × GoType)) := {tree([(num(t), lst([f'({s.s(n)}, {go_type(x)})' for n, x, _ in t[1]])) for t in strs])}")
        d("/-- Underlying types of named types. -/")
        d(f"def underlyingTable : Tree GoType := {tree([(o.id, go_type(under(o.typ))) for o in named])}")
        ifs = sorted((t for t in seen if t[0] == "interface"), key=num)
        rows = []
        for t in ifs:
            rows.append((num(t), tree([(type_key(u), "()") for u in ptypes if implements(p, u, list(t[1]))]) if t[1] else None))
        d("/-- Which types implement which interfaces. -/")
        d(f"def implTable : Tree (Tree Unit) := {tree([(a, b) for a, b in rows if b])}")
        empties = [a for a, b in rows if b is None]
        # comments
        coms = {}
        for f in p.files:
            for i, gs in goparse.comment_map(f).items():
                if i in s.nodepos and s.nodepos[i][1].k == "ReturnStmt":
                    coms[i] = lst([lst([s.s(c) for c in g.list]) for g in gs])
        d("/-- Comments at return statements (`ast.NewCommentMap`). -/")
        d(f"def commentTable : Tree (List (List GoString)) := {tree(list(coms.items()))}")
        # declarations
        fd = [(s.fnid[n.id], n) for n, f in s.funcs if n.k == "FuncDecl"]
        d("/-- Function declarations. -/")
        d(f"def declTable : Tree DeclInfo := " + tree([(k, "⟨" + ", ".join([
            s.s(n.name.name), str(n.name.name[0].isupper()).lower(),
            "none" if n.recv is None else f"some {n.recv.list[0].type.id}", s.doc(n.doc), str(n.id), str(p.defs[n.name.id].id),
            lst([] if n.recv is None else [s.ident(i) for i in n.recv.list[0].names])]) + "⟩") for k, n in fd]))
        ityp = [o.id for o in named if under(o.typ)[0] == "interface"]
        d("/-- Named interfaces. -/")
        d(f"def interfaceTable : Tree Unit := {tree([(i, '()') for i in ityp])}")
        d("/-- Methods of named types. -/")
        d(f"def methodNameTable : Tree (List GoString) := {tree([(o.id, lst([s.s(m.name) for m in o.methods])) for o in named if getattr(o, 'methods', None)])}")
        specs, ifaces = [], []

        def decl(n):
            if n.k == "CommentGroup":
                return
            if n.k == "GenDecl":
                for sp in n.specs:
                    if sp.k != "TypeSpec":
                        continue
                    o = p.defs[sp.name.id]
                    fs = "none"
                    if sp.type.k == "StructType":
                        fs = "some " + lst([lst([s.s(i.name) for i in f.names]) for f in sp.type.fields.list])
                    specs.append(f"⟨{n.id}, {go_type(o.typ)}, {fs}⟩")
                    if sp.type.k == "InterfaceType" and sp.type.methods.list:
                        es = []
                        for f in sp.type.methods.list:
                            if f.type.k == "FuncType":
                                es.append(f".method ⟨{f.id}, {s.ident(f.names[0])}, {s.functype(f.type, s.nodepos[f.id][0])}, {s.doc(f.doc)}⟩")
                            elif f.type.k == "Ident":
                                es.append(f".embedded (.name {f.type.id} {s.s(f.type.name)})")
                            else:
                                es.append(f".embedded (.qualified {f.type.id})")
                        ifaces.append(f"⟨{s.s(sp.name.name)}, {o.id}, {go_type(p.types[sp.type.id])}, {lst(es)}⟩")
                return
            for c in children(n):
                decl(c)
        for f in p.files:
            decl(f)
        mobj = [(i, str(p.defs[i].id)) for i in p.defs if i in s.nodepos and s.parents.get(i) is not None and s.parents[i].k == "Field"
                and s.parents[i].type.k == "FuncType"]
        d("/-- Objects of interface methods. -/")
        d(f"def methodObjTable : Tree Nat := {tree(mobj)}")
        tops = []
        for f in p.files:
            for x in f.decls:
                tops.append(f".func {s.fnid[x.id]}" if x.k == "FuncDecl" else f".node ({s.node(x)})")
        depfacts = "noFacts"
        for q in s.deps:
            depfacts = f"merge ({depfacts}) (Check.factsOf {q}.result)"
        d(f"""/-- Syntax and types of the package, and the facts exported by the packages it imports. -/
def env : Env where
  funcs := [{', '.join(f'f{k}' for k in range(len(s.funcs)))}]
  objects := objects
  typeOf := fun n => (typeTable.find n).getD (.other 0)
  value := valueTable.find
  callee := calleeTable.find
  uses := usesTable.find
  selection := selectionTable.find
  pkgName := pkgNameTable.find
  funcObj := fun f => ((declTable.find f).map (·.obj)).getD 0
  implError := fun t => has implErrorTable t
  implCode := fun t => has implCodeTable t
  sigResults := fun n => ((sigTable.find n).map (·.2.2)).getD 0
  methodSet := fun t name => ((typeKey t).bind methodSetTable.find).bind fun l => lookup name l
  functions := fun _ => none
  methods := fun _ => []
  comments := fun n => ((commentTable.find n).getD []).map CommentText.text
  isPrint := fun r => 32 ≤ r && r < 127
  facts := {depfacts}""")
        d(f"""/-- The package. -/
def package : Package where
  env := env
  decls := ⟨fun f => ((declTable.find f).map (·.name)).getD [], fun f => ((declTable.find f).map (·.exported)).getD false,
    fun f => (declTable.find f).bind (·.recv), fun f => (declTable.find f).bind (·.doc), fun t => has implCauseTable t,
    fun f => ((declTable.find f).map (·.pos)).getD 0⟩
  types := ⟨fun f => (((declTable.find f).bind (·.recv)).bind typeTable.find).getD (.other 0),
    fun f => ((declTable.find f).map (·.recvNames)).getD [], fun o => (interfaceTable.find o).isSome,
    fun o => (methodNameTable.find o).getD []⟩
  funcs := {lst([str(k) for k, n in fd])}
  specs := {lst(specs)}
  ifaces := {lst(ifaces)}
  methodObj := fun n => (methodObjTable.find n).getD 0
  conv := ⟨fun o => (underlyingTable.find o).getD (.other 0), fun n => ((sigTable.find n).map (·.1)).getD [],
    fun n => ((sigTable.find n).map (·.2.1)).getD false, fun n => (tupleTable.find n).getD [], fun n => (structTable.find n).getD [],
    fun t n => {' || '.join([f'n == {e}' for e in empties] + ['((implTable.find n).map fun tr => has tr t).getD false'])}⟩
  top := [
    {''',
    '''.join(tops)}]
/-- The run, in one order. -/
def result : Except Stop Outcome := runVerify package Check.source true""")
        pool = "\n".join(f"def {v} : GoString := {lstr(k)}" for k, v in s.pool.items())
        return f"namespace {s.name}\n" + pool + "\n" + "\n".join(s.out) + f"\nend {s.name}\n"


SUPPORT = """import Verif.Testdata.Support
import Verif.FactText
set_option maxRecDepth 100000
set_option linter.all false
namespace Serum.Testdata
open Serum

"""
