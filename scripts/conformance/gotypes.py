"""A type checker for the part of Go that is used in /repo/analysis/testdata: it computes the parts of go/types.Info which the
analyzer reads (Types, Defs, Uses, Selections), for programs that compile."""
from goparse import Node, children

# Types are tuples: ("basic", name) ("named", obj) ("pointer", t) ("slice", t) ("array", n, t) ("map", k, v) ("chan", dir, t)
# ("struct", ((name, type, embedded), …)) ("interface", ((name, signature), …)) ("signature", params, results, variadic) ("tuple", types)


def B(n):
    return ("basic", n)


BOOL, INT, STRING, FLOAT64 = B("bool"), B("int"), B("string"), B("float64")
UBOOL, UINT, USTRING, UFLOAT, URUNE, UNIL = B("untyped bool"), B("untyped int"), B("untyped string"), B("untyped float"), B("untyped rune"), B("untyped nil")
INVALID = B("invalid")
DEFAULTS = {UBOOL: BOOL, UINT: INT, USTRING: STRING, UFLOAT: FLOAT64, URUNE: B("int32")}
EMPTY = ("interface", ())


class Obj:
    """types.Object"""
    all = []

    def __init__(s, kind, name, typ=None, **kw):
        s.kind, s.name, s.typ = kind, name, typ
        s.pkg = None
        s.val = None
        s.__dict__.update(kw)
        s.id = len(Obj.all)
        Obj.all.append(s)

    def __repr__(s):
        return f"{s.kind} {s.name}#{s.id}"


class Scope:
    def __init__(s, outer):
        s.outer, s.m = outer, {}

    def find(s, name):
        while s is not None:
            if name in s.m:
                return s.m[name]
            s = s.outer
        return None


UNIVERSE = Scope(None)
for _n in "bool int int8 int16 int32 int64 uint uint8 uint16 uint32 uint64 uintptr float32 float64 complex64 complex128 string".split():
    UNIVERSE.m[_n] = Obj("type", _n, B(_n))
UNIVERSE.m["byte"] = Obj("type", "byte", B("uint8"))
UNIVERSE.m["rune"] = Obj("type", "rune", B("int32"))
ERROR = Obj("type", "error")
ERROR.typ = ("named", ERROR)
ERROR.methods = []
_err_sig = ("signature", (), (STRING,), False)
ERROR.iface_methods = {"Error": Obj("func", "Error", _err_sig)}
ERROR.underlying = ("interface", (("Error", _err_sig),))
UNIVERSE.m["error"] = ERROR
UNIVERSE.m["true"] = Obj("const", "true", UBOOL, val=True)
UNIVERSE.m["false"] = Obj("const", "false", UBOOL, val=False)
UNIVERSE.m["nil"] = Obj("nil", "nil", UNIL)
UNIVERSE.m["iota"] = Obj("const", "iota", UINT, val=0)
for _n in "append cap close complex copy delete imag len make new panic print println real recover".split():
    UNIVERSE.m[_n] = Obj("builtin", _n, INVALID)

IFACE_ORIGIN = {}  # interface type -> {method name: Obj}; interface types are identified structurally


def under(t):
    while t[0] == "named":
        t = t[1].resolve() if hasattr(t[1], "resolve") else t[1].underlying
    return t


def deref(t):
    return t[1] if t[0] == "pointer" else t


def is_const_type(t):
    return under(t)[0] == "basic"


class StdPkg:
    def __init__(s, name, path):
        s.name, s.path, s.scope = name, path, Scope(None)


def std(path):
    p = StdPkg(path.split("/")[-1], path)
    anys = ("slice", EMPTY)

    def f(name, params, results, variadic=False):
        p.scope.m[name] = Obj("func", name, ("signature", tuple(params), tuple(results), variadic), pkg=p)
    if path == "fmt":
        f("Errorf", [STRING, anys], [ERROR.typ], True)
        f("Sprintf", [STRING, anys], [STRING], True)
        f("Println", [anys], [INT, ERROR.typ], True)
        f("Printf", [STRING, anys], [INT, ERROR.typ], True)
    elif path == "errors":
        f("New", [STRING], [ERROR.typ])
    elif path == "strings":
        f("HasPrefix", [STRING, STRING], [BOOL])
    elif path == "math/rand":
        f("Float32", [], [B("float32")])
        f("Int", [], [INT])
        f("Intn", [INT], [INT])
        f("Float64", [], [FLOAT64])
    else:
        raise Exception("unknown package " + path)
    return p


class Package:
    def __init__(s, path, files, importer):
        s.path, s.files = path, files
        s.name = files[0].name.name
        s.scope = Scope(UNIVERSE)
        s.types, s.values, s.uses, s.defs, s.selections, s.pkgnames = {}, {}, {}, {}, {}, {}
        s.nodes = {}
        s.importer = importer
        s.untyped = {}
        s.funcs_todo = []
        s.check()

    # -- declarations ----------------------------------------------------------
    def check(s):
        s.filescopes = []
        methods = []
        for f in s.files:
            fs = Scope(s.scope)
            s.filescopes.append(fs)
            for d in f.decls:
                if d.k == "GenDecl" and d.tok == "import":
                    for sp in d.specs:
                        p = s.importer(sp.path.value.strip('"'))
                        if sp.name is not None and sp.name.name == ".":
                            for n, o in p.scope.m.items():
                                if n[0].isupper():
                                    fs.m[n] = o
                        else:
                            nm = sp.name.name if sp.name is not None else p.name
                            fs.m[nm] = Obj("pkg", nm, INVALID, imported=p)
        lazy = []
        for f, fs in zip(s.files, s.filescopes):
            for d in f.decls:
                if d.k == "GenDecl" and d.tok == "type":
                    for sp in d.specs:
                        s.declare_type(sp, fs, s.scope)
                elif d.k == "GenDecl" and d.tok in ("var", "const"):
                    prev = None
                    for sp in d.specs:
                        if d.tok == "const":
                            if sp.values or sp.type:
                                prev = sp
                            src = prev
                        else:
                            src = sp
                        for i, n in enumerate(sp.names):
                            o = Obj("const" if d.tok == "const" else "var", n.name, None, pkg=s)
                            o.lazy = (sp, src, i, fs)
                            s.defs[n.id] = o
                            if n.name != "_":
                                s.scope.m[n.name] = o
                            lazy.append(o)
                elif d.k == "FuncDecl":
                    o = Obj("func", d.name.name, None, pkg=s, decl=d)
                    s.defs[d.name.id] = o
                    if d.recv is None:
                        o.lazy_sig = (d, fs)
                        if d.name.name not in ("_", "init"):
                            s.scope.m[d.name.name] = o
                    else:
                        methods.append((o, d, fs))
                    s.funcs_todo.append((o, d, fs))
        for o, d, fs in methods:
            rt = d.recv.list[0].type
            while rt.k == "ParenExpr":
                rt = rt.x
            ptr = rt.k == "StarExpr"
            base = rt.x if ptr else rt
            t = s.scope.m[base.name]
            o.ptr = ptr
            o.lazy_sig = (d, fs)
            t.methods.append(o)
        for o in [x for x in s.scope.m.values()]:
            if o.kind == "type":
                under(o.typ)
        for o, d, fs in s.funcs_todo:
            s.func_type_of(o)
        for o in lazy:
            s.resolve_obj(o)
        for o, d, fs in s.funcs_todo:
            if d.body is not None:
                sc = Scope(fs)
                s.declare_params(d.recv, sc)
                s.declare_params(d.type.params, sc)
                s.declare_params(d.type.results, sc)
                s.body(d.body.list, sc, o.typ)

    def declare_type(s, sp, env, scope):
        o = Obj("type", sp.name.name, None, pkg=s, methods=[])
        s.defs[sp.name.id] = o
        if sp.alias:
            o.typ = s.typ(sp.type, env)
            scope.m[sp.name.name] = o
            return o
        o.typ = ("named", o)
        o.underlying = None
        if sp.name.name != "_":
            scope.m[sp.name.name] = o

        def resolve():
            if o.underlying is None:
                t = s.typ(sp.type, env)
                o.underlying = under(t)
                if t[0] == "named" and getattr(t[1], "iface_methods", None) is not None:
                    o.iface_methods = t[1].iface_methods
                elif sp.type.k == "InterfaceType":
                    o.iface_methods = s.iface_objs(sp.type, env)
            return o.underlying
        o.resolve = resolve
        o.spec = sp
        return o

    def iface_objs(s, n, env):
        """The method objects of an interface type expression, embedded ones included."""
        r = {}
        for f in n.methods.list:
            if f.names:
                r[f.names[0].name] = s.defs[f.names[0].id]
            else:
                t = s.typ(f.type, env)
                under(t)
                r.update(t[1].iface_methods)
        return r

    def func_type_of(s, o):
        if o.typ is None:
            d, fs = o.lazy_sig
            if d.recv is not None:
                t = s.typ(d.recv.list[0].type, fs)
            o.typ = s.typ(d.type, fs)
        return o.typ

    def resolve_obj(s, o):
        if o.typ is not None or not hasattr(o, "lazy"):
            if o.typ is None and hasattr(o, "lazy_sig"):
                return s.func_type_of(o)
            return o.typ
        sp, src, i, fs = o.lazy
        if getattr(o, "busy", False):
            return INVALID
        o.busy = True
        if o.kind == "const":
            t = s.typ(src.type, fs) if src.type else None
            UNIVERSE.m["iota"].val = sp.iota
            s.expr(src.values[i], fs, t)
            ty, v = s.types[src.values[i].id], s.values.get(src.values[i].id)
            o.val = v
            o.typ = t or ty
            if t:
                s.convert(src.values[i], t)
            s.setdef(sp.names[i], o)
        else:
            t = s.typ(sp.type, fs) if sp.type else None
            if sp.values and len(sp.values) == len(sp.names):
                s.expr(sp.values[i], fs, t)
                o.typ = t or s.default(sp.values[i])
                s.convert(sp.values[i], o.typ)
            elif sp.values:
                ts = s.multi(sp.values[0], fs, len(sp.names))
                o.typ = t or ts[i]
            else:
                o.typ = t
            s.setdef(sp.names[i], o)
        return o.typ

    def setdef(s, ident, o):
        s.defs[ident.id] = o
        s.nodes[ident.id] = ident

    def declare_params(s, fl, sc):
        if fl is None:
            return
        for f in fl.list:
            t = s.types.get(f.type.id)
            if t is None:
                t = s.typ(f.type, sc)
            if f.type.k == "Ellipsis":
                t = ("slice", s.typ(f.type.elt, sc))
            for n in f.names:
                o = Obj("var", n.name, t, pkg=s)
                s.setdef(n, o)
                if n.name != "_":
                    sc.m[n.name] = o

    # -- types ----------------------------------------------------------
    def rec(s, n, t):
        s.types[n.id] = t
        s.nodes[n.id] = n
        return t

    def typ(s, n, env):
        k = n.k
        if k == "Ident":
            o = env.find(n.name)
            if o is None or o.kind != "type":
                raise Exception(f"{s.path}: {n.name} is no type")
            s.uses[n.id] = o
            return s.rec(n, o.typ)
        if k == "SelectorExpr":
            p = env.find(n.x.name)
            s.uses[n.x.id] = p
            s.pkgnames[n.x.id] = p.imported.name
            o = p.imported.scope.m[n.sel.name]
            s.uses[n.sel.id] = o
            return s.rec(n, o.typ)
        if k == "ParenExpr":
            return s.rec(n, s.typ(n.x, env))
        if k == "StarExpr":
            return s.rec(n, ("pointer", s.typ(n.x, env)))
        if k == "ArrayType":
            if n.len is None:
                return s.rec(n, ("slice", s.typ(n.elt, env)))
            if n.len.k == "Ellipsis":
                ln = -1
            else:
                s.expr(n.len, env)
                ln = s.values[n.len.id]
                s.convert(n.len, INT)
            return s.rec(n, ("array", ln, s.typ(n.elt, env)))
        if k == "MapType":
            kt = s.typ(n.key, env)
            return s.rec(n, ("map", kt, s.typ(n.value, env)))
        if k == "ChanType":
            return s.rec(n, ("chan", n.dir, s.typ(n.value, env)))
        if k == "StructType":
            fs = []
            for f in n.fields.list:
                t = s.typ(f.type, env)
                if f.names:
                    for nm in f.names:
                        fs.append((nm.name, t, False))
                        if nm.id not in s.defs:
                            s.setdef(nm, Obj("var", nm.name, t, pkg=s))
                else:
                    b = deref(t)
                    fs.append((b[1].name if b[0] == "named" else b[1], t, True))
            return s.rec(n, ("struct", tuple(fs)))
        if k == "InterfaceType":
            ms = {}
            for f in n.methods.list:
                if f.names:
                    sig = s.typ(f.type, env)
                    ms[f.names[0].name] = sig
                    if f.names[0].id not in s.defs:
                        s.setdef(f.names[0], Obj("func", f.names[0].name, sig, pkg=s))
                else:
                    t = under(s.typ(f.type, env))
                    for m, sig in t[1]:
                        ms[m] = sig
            return s.rec(n, ("interface", tuple(sorted(ms.items(), key=lambda x: x[0]))))
        if k == "FuncType":
            ps, variadic = [], False
            for f in n.params.list:
                if f.type.k == "Ellipsis":
                    t = ("slice", s.typ(f.type.elt, env))
                    s.rec(f.type, t)
                    variadic = True
                else:
                    t = s.typ(f.type, env)
                ps += [t] * max(1, len(f.names))
            rs = []
            if n.results is not None:
                for f in n.results.list:
                    t = s.typ(f.type, env)
                    rs += [t] * max(1, len(f.names))
            return s.rec(n, ("signature", tuple(ps), tuple(rs), variadic))
        raise Exception("type " + k)

    def is_type(s, n, env):
        k = n.k
        if k == "Ident":
            o = env.find(n.name)
            return o is not None and o.kind == "type"
        if k == "ParenExpr" or k == "StarExpr":
            return s.is_type(n.x, env)
        if k == "SelectorExpr":
            if n.x.k == "Ident":
                p = env.find(n.x.name)
                if p is not None and p.kind == "pkg":
                    return p.imported.scope.m[n.sel.name].kind == "type"
            return False
        return k in ("ArrayType", "MapType", "ChanType", "StructType", "InterfaceType", "FuncType")

    # -- method sets ----------------------------------------------------------
    def lookup(s, t, name):
        """(kind, object, type, via pointer) of a field or method."""
        seen = set()
        level = [(deref(t), t[0] == "pointer")]
        while level:
            nxt, found = [], []
            for ty, isp in level:
                if ty in seen:
                    continue
                seen.add(ty)
                if ty[0] == "named":
                    u = under(ty)
                    for m in ty[1].methods:
                        if m.name == name:
                            s_ = m.pkg
                            s_.func_type_of(m)
                            found.append(("method", m, m.typ, isp or not m.ptr))
                    if u[0] == "interface" and name in ty[1].iface_methods:
                        m = ty[1].iface_methods[name]
                        found.append(("method", m, m.typ, True))
                u = under(ty)
                if u[0] == "interface" and ty[0] != "named":
                    for m, sig in u[1]:
                        if m == name:
                            found.append(("method", anon_method(u, m, sig), sig, True))
                if u[0] == "struct":
                    for fn, ft, emb in u[1]:
                        if fn == name:
                            found.append(("field", field_obj(u, fn, ft), ft, True))
                        elif emb:
                            nxt.append((deref(ft), isp or ft[0] == "pointer"))
            if found:
                return found[0] if len(found) == 1 else None
            level = nxt
        return None

    # -- expressions ----------------------------------------------------------
    def default(s, n):
        t = s.types[n.id]
        return DEFAULTS.get(t, t)

    def convert(s, n, target):
        """The final type of an untyped expression."""
        t = s.types.get(n.id)
        if t is None or t == UNIL or t[0] != "basic" or not t[1].startswith("untyped"):
            return
        if target is None or under(target)[0] == "interface":
            target = DEFAULTS.get(t, t)
        s.types[n.id] = target
        if n.k in ("ParenExpr", "UnaryExpr"):
            s.convert(n.x, target)
        elif n.k == "BinaryExpr":
            if n.op not in ("==", "!=", "<", "<=", ">", ">="):
                s.convert(n.x, target)
                s.convert(n.y, target)

    def multi(s, n, env, count):
        """The types of the values of an expression that is assigned to several variables."""
        x = n
        t = s.expr(n, env)
        if t[0] == "tuple":
            return list(t[1])
        if count == 2:
            y = n
            while y.k == "ParenExpr":
                y = y.x
            assert y.k in ("IndexExpr", "TypeAssertExpr", "UnaryExpr"), y.k
            tt = ("tuple", (t, BOOL))
            while True:
                s.types[x.id] = tt
                if x.k != "ParenExpr":
                    break
                x = x.x
            return [t, BOOL]
        return [t]

    def expr(s, n, env, hint=None):
        t, v = s.expr0(n, env, hint)
        s.rec(n, t)
        if v is not None:
            s.values[n.id] = v
        return t

    def use(s, n, o):
        s.uses[n.id] = o
        s.nodes[n.id] = n
        if o.kind in ("var", "const", "func"):
            (o.pkg if isinstance(o.pkg, Package) else s).resolve_obj(o)

    def expr0(s, n, env, hint):
        k = n.k
        if s.is_type(n, env):
            return s.typ(n, env), None
        if k == "Ident":
            if n.name == "_":
                return INVALID, None
            o = env.find(n.name)
            if o is None:
                raise Exception(f"{s.path}: undefined {n.name}")
            s.use(n, o)
            return o.typ, o.val if o.kind == "const" else None
        if k == "BasicLit":
            if n.lk == "string":
                return USTRING, unquote(n.value)
            if n.lk == "int":
                return UINT, int(n.value.replace("_", ""), 0)
            if n.lk == "float":
                return UFLOAT, float(n.value)
            return URUNE, ord(unquote('"' + n.value[1:-1] + '"'))
        if k == "ParenExpr":
            t = s.expr(n.x, env, hint)
            return t, s.values.get(n.x.id)
        if k == "FuncLit":
            t = s.typ(n.type, env)
            sc = Scope(env)
            s.declare_params(n.type.params, sc)
            s.declare_params(n.type.results, sc)
            s.body(n.body.list, sc, t)
            return t, None
        if k == "CompositeLit":
            return s.complit(n, env, hint), None
        if k == "SelectorExpr":
            return s.selector(n, env)
        if k == "IndexExpr":
            t = under(s.expr(n.x, env))
            if t[0] == "map":
                s.expr(n.index, env, t[1])
                s.convert(n.index, t[1])
                return t[2], None
            s.expr(n.index, env)
            s.convert(n.index, INT)
            if t[0] == "pointer":
                t = under(t[1])
            if t[0] == "slice":
                return t[1], None
            if t[0] == "array":
                return t[2], None
            return B("uint8"), None
        if k == "SliceExpr":
            t = s.expr(n.x, env)
            for i in (n.low, n.high, n.max):
                if i is not None:
                    s.expr(i, env)
                    s.convert(i, INT)
            u = under(t)
            if u[0] == "array":
                return ("slice", u[2]), None
            return t, None
        if k == "TypeAssertExpr":
            s.expr(n.x, env)
            return s.typ(n.type, env), None
        if k == "CallExpr":
            return s.call(n, env)
        if k == "StarExpr":
            t = s.expr(n.x, env)
            return under(t)[1], None
        if k == "UnaryExpr":
            if n.op == "&":
                y = n.x
                while y.k == "ParenExpr":
                    y = y.x
                h = None
                t = s.expr(n.x, env, h)
                return ("pointer", t), None
            t = s.expr(n.x, env)
            if n.op == "<-":
                return under(t)[2], None
            v = s.values.get(n.x.id)
            if v is not None:
                v = {"-": lambda v: -v, "+": lambda v: v, "!": lambda v: not v, "^": lambda v: ~v}[n.op](v)
            return t, v
        if k == "BinaryExpr":
            a, b = s.expr(n.x, env), s.expr(n.y, env)
            va, vb = s.values.get(n.x.id), s.values.get(n.y.id)
            unt = lambda t: t[0] == "basic" and t[1].startswith("untyped")
            if n.op in ("<<", ">>"):
                r = a
            elif unt(a) and not unt(b):
                s.convert(n.x, b)
                r = b
            elif unt(b) and not unt(a):
                s.convert(n.y, a)
                r = a
            else:
                r = UFLOAT if UFLOAT in (a, b) else a
            v = None
            if va is not None and vb is not None:
                f = {"+": lambda x, y: x + y, "-": lambda x, y: x - y, "*": lambda x, y: x * y, "/": lambda x, y: x // y if isinstance(x, int) and isinstance(y, int) else x / y,
                     "%": lambda x, y: x % y, "==": lambda x, y: x == y, "!=": lambda x, y: x != y, "<": lambda x, y: x < y, "<=": lambda x, y: x <= y,
                     ">": lambda x, y: x > y, ">=": lambda x, y: x >= y, "&&": lambda x, y: x and y, "||": lambda x, y: x or y,
                     "<<": lambda x, y: x << y, ">>": lambda x, y: x >> y, "&": lambda x, y: x & y, "|": lambda x, y: x | y, "^": lambda x, y: x ^ y}[n.op]
                v = f(va, vb)
            if n.op in ("==", "!=", "<", "<=", ">", ">="):
                if unt(a) and unt(b) and v is None:
                    s.convert(n.x, None)
                    s.convert(n.y, None)
                return UBOOL, v
            return r, v
        if k == "KeyValueExpr":
            raise Exception("key value")
        raise Exception("expr " + k)

    def selector(s, n, env):
        if n.x.k == "Ident":
            p = env.find(n.x.name)
            if p is not None and p.kind == "pkg":
                s.uses[n.x.id] = p
                s.pkgnames[n.x.id] = p.imported.name
                o = p.imported.scope.m[n.sel.name]
                s.use(n.sel, o)
                s.rec(n.sel, o.typ)
                return o.typ, o.val if o.kind == "const" else None
        if s.is_type(n.x, env):
            t = s.typ(n.x, env)
            r = s.lookup(t, n.sel.name)
            sig = r[2]
            s.uses[n.sel.id] = r[1]
            s.selections[n.id] = (t, r[1])
            ty = ("signature", (t,) + sig[1], sig[2], sig[3])
            s.nodes[n.sel.id] = n.sel
            return ty, None
        t = s.expr(n.x, env)
        r = s.lookup(t, n.sel.name)
        if r is None:
            raise Exception(f"{s.path}: {n.sel.name} not found in {t}")
        s.uses[n.sel.id] = r[1]
        s.nodes[n.sel.id] = n.sel
        s.selections[n.id] = (t, r[1])
        return r[2], None

    def complit(s, n, env, hint):
        if n.type is not None:
            if n.type.k == "ArrayType" and n.type.len is not None and n.type.len.k == "Ellipsis":
                e = s.typ(n.type.elt, env)
                s.elements(n, env, e)
                mx, i = 0, 0
                for el in n.elts:
                    if el.k == "KeyValueExpr":
                        i = s.values[el.key.id]
                    i += 1
                    mx = max(mx, i)
                return s.rec(n.type, ("array", mx, e))
            t = s.typ(n.type, env)
            base = t
        else:
            t = hint
            u = under(hint)
            base = u[1] if u[0] == "pointer" else hint
        u = under(base)
        if u[0] == "struct":
            fs = u[1]
            for i, e in enumerate(n.elts):
                if e.k == "KeyValueExpr":
                    f = next(f for f in fs if f[0] == e.key.name)
                    s.uses[e.key.id] = field_obj(u, f[0], f[1])
                    s.nodes[e.key.id] = e.key
                    s.nodes[e.id] = e
                    v = e.value
                else:
                    f, v = fs[i], e
                s.expr(v, env, f[1])
                s.convert(v, f[1])
        elif u[0] in ("slice", "array"):
            s.elements(n, env, u[-1])
        elif u[0] == "map":
            for e in n.elts:
                s.nodes[e.id] = e
                if e.k != "KeyValueExpr":
                    continue
                s.expr(e.key, env, u[1])
                s.convert(e.key, u[1])
                s.expr(e.value, env, u[2])
                s.convert(e.value, u[2])
        else:
            raise Exception("composite literal of " + str(u))
        return t

    def elements(s, n, env, elem):
        for e in n.elts:
            v = e
            if e.k == "KeyValueExpr":
                s.nodes[e.id] = e
                s.expr(e.key, env)
                s.convert(e.key, INT)
                v = e.value
            s.expr(v, env, elem)
            s.convert(v, elem)

    def call(s, n, env):
        if s.is_type(n.fun, env):
            t = s.typ(n.fun, env)
            s.expr(n.args[0], env)
            v = s.values.get(n.args[0].id)
            at = s.types[n.args[0].id]
            if v is not None and is_const_type(t):
                s.convert(n.args[0], t)
                if under(t) == STRING and isinstance(v, int):
                    v = chr(v)
                return t, v
            s.convert(n.args[0], t if is_const_type(t) else None)
            return t, None
        f = n.fun
        while f.k == "ParenExpr":
            f = f.x
        if f.k == "Ident":
            o = env.find(f.name)
            if o is not None and o.kind == "builtin":
                return s.builtin(n, f, o, env)
        t = under(s.expr(n.fun, env))
        assert t[0] == "signature", t
        params, results, variadic = t[1], t[2], t[3]
        if len(n.args) == 1 and len(params) > 1 and n.args[0].k == "CallExpr":
            s.expr(n.args[0], env)
        else:
            for i, a in enumerate(n.args):
                if variadic and i >= len(params) - 1:
                    pt = params[-1] if n.ellipsis else params[-1][1]
                else:
                    pt = params[i]
                s.expr(a, env, pt)
                s.convert(a, pt)
        if len(results) == 0:
            return ("tuple", ()), None
        if len(results) == 1:
            return results[0], None
        return ("tuple", results), None

    def builtin(s, n, f, o, env):
        s.uses[f.id] = o
        args = []
        for i, a in enumerate(n.args):
            if s.is_type(a, env):
                args.append(s.typ(a, env))
            else:
                args.append(s.expr(a, env))
        name = o.name

        def sig(res, *ps, variadic=False):
            t = ("signature", tuple(ps), (res,) if res else (), variadic)
            x = n.fun
            while True:
                s.rec(x, t)
                if x.k != "ParenExpr":
                    break
                x = x.x
        if name == "append":
            S = args[0]
            e = under(S)[1]
            for a in n.args[1:]:
                s.convert(a, e)
            sig(S, S, ("slice", e), variadic=True)
            return S, None
        if name in ("len", "cap"):
            v = s.values.get(n.args[0].id)
            if isinstance(v, str):
                return INT, len(v.encode())
            sig(INT, args[0])
            return INT, None
        if name == "make":
            for a in n.args[1:]:
                s.convert(a, INT)
            sig(args[0], *([args[0]] + [INT] * (len(args) - 1)))
            return args[0], None
        if name == "new":
            sig(("pointer", args[0]), args[0])
            return ("pointer", args[0]), None
        if name == "panic":
            s.convert(n.args[0], None)
            sig(None, EMPTY)
            return ("tuple", ()), None
        if name == "recover":
            sig(EMPTY)
            return EMPTY, None
        if name in ("print", "println", "delete", "close"):
            for a in n.args:
                s.convert(a, None)
            sig(None, *args)
            return ("tuple", ()), None
        if name == "copy":
            sig(INT, *args)
            return INT, None
        raise Exception(name)

    # -- statements ----------------------------------------------------------
    def body(s, l, env, sig):
        for x in l:
            s.stmt(x, env, sig)

    def assign_types(s, lhs, rhs, env, lt):
        """The types of the right hand side, for left hand sides of the given types (None: unknown)."""
        if len(lhs) == len(rhs):
            r = []
            for x, t in zip(rhs, lt):
                s.expr(x, env, t)
                if t is None:
                    t = s.default(x)
                s.convert(x, t)
                r.append(t)
            return r
        assert len(rhs) == 1
        return s.multi(rhs[0], env, len(lhs))

    def new_vars(s, lhs, ts, env):
        for x, t in zip(lhs, ts):
            if x.name in env.m and x.name != "_":
                s.uses[x.id] = env.m[x.name]
                s.rec(x, env.m[x.name].typ)
            else:
                o = Obj("var", x.name, t, pkg=s)
                s.setdef(x, o)
                if x.name != "_":
                    env.m[x.name] = o

    def stmt(s, n, env, sig):
        if n is None:
            return
        k = n.k
        if k == "EmptyStmt" or k == "BranchStmt":
            return
        if k == "ExprStmt":
            s.expr(n.x, env)
            s.convert(n.x, None)
        elif k == "SendStmt":
            t = under(s.expr(n.chan, env))
            s.expr(n.value, env, t[2])
            s.convert(n.value, t[2])
        elif k == "IncDecStmt":
            s.expr(n.x, env)
        elif k == "AssignStmt":
            if n.tok == ":=":
                lt = [env.m[x.name].typ if x.name in env.m and x.name != "_" else None for x in n.lhs]
                ts = s.assign_types(n.lhs, n.rhs, env, lt)
                s.new_vars(n.lhs, ts, env)
            elif n.tok == "=":
                lt = []
                for x in n.lhs:
                    if x.k == "Ident" and x.name == "_":
                        lt.append(None)
                        s.nodes[x.id] = x
                    else:
                        lt.append(s.expr(x, env))
                s.assign_types(n.lhs, n.rhs, env, lt)
            else:
                t = s.expr(n.lhs[0], env)
                s.expr(n.rhs[0], env)
                s.convert(n.rhs[0], t)
        elif k == "ReturnStmt":
            rs = sig[2]
            if len(n.results) == 1 and len(rs) > 1:
                s.expr(n.results[0], env)
            else:
                for x, t in zip(n.results, rs):
                    s.expr(x, env, t)
                    s.convert(x, t)
        elif k == "BlockStmt":
            s.body(n.list, Scope(env), sig)
        elif k == "IfStmt":
            sc = Scope(env)
            s.stmt(n.init, sc, sig)
            s.expr(n.cond, sc)
            s.convert(n.cond, None)
            s.body(n.body.list, Scope(sc), sig)
            s.stmt(n.els, sc, sig)
        elif k == "ForStmt":
            sc = Scope(env)
            s.stmt(n.init, sc, sig)
            if n.cond is not None:
                s.expr(n.cond, sc)
                s.convert(n.cond, None)
            s.stmt(n.post, sc, sig)
            s.body(n.body.list, Scope(sc), sig)
        elif k == "RangeStmt":
            sc = Scope(env)
            t = under(s.expr(n.x, env))
            s.convert(n.x, None)
            if t[0] == "pointer":
                t = under(t[1])
            kv = {"slice": lambda: (INT, t[1]), "array": lambda: (INT, t[2]), "map": lambda: (t[1], t[2]), "chan": lambda: (t[2], None),
                  "basic": lambda: (INT, B("int32"))}[t[0]]()
            lhs = [x for x in (n.key, n.value) if x is not None]
            if n.tok == ":=":
                s.new_vars(lhs, kv, sc)
            else:
                for x in lhs:
                    if not (x.k == "Ident" and x.name == "_"):
                        s.expr(x, env)
                    else:
                        s.nodes[x.id] = x
            s.body(n.body.list, Scope(sc), sig)
        elif k == "SwitchStmt":
            sc = Scope(env)
            s.stmt(n.init, sc, sig)
            t = None
            if n.tag is not None:
                s.expr(n.tag, sc)
                s.convert(n.tag, None)
                t = s.types[n.tag.id]
            for c in n.body.list:
                for x in c.list:
                    s.expr(x, sc)
                    s.convert(x, t)
                s.body(c.body, Scope(sc), sig)
        elif k == "TypeSwitchStmt":
            sc = Scope(env)
            s.stmt(n.init, sc, sig)
            name = None
            if n.assign.k == "AssignStmt":
                name = n.assign.lhs[0].name
                ta = n.assign.rhs[0]
                s.nodes[n.assign.lhs[0].id] = n.assign.lhs[0]
            else:
                ta = n.assign.x
            xt = s.expr(ta.x, sc)
            s.nodes[ta.id] = ta
            for c in n.body.list:
                ts = []
                for x in c.list:
                    if x.k == "Ident" and x.name == "nil":
                        s.expr(x, sc)
                        ts.append(xt)
                    else:
                        ts.append(s.typ(x, sc))
                cs = Scope(sc)
                if name is not None and name != "_":
                    cs.m[name] = Obj("var", name, ts[0] if len(ts) == 1 else xt, pkg=s)
                s.body(c.body, cs, sig)
        elif k == "SelectStmt":
            for c in n.body.list:
                sc = Scope(env)
                s.stmt(c.comm, sc, sig)
                s.body(c.body, sc, sig)
        elif k == "LabeledStmt":
            s.stmt(n.stmt, env, sig)
        elif k in ("GoStmt", "DeferStmt"):
            s.expr(n.call, env)
        elif k == "DeclStmt":
            d = n.decl
            prev = None
            for sp in d.specs:
                if d.tok == "type":
                    o = s.declare_type(sp, env, env)
                    under(o.typ)
                elif d.tok == "const":
                    if sp.values or sp.type:
                        prev = sp
                    t = s.typ(prev.type, env) if prev.type else None
                    objs = []
                    for i, nm in enumerate(sp.names):
                        UNIVERSE.m["iota"].val = sp.iota
                        s.expr(prev.values[i], env, t)
                        o = Obj("const", nm.name, t or s.types[prev.values[i].id], val=s.values[prev.values[i].id], pkg=s)
                        if t:
                            s.convert(prev.values[i], t)
                        objs.append((nm, o))
                    for nm, o in objs:
                        s.setdef(nm, o)
                        if nm.name != "_":
                            env.m[nm.name] = o
                else:
                    t = s.typ(sp.type, env) if sp.type else None
                    ts = [t] * len(sp.names)
                    if sp.values:
                        got = s.assign_types(sp.names, sp.values, env, ts)
                        ts = [t or g for g in got]
                    for nm, ty in zip(sp.names, ts):
                        o = Obj("var", nm.name, ty, pkg=s)
                        s.setdef(nm, o)
                        if nm.name != "_":
                            env.m[nm.name] = o
        else:
            raise Exception("stmt " + k)


_fields, _anon = {}, {}


def field_obj(u, name, t):
    if (u, name) not in _fields:
        _fields[u, name] = Obj("var", name, t)
    return _fields[u, name]


def anon_method(u, name, sig):
    if (u, name) not in _anon:
        _anon[u, name] = Obj("func", name, sig)
    return _anon[u, name]


def unquote(v):
    if v[0] == "`":
        return v[1:-1].replace("\r", "")
    import ast
    return ast.literal_eval(v)


def method_names(t):
    """All names that may be in the method set."""
    r, seen = set(), set()

    def go(t):
        t = deref(t)
        if t in seen:
            return
        seen.add(t)
        if t[0] == "named":
            r.update(m.name for m in t[1].methods)
        u = under(t)
        if u[0] == "interface":
            r.update(m for m, _ in u[1])
        if u[0] == "struct":
            for _, ft, emb in u[1]:
                if emb:
                    go(ft)
    go(t)
    return r


def method_set(pkg, t):
    """name -> (object, signature), as seen from pkg."""
    if t[0] == "pointer" and under(t[1])[0] == "interface":
        return {}
    if t[0] == "pointer" and t[1][0] == "pointer":
        return {}
    r = {}
    for n in method_names(t):
        x = pkg.lookup(t, n)
        if x is not None and x[0] == "method" and x[3]:
            r[n] = (x[1], x[2])
    return r


def implements(pkg, t, methods):
    """types.Implements for an interface with the given methods [(name, signature)]."""
    ms = method_set(pkg, t)
    return all(n in ms and ms[n][1] == sig for n, sig in methods)
