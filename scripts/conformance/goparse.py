"""A parser for the part of Go that is used in /repo/analysis/testdata, with the comment handling of go/parser, the
object resolution of go/parser (ast.Object) and the comment maps of go/ast (NewCommentMap)."""
import re

KEYWORDS = set("break case chan const continue default defer else fallthrough for func go goto if import interface map package range return select struct switch type var".split())
OPS = sorted("+ - * / % & | ^ << >> &^ += -= *= /= %= &= |= ^= <<= >>= &^= && || <- ++ -- == < > = ! != <= >= := ... ( ) [ ] { } , ; . :".split(), key=len, reverse=True)


class Tok:
    __slots__ = ("kind", "text", "pos", "end", "line")

    def __init__(s, kind, text, pos, end, line):
        s.kind, s.text, s.pos, s.end, s.line = kind, text, pos, end, line

    def __repr__(s):
        return f"{s.kind}:{s.text}@{s.line}"


class Node:
    """A syntax node; `k` is its kind, named as in go/ast."""
    count = 0

    def __init__(s, k, pos, end, **kw):
        s.k, s.pos, s.end = k, pos, end
        Node.count += 1
        s.id = Node.count
        s.__dict__.update(kw)

    def __repr__(s):
        return f"<{s.k}#{s.id}>"


class File:
    pass


class Scanner:
    def __init__(s, src):
        s.src = src
        s.linestarts = [0] + [m.end() for m in re.finditer("\n", src)]
        s.toks, s.comments = [], []
        s.scan()

    def line(s, off):
        import bisect
        return bisect.bisect_right(s.linestarts, off)

    def scan(s):
        src, i, n = s.src, 0, len(s.src)
        last = None

        def semi_needed():
            return last is not None and (last.kind in ("ident", "int", "float", "char", "string") or
                                         last.text in ("break", "continue", "fallthrough", "return", "++", "--", ")", "]", "}"))

        def emit(kind, text, a, b):
            nonlocal last
            last = Tok(kind, text, a, b, s.line(a))
            s.toks.append(last)
        while i < n:
            c = src[i]
            if c == "\n":
                if semi_needed():
                    emit("op", ";", i, i)
                    last.kind = "autosemi"
                i += 1
            elif c in " \t\r":
                i += 1
            elif src.startswith("//", i):
                j = src.find("\n", i)
                j = n if j < 0 else j
                s.comments.append((i, j, src[i:j].rstrip("\r")))
                i = j
            elif src.startswith("/*", i):
                j = src.index("*/", i) + 2
                s.comments.append((i, j, src[i:j]))
                # A general comment containing newlines acts like a newline.
                if "\n" in src[i:j] and semi_needed():
                    emit("op", ";", i, i)
                    last.kind = "autosemi"
                else:
                    # Or if only white space follows on the line: handled by the newline itself.
                    pass
                i = j
            elif c.isalpha() or c == "_":
                j = i
                while j < n and (src[j].isalnum() or src[j] == "_"):
                    j += 1
                w = src[i:j]
                emit("kw" if w in KEYWORDS else "ident", w, i, j)
                i = j
            elif c.isdigit():
                m = re.match(r"0[xX][0-9a-fA-F_]+|[0-9_]+(\.[0-9]*)?([eE][+-]?[0-9]+)?", src[i:])
                t = m.group(0)
                emit("float" if ("." in t or "e" in t) and not t.startswith("0x") else "int", t, i, i + len(t))
                i += len(t)
            elif c == '"':
                j = i + 1
                while src[j] != '"':
                    j += 2 if src[j] == "\\" else 1
                emit("string", src[i:j + 1], i, j + 1)
                i = j + 1
            elif c == "`":
                j = src.index("`", i + 1)
                emit("string", src[i:j + 1], i, j + 1)
                i = j + 1
            elif c == "'":
                j = i + 1
                while src[j] != "'":
                    j += 2 if src[j] == "\\" else 1
                emit("char", src[i:j + 1], i, j + 1)
                i = j + 1
            else:
                for o in OPS:
                    if src.startswith(o, i):
                        emit("op", o, i, i + len(o))
                        i += len(o)
                        break
                else:
                    raise SyntaxError(f"unexpected {c!r} at {s.line(i)}")
        if semi_needed():
            emit("op", ";", n, n)
            last.kind = "autosemi"
        s.toks.append(Tok("eof", "EOF", n, n, s.line(n)))


class Parser:
    def __init__(p, src):
        p.sc = Scanner(src)
        p.toks, p.i, p.lev = p.sc.toks, 0, 0
        p.group_comments()

    # -- comments ----------------------------------------------------------
    def group_comments(p):
        """parser.next: groups of comments, and which are lead comments of which token."""
        line = p.sc.line
        coms = p.sc.comments
        p.groups = []
        p.lead = {}
        ci = 0
        prev_line = None
        # In go/parser, comments between two tokens are read by next(); automatically inserted semicolons are tokens too.
        for ti, t in enumerate(p.toks):
            between = []
            while ci < len(coms) and coms[ci][0] < t.pos or (ci < len(coms) and t.kind == "eof"):
                between.append(coms[ci])
                ci += 1
            if not between:
                prev_line = line(t.pos)
                continue
            k = 0

            def consume(n):
                nonlocal k
                g = []
                endline = line(between[k][0])
                while k < len(between) and line(between[k][0]) <= endline + n:
                    endline = line(between[k][0])
                    if between[k][2].startswith("/*"):
                        endline = line(between[k][1] - 1)
                    g.append(between[k])
                    k += 1
                grp = Node("CommentGroup", g[0][0], g[-1][1], list=[x[2] for x in g], starts=[x[0] for x in g])
                p.groups.append(grp)
                return grp, endline
            if prev_line is not None and line(between[0][0]) == prev_line:
                # The comment is on same line as the previous token; it cannot be a lead comment but may be a line comment.
                consume(0)
            grp, endline = None, -1
            while k < len(between):
                grp, endline = consume(1)
            if grp is not None and endline + 1 == line(t.pos) and t.kind != "autosemi":
                p.lead[ti] = grp
            prev_line = line(t.pos)

    # -- tokens ------------------------------------------------------------
    @property
    def t(p):
        return p.toks[p.i]

    def at(p, *texts):
        return p.t.text in texts and p.t.kind in ("op", "kw", "autosemi")

    def next(p):
        t = p.toks[p.i]
        p.i += 1
        return t

    def expect(p, text):
        if not p.at(text):
            raise SyntaxError(f"expected {text!r}, found {p.t}")
        return p.next()

    def skip_semi(p):
        if not p.at(")", "}"):
            if p.at(";"):
                p.next()
            elif p.t.kind == "eof":
                pass
            else:
                raise SyntaxError(f"expected semicolon, found {p.t}")

    def ident(p):
        t = p.next()
        if t.kind != "ident":
            raise SyntaxError(f"expected identifier, found {t}")
        return Node("Ident", t.pos, t.end, name=t.text, obj=None)

    # -- types -------------------------------------------------------------
    def typ(p):
        x = p.try_type()
        if x is None:
            raise SyntaxError(f"expected type, found {p.t}")
        return x

    def try_type(p):
        t = p.t
        if t.kind == "ident":
            x = p.ident()
            if p.at("."):
                p.next()
                sel = p.ident()
                return Node("SelectorExpr", x.pos, sel.end, x=x, sel=sel)
            return x
        if p.at("["):
            p.next()
            ln = None
            if p.at("]"):
                p.next()
            else:
                if p.at("..."):
                    d = p.next()
                    ln = Node("Ellipsis", d.pos, d.end, elt=None)
                else:
                    p.lev += 1
                    ln = p.expr()
                    p.lev -= 1
                p.expect("]")
            e = p.typ()
            return Node("ArrayType", t.pos, e.end, len=ln, elt=e)
        if p.at("*"):
            p.next()
            e = p.typ()
            return Node("StarExpr", t.pos, e.end, x=e)
        if p.at("map"):
            p.next()
            p.expect("[")
            k = p.typ()
            p.expect("]")
            v = p.typ()
            return Node("MapType", t.pos, v.end, key=k, value=v)
        if p.at("chan"):
            p.next()
            d = "both"
            if p.at("<-"):
                p.next()
                d = "send"
            e = p.typ()
            return Node("ChanType", t.pos, e.end, dir=d, value=e)
        if p.at("<-"):
            p.next()
            p.expect("chan")
            e = p.typ()
            return Node("ChanType", t.pos, e.end, dir="recv", value=e)
        if p.at("struct"):
            return p.struct_type()
        if p.at("interface"):
            return p.interface_type()
        if p.at("func"):
            p.next()
            return p.func_type(t.pos)
        if p.at("("):
            p.next()
            x = p.typ()
            e = p.expect(")")
            return Node("ParenExpr", t.pos, e.end, x=x)
        return None

    def struct_type(p):
        t = p.expect("struct")
        ob = p.expect("{")
        fields = []
        while not p.at("}"):
            doc = p.lead.get(p.i)
            pos = p.t.pos
            if p.at("*"):
                ty = p.typ()
                names = []
            else:
                x = p.ident()
                if p.at("."):
                    p.next()
                    sel = p.ident()
                    ty, names = Node("SelectorExpr", x.pos, sel.end, x=x, sel=sel), []
                elif p.at(";", "}") or p.t.kind == "string":
                    ty, names = x, []
                else:
                    names = [x]
                    while p.at(","):
                        p.next()
                        names.append(p.ident())
                    ty = p.typ()
            tag = None
            if p.t.kind == "string":
                tt = p.next()
                tag = Node("BasicLit", tt.pos, tt.end, lk="string", value=tt.text)
            fields.append(Node("Field", pos, (tag or ty).end, names=names, type=ty, tag=tag, doc=doc))
            p.skip_semi()
        cb = p.expect("}")
        fl = Node("FieldList", ob.pos, cb.end, list=fields)
        return Node("StructType", t.pos, cb.end, fields=fl)

    def interface_type(p):
        t = p.expect("interface")
        ob = p.expect("{")
        fields = []
        while not p.at("}"):
            doc = p.lead.get(p.i)
            x = p.ident()
            if p.at("("):
                ft = p.func_type(None)
                fields.append(Node("Field", x.pos, ft.end, names=[x], type=ft, tag=None, doc=doc))
            else:
                if p.at("."):
                    p.next()
                    sel = p.ident()
                    x = Node("SelectorExpr", x.pos, sel.end, x=x, sel=sel)
                fields.append(Node("Field", x.pos, x.end, names=[], type=x, tag=None, doc=doc))
            p.skip_semi()
        cb = p.expect("}")
        fl = Node("FieldList", ob.pos, cb.end, list=fields)
        return Node("InterfaceType", t.pos, cb.end, methods=fl)

    def func_type(p, pos):
        params = p.params()
        results = p.result()
        start = pos if pos is not None else params.pos
        return Node("FuncType", start, (results or params).end, params=params, results=results)

    def result(p):
        if p.at("("):
            return p.params()
        x = p.try_type()
        if x is None:
            return None
        f = Node("Field", x.pos, x.end, names=[], type=x, tag=None, doc=None)
        return Node("FieldList", x.pos, x.end, list=[f])

    def params(p):
        ob = p.expect("(")
        entries = []
        while not p.at(")"):
            pos = p.t.pos
            if p.at("..."):
                d = p.next()
                e = p.typ()
                entries.append((None, Node("Ellipsis", d.pos, e.end, elt=e)))
            else:
                x = p.typ()
                if x.k == "Ident" and not p.at(",", ")"):
                    if p.at("..."):
                        d = p.next()
                        e = p.typ()
                        entries.append((x, Node("Ellipsis", d.pos, e.end, elt=e)))
                    else:
                        entries.append((x, p.typ()))
                else:
                    entries.append((None, x))
            if p.at(","):
                p.next()
        cb = p.expect(")")
        fields = []
        if any(n is not None for n, _ in entries):
            names = []
            for n, ty in entries:
                if n is None:
                    names.append(ty)
                else:
                    names.append(n)
                    fields.append(Node("Field", names[0].pos, ty.end, names=names, type=ty, tag=None, doc=None))
                    names = []
        else:
            for _, ty in entries:
                fields.append(Node("Field", ty.pos, ty.end, names=[], type=ty, tag=None, doc=None))
        return Node("FieldList", ob.pos, cb.end, list=fields)

    # -- expressions ---------------------------------------------------------
    PREC = {"||": 1, "&&": 2, "==": 3, "!=": 3, "<": 3, "<=": 3, ">": 3, ">=": 3, "+": 4, "-": 4, "|": 4, "^": 4,
            "*": 5, "/": 5, "%": 5, "<<": 5, ">>": 5, "&": 5, "&^": 5}

    def expr(p, prec=1):
        x = p.unary()
        while p.t.kind == "op" and p.PREC.get(p.t.text, 0) >= prec:
            op = p.next()
            y = p.expr(p.PREC[op.text] + 1)
            x = Node("BinaryExpr", x.pos, y.end, op=op.text, x=x, y=y)
        return x

    def unary(p):
        t = p.t
        if p.at("+", "-", "!", "^", "&"):
            p.next()
            x = p.unary()
            return Node("UnaryExpr", t.pos, x.end, op=t.text, x=x)
        if p.at("<-"):
            p.next()
            if p.at("chan"):
                p.i -= 1
                return p.typ()
            x = p.unary()
            return Node("UnaryExpr", t.pos, x.end, op="<-", x=x)
        if p.at("*"):
            p.next()
            x = p.unary()
            return Node("StarExpr", t.pos, x.end, x=x)
        return p.primary()

    def operand(p):
        t = p.t
        if t.kind == "ident":
            return p.ident()
        if t.kind in ("int", "float", "char", "string"):
            p.next()
            return Node("BasicLit", t.pos, t.end, lk=t.kind, value=t.text)
        if p.at("("):
            p.next()
            p.lev += 1
            x = p.expr_or_type()
            p.lev -= 1
            e = p.expect(")")
            return Node("ParenExpr", t.pos, e.end, x=x)
        if p.at("func"):
            p.next()
            ft = p.func_type(t.pos)
            if p.at("{"):
                p.lev += 1
                old, p.lev = p.lev, 0
                b = p.block()
                p.lev = old - 1
                return Node("FuncLit", t.pos, b.end, type=ft, body=b)
            return ft
        x = p.try_type()
        if x is None:
            raise SyntaxError(f"expected operand, found {t}")
        return x

    def expr_or_type(p):
        return p.expr()

    def primary(p):
        x = p.operand()
        while True:
            if p.at("."):
                p.next()
                if p.at("("):
                    p.next()
                    if p.at("type"):
                        p.next()
                        ty = None
                    else:
                        ty = p.typ()
                    e = p.expect(")")
                    x = Node("TypeAssertExpr", x.pos, e.end, x=x, type=ty)
                else:
                    sel = p.ident()
                    x = Node("SelectorExpr", x.pos, sel.end, x=x, sel=sel)
            elif p.at("["):
                p.next()
                p.lev += 1
                idx = [None, None, None]
                n = 0
                if not p.at(":"):
                    idx[0] = p.expr()
                while p.at(":") and n < 2:
                    n += 1
                    p.next()
                    if not p.at(":", "]"):
                        idx[n] = p.expr()
                p.lev -= 1
                e = p.expect("]")
                if n:
                    x = Node("SliceExpr", x.pos, e.end, x=x, low=idx[0], high=idx[1], max=idx[2])
                else:
                    x = Node("IndexExpr", x.pos, e.end, x=x, index=idx[0])
            elif p.at("("):
                p.next()
                p.lev += 1
                args, ell = [], False
                while not p.at(")"):
                    args.append(p.expr_or_type())
                    if p.at("..."):
                        p.next()
                        ell = True
                    if not p.at(","):
                        break
                    p.next()
                p.lev -= 1
                e = p.expect(")")
                x = Node("CallExpr", x.pos, e.end, fun=x, args=args, ellipsis=ell)
            elif p.at("{") and p.is_lit_type(x) and (p.lev >= 0 or not x.k in ("Ident", "SelectorExpr")):
                x = p.complit(x)
            else:
                return x

    def is_lit_type(p, x):
        return x.k in ("Ident", "ArrayType", "StructType", "MapType") or (x.k == "SelectorExpr" and x.x.k == "Ident")

    def complit(p, ty):
        ob = p.expect("{")
        p.lev += 1
        old, p.lev = p.lev, max(p.lev, 1)
        elts = []
        while not p.at("}"):
            e = p.element()
            if p.at(":"):
                p.next()
                v = p.element()
                e = Node("KeyValueExpr", e.pos, v.end, key=e, value=v)
            elts.append(e)
            if not p.at(","):
                break
            p.next()
        p.lev = old - 1
        cb = p.expect("}")
        return Node("CompositeLit", ty.pos if ty else ob.pos, cb.end, type=ty, elts=elts)

    def element(p):
        if p.at("{"):
            return p.complit(None)
        return p.expr()

    def expr_list(p):
        l = [p.expr()]
        while p.at(","):
            p.next()
            l.append(p.expr())
        return l

    # -- statements ----------------------------------------------------------
    def block(p):
        ob = p.expect("{")
        l = p.stmt_list()
        cb = p.expect("}")
        return Node("BlockStmt", ob.pos, cb.end, list=l)

    def stmt_list(p):
        l = []
        while not p.at("}", "case", "default"):
            s = p.stmt()
            if s is not None:
                l.append(s)
            if not p.at("}", "case", "default"):
                p.skip_semi()
        return l

    ASSIGN = {"=", ":=", "+=", "-=", "*=", "/=", "%=", "&=", "|=", "^=", "<<=", ">>=", "&^="}

    def simple(p, range_ok=False):
        pos = p.t.pos
        if range_ok and p.at("range"):
            p.next()
            x = p.expr()
            return Node("RangeHdr", pos, x.end, key=None, value=None, tok=None, x=x)
        l = p.expr_list()
        if p.t.kind == "op" and p.t.text in p.ASSIGN:
            tok = p.next()
            if range_ok and p.at("range") and tok.text in ("=", ":="):
                p.next()
                x = p.expr()
                return Node("RangeHdr", pos, x.end, key=l[0], value=l[1] if len(l) > 1 else None, tok=tok.text, x=x, lhs=l)
            r = p.expr_list()
            return Node("AssignStmt", pos, r[-1].end, lhs=l, rhs=r, tok=tok.text)
        x, = l
        if p.at("++", "--"):
            t = p.next()
            return Node("IncDecStmt", pos, t.end, x=x, tok=t.text)
        if p.at("<-"):
            p.next()
            v = p.expr()
            return Node("SendStmt", pos, v.end, chan=x, value=v)
        if p.at(":") and x.k == "Ident" and p.lev == 0 and p.label_ok:
            p.next()
            if p.at("}"):
                s = Node("EmptyStmt", p.t.pos, p.t.pos)
            else:
                s = p.stmt() or Node("EmptyStmt", p.t.pos, p.t.pos)
            return Node("LabeledStmt", pos, s.end, label=x, stmt=s)
        return Node("ExprStmt", pos, x.end, x=x)

    label_ok = False

    def stmt(p):
        t = p.t
        if p.at(";"):
            return None
        if p.at("var", "const", "type"):
            d = p.gen_decl()
            return Node("DeclStmt", d.pos, d.end, decl=d)
        if p.at("{"):
            return p.block()
        if p.at("if"):
            return p.if_stmt()
        if p.at("for"):
            return p.for_stmt()
        if p.at("switch"):
            return p.switch_stmt()
        if p.at("select"):
            return p.select_stmt()
        if p.at("return"):
            p.next()
            rs = []
            if not p.at(";", "}"):
                rs = p.expr_list()
            return Node("ReturnStmt", t.pos, rs[-1].end if rs else t.end, results=rs)
        if p.at("break", "continue", "goto", "fallthrough"):
            p.next()
            lab = p.ident() if p.t.kind == "ident" else None
            return Node("BranchStmt", t.pos, (lab or t).end, tok=t.text, label=lab)
        if p.at("defer", "go"):
            p.next()
            c = p.expr()
            return Node("DeferStmt" if t.text == "defer" else "GoStmt", t.pos, c.end, call=c)
        p.label_ok = True
        try:
            # Labels are recognised only at the start of a statement.
            save = p.label_ok
            s = p.simple()
        finally:
            p.label_ok = False
        return s

    def header(p, kw):
        """init; cond of if and switch."""
        old, p.lev = p.lev, -1
        init = cond = None
        lab, p.label_ok = p.label_ok, False
        if not p.at("{"):
            if not p.at(";"):
                cond = p.simple()
            if p.at(";"):
                p.next()
                init, cond = cond, None
                if not p.at("{"):
                    cond = p.simple()
        p.lev = old
        p.label_ok = lab
        return init, cond

    def if_stmt(p):
        t = p.expect("if")
        init, cond = p.header("if")
        body = p.block()
        els = None
        if p.at("else"):
            p.next()
            els = p.if_stmt() if p.at("if") else p.block()
        return Node("IfStmt", t.pos, (els or body).end, init=init, cond=cond.x, body=body, els=els)

    def for_stmt(p):
        t = p.expect("for")
        old, p.lev = p.lev, -1
        lab, p.label_ok = p.label_ok, False
        init = cond = post = None
        rng = None
        if not p.at("{"):
            if not p.at(";"):
                cond = p.simple(range_ok=True)
                if cond.k == "RangeHdr":
                    rng = cond
            if rng is None and p.at(";"):
                p.next()
                init, cond = cond, None
                if not p.at(";"):
                    if p.at("{"):
                        raise SyntaxError("expected for loop condition")
                    cond = p.simple()
                p.expect(";")
                if not p.at("{"):
                    post = p.simple()
        p.lev = old
        p.label_ok = lab
        body = p.block()
        if rng is not None:
            return Node("RangeStmt", t.pos, body.end, key=rng.key, value=rng.value, tok=rng.tok, x=rng.x, body=body, lhs=getattr(rng, "lhs", []))
        return Node("ForStmt", t.pos, body.end, init=init, cond=cond.x if cond else None, post=post, body=body)

    def switch_stmt(p):
        t = p.expect("switch")
        init, tag = p.header("switch")
        ob = p.expect("{")
        is_type = tag is not None and (
            (tag.k == "ExprStmt" and tag.x.k == "TypeAssertExpr" and tag.x.type is None) or
            (tag.k == "AssignStmt" and len(tag.rhs) == 1 and tag.rhs[0].k == "TypeAssertExpr" and tag.rhs[0].type is None))
        clauses = []
        while p.at("case", "default"):
            ct = p.next()
            l = []
            if ct.text == "case":
                l = [p.expr()]
                while p.at(","):
                    p.next()
                    l.append(p.expr())
            colon = p.expect(":")
            body = p.stmt_list()
            clauses.append(Node("CaseClause", ct.pos, body[-1].end if body else colon.end, list=l, body=body))
        cb = p.expect("}")
        body = Node("BlockStmt", ob.pos, cb.end, list=clauses)
        if is_type:
            return Node("TypeSwitchStmt", t.pos, cb.end, init=init, assign=tag, body=body)
        return Node("SwitchStmt", t.pos, cb.end, init=init, tag=tag.x if tag else None, body=body)

    def select_stmt(p):
        t = p.expect("select")
        ob = p.expect("{")
        clauses = []
        while p.at("case", "default"):
            ct = p.next()
            comm = p.simple() if ct.text == "case" else None
            colon = p.expect(":")
            body = p.stmt_list()
            clauses.append(Node("CommClause", ct.pos, body[-1].end if body else colon.end, comm=comm, body=body))
        cb = p.expect("}")
        return Node("SelectStmt", t.pos, cb.end, body=Node("BlockStmt", ob.pos, cb.end, list=clauses))

    # -- declarations ----------------------------------------------------------
    def gen_decl(p):
        doc = p.lead.get(p.i)
        t = p.next()
        specs = []
        if p.at("("):
            p.next()
            i = 0
            while not p.at(")"):
                specs.append(p.spec(t.text, p.lead.get(p.i), i))
                i += 1
                p.skip_semi()
            end = p.expect(")").end
        else:
            specs.append(p.spec(t.text, None, 0))
            end = specs[-1].end
        return Node("GenDecl", t.pos, end, tok=t.text, specs=specs, doc=doc)

    def spec(p, tok, doc, iota):
        pos = p.t.pos
        if tok == "import":
            name = None
            if p.t.kind == "ident":
                name = p.ident()
            elif p.at("."):
                d = p.next()
                name = Node("Ident", d.pos, d.end, name=".", obj=None)
            s = p.next()
            path = Node("BasicLit", s.pos, s.end, lk="string", value=s.text)
            return Node("ImportSpec", pos, path.end, name=name, path=path, doc=doc)
        if tok == "type":
            name = p.ident()
            alias = False
            if p.at("="):
                p.next()
                alias = True
            ty = p.typ()
            return Node("TypeSpec", pos, ty.end, name=name, alias=alias, type=ty, doc=doc)
        names = [p.ident()]
        while p.at(","):
            p.next()
            names.append(p.ident())
        ty = None
        if not p.at("=", ";", ")"):
            ty = p.typ()
        values = []
        if p.at("="):
            p.next()
            values = p.expr_list()
        end = values[-1].end if values else (ty or names[-1]).end
        return Node("ValueSpec", pos, end, names=names, type=ty, values=values, tok=tok, iota=iota, doc=doc)

    def func_decl(p):
        doc = p.lead.get(p.i)
        t = p.expect("func")
        recv = None
        if p.at("("):
            recv = p.params()
        name = p.ident()
        ft = p.func_type(t.pos)
        body = p.block() if p.at("{") else None
        return Node("FuncDecl", t.pos, (body or ft).end, recv=recv, name=name, type=ft, body=body, doc=doc)

    def file(p):
        doc = p.lead.get(p.i)
        t = p.expect("package")
        name = p.ident()
        p.skip_semi()
        decls = []
        while p.t.kind != "eof":
            if p.at("func"):
                decls.append(p.func_decl())
            else:
                decls.append(p.gen_decl())
            if p.t.kind != "eof":
                p.skip_semi()
        end = decls[-1].end if decls else name.end
        return Node("File", t.pos, end, name=name, decls=decls, comments=p.groups, scanner=p.sc, doc=doc)


# -- children in the order of ast.Walk ------------------------------------------

def children(n):
    k = n.k

    def some(*xs):
        r = []
        for x in xs:
            if x is None:
                continue
            if isinstance(x, list):
                r += [y for y in x if y is not None]
            else:
                r.append(x)
        return r
    if k in ("Ident", "BasicLit", "EmptyStmt", "Comment"):
        return []
    if k == "CommentGroup":
        return []
    if k == "Field":
        return some(n.doc, n.names, n.type, n.tag)
    if k == "FieldList":
        return some(n.list)
    if k == "Ellipsis":
        return some(n.elt)
    if k == "FuncLit":
        return some(n.type, n.body)
    if k == "CompositeLit":
        return some(n.type, n.elts)
    if k == "ParenExpr" or k == "StarExpr" or k == "UnaryExpr" or k == "ExprStmt" or k == "IncDecStmt":
        return some(n.x)
    if k == "SelectorExpr":
        return some(n.x, n.sel)
    if k == "IndexExpr":
        return some(n.x, n.index)
    if k == "SliceExpr":
        return some(n.x, n.low, n.high, n.max)
    if k == "TypeAssertExpr":
        return some(n.x, n.type)
    if k == "CallExpr":
        return some(n.fun, n.args)
    if k == "BinaryExpr":
        return some(n.x, n.y)
    if k == "KeyValueExpr":
        return some(n.key, n.value)
    if k == "ArrayType":
        return some(n.len, n.elt)
    if k == "StructType":
        return some(n.fields)
    if k == "FuncType":
        return some(n.params, n.results)
    if k == "InterfaceType":
        return some(n.methods)
    if k == "MapType":
        return some(n.key, n.value)
    if k == "ChanType":
        return some(n.value)
    if k == "DeclStmt":
        return some(n.decl)
    if k == "LabeledStmt":
        return some(n.label, n.stmt)
    if k == "SendStmt":
        return some(n.chan, n.value)
    if k == "AssignStmt":
        return some(n.lhs, n.rhs)
    if k in ("GoStmt", "DeferStmt"):
        return some(n.call)
    if k == "ReturnStmt":
        return some(n.results)
    if k == "BranchStmt":
        return some(n.label)
    if k == "BlockStmt":
        return some(n.list)
    if k == "IfStmt":
        return some(n.init, n.cond, n.body, n.els)
    if k == "CaseClause":
        return some(n.list, n.body)
    if k == "SwitchStmt":
        return some(n.init, n.tag, n.body)
    if k == "TypeSwitchStmt":
        return some(n.init, n.assign, n.body)
    if k == "CommClause":
        return some(n.comm, n.body)
    if k == "SelectStmt":
        return some(n.body)
    if k == "ForStmt":
        return some(n.init, n.cond, n.post, n.body)
    if k == "RangeStmt":
        return some(n.key, n.value, n.x, n.body)
    if k == "ImportSpec":
        return some(n.doc, n.name, n.path)
    if k == "ValueSpec":
        return some(n.doc, n.names, n.type, n.values)
    if k == "TypeSpec":
        return some(n.doc, n.name, n.type)
    if k == "GenDecl":
        return some(n.doc, n.specs)
    if k == "FuncDecl":
        return some(n.doc, n.recv, n.name, n.type, n.body)
    if k == "File":
        return some(n.doc, n.name, n.decls)
    raise Exception(k)


# -- ast.NewCommentMap --------------------------------------------------------------

IMPORTANT = {"File", "Field", "GenDecl", "FuncDecl", "ImportSpec", "ValueSpec", "TypeSpec", "DeclStmt", "EmptyStmt", "LabeledStmt", "ExprStmt",
             "SendStmt", "IncDecStmt", "AssignStmt", "GoStmt", "DeferStmt", "ReturnStmt", "BranchStmt", "BlockStmt", "IfStmt", "CaseClause",
             "SwitchStmt", "TypeSwitchStmt", "CommClause", "SelectStmt", "ForStmt", "RangeStmt"}


def comment_map(file):
    line = file.scanner.line
    comments = sorted(file.comments, key=lambda g: g.pos)
    cmap = {}
    if not comments:
        return cmap
    nodes = []

    def collect(n):
        if n.k == "CommentGroup":
            return
        nodes.append(n)
        for c in children(n):
            collect(c)
    collect(file)
    INF = 1 << 30
    ci = 0
    stack = []

    def pop(pos):
        top = None
        while stack and stack[-1].end <= pos:
            top = stack.pop()
        return top
    p = pg = None
    pend = pgend = 0
    for q in nodes + [None]:
        qoff, qline = (q.pos, line(q.pos)) if q is not None else (INF, INF)
        while True:
            g = comments[ci]
            if not g.end <= qoff:
                break
            top = pop(g.pos)
            if top is not None:
                pg = top
                pgend = line(pg.end)
            rpos, rend = line(g.pos), line(g.end)
            if pg is not None and (pgend == rpos or pgend + 1 == rpos and rend + 1 < qline):
                assoc = pg
            elif p is not None and (pend == rpos or pend + 1 == rpos and rend + 1 < qline or q is None):
                assoc = p
            else:
                assoc = q
            cmap.setdefault(assoc.id, []).append(g)
            ci += 1
            if ci == len(comments):
                return cmap
        p = q
        pend = line(p.end)
        if q.k in IMPORTANT:
            pop(q.pos)
            stack.append(q)
    return cmap


# -- object resolution (go/parser/resolver.go) ---------------------------------------

class AstObj:
    def __init__(s, kind, name, pos, decl):
        s.kind, s.name, s.pos, s.decl = kind, name, pos, decl


class Scope:
    def __init__(s, outer):
        s.outer, s.objs = outer, {}


def resolve_file(file):
    pkg = Scope(None)
    top = [pkg]
    unresolved = []

    def declare(decl, scope, kind, idents):
        for i in idents:
            o = AstObj(kind, i.name, i.pos, decl)
            i.obj = o
            if i.name != "_" and i.name not in scope.objs:
                scope.objs[i.name] = o

    def short_var(decl, lhs):
        for x in lhs:
            if x.k == "Ident":
                o = AstObj("var", x.name, x.pos, decl)
                x.obj = o
                if x.name != "_":
                    if x.name in top[0].objs:
                        x.obj = top[0].objs[x.name]
                    else:
                        top[0].objs[x.name] = o

    def resolve(i, collect):
        if i.name == "_" or i.obj is not None:
            return
        s = top[0]
        while s is not None:
            if i.name in s.objs:
                i.obj = s.objs[i.name]
                return
            s = s.outer
        if collect:
            unresolved.append(i)

    class scoped:
        def __enter__(s):
            top[0] = Scope(top[0])

        def __exit__(s, *a):
            top[0] = top[0].outer

    def field_list(fl, kind):
        if fl is None:
            return
        for f in fl.list:
            if f.type is not None:
                walk(f.type)
        for f in fl.list:
            declare(f, top[0], kind, f.names)

    def func_type(t):
        for fl in (t.params, t.results):
            if fl is not None:
                for f in fl.list:
                    walk(f.type)
        for fl in (t.params, t.results):
            if fl is not None:
                for f in fl.list:
                    declare(f, top[0], "var", f.names)

    def stmts(l):
        for s in l:
            walk(s)

    def lhs_walk(l):
        for x in l:
            walk(x)

    def walk(n):
        if n is None:
            return
        k = n.k
        if k == "Ident":
            resolve(n, True)
        elif k == "FuncLit":
            with scoped():
                func_type(n.type)
                stmts(n.body.list)
        elif k == "SelectorExpr":
            walk(n.x)
        elif k == "StructType":
            with scoped():
                field_list(n.fields, "var")
        elif k == "FuncType":
            with scoped():
                func_type(n)
        elif k == "InterfaceType":
            with scoped():
                field_list(n.methods, "fun_")
        elif k == "CompositeLit":
            walk(n.type)
            for e in n.elts:
                if e.k == "KeyValueExpr":
                    if e.key.k == "Ident":
                        resolve(e.key, False)
                    else:
                        walk(e.key)
                    walk(e.value)
                else:
                    walk(e)
        elif k == "LabeledStmt":
            declare(n, Scope(None), "lbl", [n.label])
            walk(n.stmt)
        elif k == "AssignStmt":
            for x in n.rhs:
                walk(x)
            if n.tok == ":=":
                short_var(n, n.lhs)
                for x in n.lhs:
                    if x.k != "Ident":
                        walk(x)
            else:
                lhs_walk(n.lhs)
        elif k == "BranchStmt":
            pass
        elif k == "BlockStmt":
            with scoped():
                stmts(n.list)
        elif k == "IfStmt":
            with scoped():
                walk(n.init)
                walk(n.cond)
                walk(n.body)
                walk(n.els)
        elif k == "CaseClause":
            for x in n.list:
                walk(x)
            with scoped():
                stmts(n.body)
        elif k == "SwitchStmt":
            with scoped():
                walk(n.init)
                if n.tag is not None:
                    if n.init is not None:
                        top[0] = Scope(top[0])
                    walk(n.tag)
                    if n.init is not None:
                        pass
                stmts(n.body.list)
                if n.tag is not None and n.init is not None:
                    top[0] = top[0].outer
        elif k == "TypeSwitchStmt":
            with scoped():
                walk(n.init)
                with scoped():
                    walk(n.assign)
                    stmts(n.body.list)
        elif k == "CommClause":
            with scoped():
                walk(n.comm)
                stmts(n.body)
        elif k == "SelectStmt":
            stmts(n.body.list)
        elif k == "ForStmt":
            with scoped():
                walk(n.init)
                walk(n.cond)
                walk(n.post)
                walk(n.body)
        elif k == "RangeStmt":
            with scoped():
                walk(n.x)
                lhs = [x for x in (n.key, n.value) if x is not None]
                if lhs:
                    if n.tok == ":=":
                        short_var(n, lhs)
                    else:
                        lhs_walk(lhs)
                walk(n.body)
        elif k == "GenDecl":
            for s in n.specs:
                if n.tok in ("const", "var"):
                    walk(s.type)
                    for v in s.values:
                        walk(v)
                    declare(s, top[0], "con" if n.tok == "const" else "var", s.names)
                elif n.tok == "type":
                    # The scope of a type identifier declared inside a function begins at the identifier.
                    declare(s, top[0], "typ", [s.name])
                    walk(s.type)
        elif k == "FuncDecl":
            with scoped():
                if n.recv is not None:
                    field_list(n.recv, "var")
                func_type(n.type)
                if n.body is not None:
                    stmts(n.body.list)
            if n.recv is None and n.name.name != "init":
                declare(n, pkg, "fun_", [n.name])
        elif k == "KeyValueExpr":
            walk(n.key)
            walk(n.value)
        elif k in ("CommentGroup",):
            pass
        else:
            for c in children(n):
                walk(c)
    for d in file.decls:
        walk(d)
    for i in unresolved:
        if i.obj is None:
            i.obj = pkg.objs.get(i.name)


def parse(src):
    p = Parser(src)
    f = p.file()
    resolve_file(f)
    return f
