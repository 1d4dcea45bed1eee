#!/usr/bin/env python3
"""Reads the productions of /repo/src/parser/parser.lalrpop with the names of their symbols, the position markers and the
actions.  `productions()` gives a list of dicts with line, lhs, syms, names, marks, action.  An action is
  ('var', x) | ('text', s) | ('node', path, [field], [expr]) | ('vec', [expr]) | ('field', e, f) | ('orElse', e, d) |
  ('block', [stmt], e);  a statement is ('let', x, e) | ('push', x, [field], e) | ('for', y, e, stmt) | ('ifSome', y, e, stmt).
`Box::new`, `.into()`, `.clone()`, `.to_vec()`, `.to_string()` and `String::from` do not change the value they are given."""
import sys, os
sys.path.insert(0, os.path.dirname(os.path.abspath(__file__)))
import grammar
from grammar import lex, strip_comments, terminals, symbol, PATH

class P:
    def __init__(self, toks, i): self.t = toks; self.i = i
    def peek(self, k=0): return self.t[self.i + k][1] if self.i + k < len(self.t) else None
    def kind(self, k=0): return self.t[self.i + k][0]
    def next(self):
        x = self.t[self.i][1]; self.i += 1; return x
    def expect(self, *xs):
        for x in xs:
            assert self.peek() == x, (x, self.t[self.i])
            self.i += 1
    def is_(self, *xs): return all(self.peek(k) == x for k, x in enumerate(xs))
    def path(self):
        """a::b::<T> -> [a, b]; generic arguments are dropped"""
        parts = [self.next()]
        while self.is_(":", ":"):
            self.expect(":", ":")
            if self.peek() == "<": self.generics()
            else: parts.append(self.next())
        return parts
    def generics(self):
        d = 0
        while True:
            x = self.next()
            if x == "<": d += 1
            if x == ">":
                d -= 1
                if d == 0: return
    def args(self, close):
        out = []
        while self.peek() != close:
            out.append(self.expr())
            if self.peek() == ",": self.next()
        self.expect(close)
        return out
    def expr(self):
        e = self.primary()
        while self.peek() == ".":
            self.next(); m = self.next()
            if self.peek() == "(":
                self.next(); a = self.args(")")
                if m in ("clone", "to_vec", "into", "to_string"):
                    assert a == []
                elif m == "unwrap_or":
                    assert len(a) == 1; e = ("orElse", e, a[0])
                else: raise SystemExit("method %s in line %d" % (m, self.t[self.i][2]))
            else: e = ("field", e, m)
        return e
    def primary(self):
        k, v, line = self.t[self.i]
        if k == "lit":
            self.next(); assert v[0] == '"' and "\\" not in v
            return ("text", v[1:-1])
        if v == "{": return self.block()
        if v == "[":
            self.next(); return ("vec", self.args("]"))
        assert k == "id", (k, v, line)
        if v == "vec" and self.peek(1) == "!":
            self.i += 2; self.expect("["); return ("vec", self.args("]"))
        p = self.path()
        if p == ["Vec", "new"]:
            self.expect("(", ")"); return ("vec", [])
        if p == ["Box", "new"] or p == ["String", "from"]:
            self.expect("("); a = self.args(")"); assert len(a) == 1; return a[0]
        if self.peek() == "(":
            self.next(); return ("node", "::".join(p), [], self.args(")"))
        if self.peek() == "{":
            self.next(); fs, es = [], []
            while self.peek() != "}":
                f = self.next(); fs.append(f)
                if self.peek() == ":":
                    self.next(); es.append(self.expr())
                else: es.append(("var", f))
                if self.peek() == ",": self.next()
            self.expect("}")
            return ("node", "::".join(p), fs, es)
        if len(p) == 1 and p[0] != "None": return ("var", p[0])
        return ("node", "::".join(p), [], [])
    def block(self):
        self.expect("{"); ss = []
        while True:
            s = self.stmt()
            if s is None: break
            ss.append(s)
        e = self.expr(); self.expect("}")
        return ("block", ss, e) if ss else e
    def stmt(self):
        if self.peek() == "let":
            self.next()
            self.expect("mut"); x = self.next()
            while self.peek() != "=": self.next()
            self.next(); e = self.expr(); self.expect(";")
            return ("let", x, e)
        if self.peek() == "for":
            self.next(); y = self.next(); self.expect("in"); e = self.expr_no_struct()
            self.expect("{"); s = self.stmt(); self.expect("}")
            return ("for", y, e, s)
        if self.peek() == "if":
            self.next(); self.expect("let", "Some", "("); y = self.next(); self.expect(")", "="); e = self.expr_no_struct()
            self.expect("{"); s = self.stmt(); self.expect("}")
            return ("ifSome", y, e, s)
        # x.f.g.push(e);
        j = self.i
        if self.kind() == "id":
            x = self.next(); path = []
            while self.peek() == ".":
                self.next(); path.append(self.next())
            if path and path[-1] == "push" and self.peek() == "(":
                self.next(); e = self.expr(); self.expect(")", ";")
                return ("push", x, path[:-1], e)
        self.i = j
        return None
    def expr_no_struct(self):
        return ("var", self.next())

def productions():
    toks = lex(strip_comments(open(PATH).read()))
    table, i = terminals(toks)
    i += 2
    out = []
    while i < len(toks):
        if toks[i][1] == "pub": i += 1
        lhs = toks[i][1]; i += 1
        assert toks[i][1] == ":"
        while toks[i][1] != "=": i += 1
        i += 1
        block = toks[i][1] == "{"
        if block: i += 1
        while True:
            if block and toks[i][1] == "}":
                i += 1
                if i < len(toks) and toks[i][1] == ";": i += 1
                break
            line = toks[i][2]
            syms, names, marks = [], [], []
            while not (toks[i][0] == "op" and toks[i][1] in ("=>", ",", "}", ";")):
                name = None
                if toks[i][1] == "<":
                    i += 1
                    if toks[i + 1][1] == ":": name = toks[i][1]; i += 2
                    what = toks[i][1]
                    s, i = symbol(toks, i, table)
                    assert toks[i][1] == ">"; i += 1
                else:
                    what = toks[i][1]
                    s, i = symbol(toks, i, table)
                if s is None: marks.append((len(syms), what[1], name))
                else: syms.append(s); names.append(name)
            assert toks[i][1] == "=>", toks[i]
            p = P(toks, i + 1)
            e = p.expr(); i = p.i
            assert toks[i][1] in (",", "}", ";"), toks[i]
            out.append(dict(line=line, lhs=lhs, syms=syms, names=names, marks=marks, action=e))
            if not block:
                assert toks[i][1] == ";"; i += 1; break
            if toks[i][1] == ",": i += 1
    return table, out

if __name__ == "__main__":
    t, ps = productions()
    t2, qs = grammar.productions()
    assert [(p["line"], p["lhs"], p["syms"]) for p in ps] == qs
    for p in ps: print(p["line"], p["lhs"], p["names"], p["marks"], p["action"])
