#!/usr/bin/env python3
"""Reads the productions and the terminals of /repo/src/parser/parser.lalrpop.
Actions, names of symbols and the position markers @L, @R are dropped.
`productions()` gives a list of (line, left-hand side, [symbol]); a symbol is ('t', token) | ('n', X, '' | '*' | '+' | '?')."""
import re

PATH = "/repo/src/parser/parser.lalrpop"

def strip_comments(s):
    """blank out // comments, keeping line numbers and literals"""
    out = []
    for line in s.split("\n"):
        m = re.match(r"^\s*//", line)
        out.append("" if m else line)
    return "\n".join(out)

TOKEN = re.compile(r'''r\#"(?P<raw2>.*?)"\#|r"(?P<raw>[^"]*)"|"(?P<str>(?:\\.|[^"\\])*)"|(?P<id>[A-Za-z_@][A-Za-z0-9_]*)|(?P<op>=>|[<>{}()\[\],:;=*+?&|.!#'-])|(?P<ws>\s+)''')

def lex(s):
    pos, line, out = 0, 1, []
    while pos < len(s):
        m = TOKEN.match(s, pos)
        if not m:
            raise SystemExit("cannot read %r in line %d" % (s[pos:pos + 20], line))
        k = m.lastgroup
        if k != "ws":
            if k == "raw2": out.append(("lit", 'r#"' + m.group(k) + '"#', line))
            elif k == "raw": out.append(("lit", 'r"' + m.group(k) + '"', line))
            elif k == "str": out.append(("lit", '"' + m.group(k) + '"', line))
            else: out.append((k, m.group(k), line))
        line += m.group(0).count("\n")
        pos = m.end()
    return out

def terminals(toks):
    """literal -> name of the constructor of lexer::Token"""
    i = [k for k, t in enumerate(toks) if t[1] == "extern"][0]
    table = {}
    while not (toks[i][1] == "enum"): i += 1
    while toks[i][1] != "{": i += 1
    depth = 0
    while True:
        if toks[i][1] == "{": depth += 1
        if toks[i][1] == "}":
            depth -= 1
            if depth == 0: return table, i
        if toks[i][0] == "lit" and toks[i + 1][1] == "=>":
            # lexer :: Token :: Name
            j = i + 2
            names = []
            while toks[j][1] != "," and toks[j][1] != "(":
                if toks[j][0] == "id": names.append(toks[j][1])
                j += 1
            assert names[:2] == ["lexer", "Token"] and len(names) == 3, names
            table[toks[i][1]] = names[2]
        i += 1

def skip_action(toks, i):
    """from just after `=>` to the `,` `}` or `;` that ends the alternative"""
    depth = 0
    while i < len(toks):
        x = toks[i][1] if toks[i][0] == "op" else None
        if depth == 0 and x in (",", "}", ";"): return i
        if x in ("{", "(", "["): depth += 1
        if x in ("}", ")", "]"): depth -= 1
        i += 1
    return i

def alternative(toks, i, table):
    """symbols up to `=>`, `,` or `}`"""
    syms = []
    while True:
        k, v, _ = toks[i]
        if k == "op" and v in ("=>", ",", "}", ";"): return syms, i
        if k == "op" and v == "<":
            # <name: Symbol> or <Symbol>
            if toks[i + 2][1] == ":": i += 2
            i += 1
            s, i = symbol(toks, i, table)
            assert toks[i][1] == ">", toks[i]
            i += 1
        else:
            s, i = symbol(toks, i, table)
        if s: syms.append(s)

def symbol(toks, i, table):
    k, v, line = toks[i]
    if k == "lit": s = ("t", table[v])
    elif k == "id" and v in ("@L", "@R"): return None, i + 1
    elif k == "id": s = ("n", v, "")
    else: raise SystemExit("unexpected %r in line %d" % (v, line))
    i += 1
    if toks[i][0] == "op" and toks[i][1] in "*+?":
        assert s[0] == "n", s
        s = ("n", s[1], toks[i][1]); i += 1
    return s, i

def productions():
    toks = lex(strip_comments(open(PATH).read()))
    table, i = terminals(toks)
    i += 2
    out = []
    while i < len(toks):
        if toks[i][1] == "pub": i += 1
        assert toks[i][0] == "id", toks[i]
        lhs = toks[i][1]; i += 1
        assert toks[i][1] == ":", toks[i]
        while toks[i][1] != "=": i += 1   # the type
        i += 1
        block = toks[i][1] == "{"
        if block: i += 1
        while True:
            if block and toks[i][1] == "}":
                i += 1
                if i < len(toks) and toks[i][1] == ";": i += 1
                break
            line = toks[i][2]
            syms, i = alternative(toks, i, table)
            out.append((line, lhs, syms))
            if toks[i][1] == "=>": i = skip_action(toks, i + 1)
            if not block:
                assert toks[i][1] == ";", toks[i]
                i += 1
                break
            if toks[i][1] == ",": i += 1
    return table, out

if __name__ == "__main__":
    table, ps = productions()
    print(len(table), "terminals,", len(ps), "productions")
    for l, a, b in ps:
        print(l, a, "→", " ".join(s[1] + (s[2] if s[0] == "n" else "") if s[0] == "n" else "`%s`" % s[1] for s in b))
