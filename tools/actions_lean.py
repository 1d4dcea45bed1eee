#!/usr/bin/env python3
"""Writes lean/Verif/Spec/Actions.lean (the actions of parser.lalrpop as data) and lean/Verif/Spec/NodeValues.lean (the
values of the model's syntax trees, from src/ast/nodes.rs)."""
import re, os, sys
sys.path.insert(0, os.path.dirname(os.path.abspath(__file__)))
from actions import productions
HERE = os.path.dirname(os.path.abspath(__file__))
NODES = "/repo/src/ast/nodes.rs"

# ---- nodes.rs
def types():
    s = open(NODES).read()
    s = re.sub(r"//[^\n]*", "", s)
    out = {}
    for m in re.finditer(r"pub (struct|enum) (\w+)(?:<T>)? \{", s):
        d, i = 1, m.end()
        while d: d += {"{": 1, "}": -1}.get(s[i], 0); i += 1
        body = s[m.end():i - 1]
        def split(b):
            parts, d, cur = [], 0, ""
            for c in b:
                if c in "<({": d += 1
                if c in ">)}": d -= 1
                if c == "," and d == 0: parts.append(cur.strip()); cur = ""
                else: cur += c
            if cur.strip(): parts.append(cur.strip())
            return parts
        def fields(b): return [(x.split(":")[0].replace("pub", "").strip(), re.sub(r"\s+", "", x.split(":", 1)[1])) for x in split(b)]
        line = s[:m.start()].count("\n") + 1
        if m.group(1) == "struct": out[m.group(2)] = ("struct", fields(body), line)
        else:
            vs = []
            for v in split(body):
                n = re.match(r"\w+", v).group(0); r = v[len(n):].strip()
                if r == "": vs.append((n, None, []))
                elif r[0] == "(": vs.append((n, None, [re.sub(r"\s+", "", x) for x in split(r[1:-1])]))
                else: vs.append((n, [f for f, _ in fields(r[1:-1])], [t for _, t in fields(r[1:-1])]))
            out[m.group(2)] = ("enum", vs, line)
    return out
T = types()
ORDER = {}
for n, (k, b, _) in T.items():
    if k == "struct": ORDER[n] = [f for f, _ in b]
    else:
        for v, fs, _ in b:
            if fs: ORDER[n + "::" + v] = fs

def s(x): return '(str! "%s")' % x
def ss(l): return "[" + ", ".join('str! "%s"' % x for x in l) + "]"
def ex(e):
    k = e[0]
    if k == "var": return '(.var %s)' % s(e[1])
    if k == "text": return '(.text %s)' % s(e[1])
    if k == "node":
        fs, es = e[2], e[3]
        if fs:
            o = ORDER[e[1]]
            assert sorted(o) == sorted(fs), (e[1], fs, o)
            es = [es[fs.index(f)] for f in o]; fs = o
        return '(.node %s %s [%s])' % (s(e[1]), ss(fs), ", ".join(map(ex, es)))
    if k == "vec": return '(.vec [%s])' % ", ".join(map(ex, e[1]))
    if k == "field": return '(.field %s %s)' % (ex(e[1]), s(e[2]))
    if k == "orElse": return '(.orElse %s %s)' % (ex(e[1]), ex(e[2]))
    if k == "block": return '(.block [%s] %s)' % (", ".join(map(st, e[1])), ex(e[2]))
def st(e):
    if e[0] == "let": return '.let_ %s %s' % (s(e[1]), ex(e[2]))
    if e[0] == "push": return '.push %s %s %s' % (s(e[1]), ss(e[2]), ex(e[3]))
    return '.%s %s %s (%s)' % ({"for": "for_", "ifSome": "ifSome"}[e[0]], s(e[1]), ex(e[2]), st(e[3]))

def main():
    _, ps = productions()
    o = ["""import Verif.Spec.RustValue
/-
The actions of src/parser/parser.lalrpop as data, written by tools/actions_lean.py, which reads the file.  The list is
parallel to `grammarFile`.  Fields of structures are listed in the order of src/ast/nodes.rs; `Box::new(e)`,
`String::from(e)`, `e.clone()`, `e.into()`, `e.to_vec()` and `e.to_string()` are written `e`.
-/
namespace Verif

/-- parser.lalrpop 91-1832: the actions, in the order of the file -/
def fileActions : List FAct :="""]
    for i, p in enumerate(ps):
        names = ", ".join('some %s' % s(n) if n else "none" for n in p["names"])
        marks = ", ".join('(%d, %s, str! "%s")' % (a, "true" if b == "L" else "false", c) for a, b, c in p["marks"])
        o.append(("  [" if i == 0 else "   ") + "-- %d\n   ⟨[%s], [%s],\n    %s⟩" % (p["line"], names, marks, ex(p["action"])) + ("," if i + 1 < len(ps) else "]"))
    o.append("\nend Verif")
    open(HERE + "/../lean/Verif/Spec/Actions.lean", "w").write("\n".join(o) + "\n")
    # ---- values
    KW = {"match", "type", "constructor"} & {"match"}
    def camel(x):
        y = x[0].lower() + x[1:]
        return y + "_" if y in KW else y
    def fcamel(f):
        ps = f.split("_"); return ps[0] + "".join(q[0].upper() + q[1:] for q in ps[1:])
    # dependency groups
    def refs(t): return set(re.findall(r"Node\w+", t))
    deps = {}
    for n, (k, b, _) in T.items():
        if k == "struct": deps[n] = set().union(*[refs(t) for _, t in b]) if b else set()
        else: deps[n] = set().union(*[refs(t) for _, _, ts in b for t in ts]) if any(ts for _, _, ts in b) else set()
    names = [n for n in T if n.startswith("Node")]
    reach = {}
    for n in names:
        seen, todo = set(), [n]
        while todo:
            for d in deps[todo.pop()]:
                if d not in seen: seen.add(d); todo.append(d)
        reach[n] = seen
    group = {n: frozenset([m for m in names if m in reach[n] and n in reach[m]]) for n in names}
    done, order = set(), []
    def visit(n):
        if n in done: return
        g = group[n] or frozenset([n])
        done.update(g)
        for m in names:
            if m in g:
                for d in sorted(deps[m]):
                    if d not in g: visit(d)
        order.append([m for m in names if m in g])
    for n in names: visit(n)
    def parse(t):
        m = re.match(r"(\w+)(?:<(.*)>)?$", t)
        h, a = m.group(1), m.group(2)
        return (h, parse(a)) if a else (h, None)
    def lean_ty(t):
        h, a = t
        if h == "Box": return lean_ty(a)
        if h == "WithMetaData": return "W " + par(lean_ty(a))
        if h == "Vec": return "List " + par(lean_ty(a))
        if h == "Option": return "Option " + par(lean_ty(a))
        if h == "String": return "Str"
        return h
    def par(x): return "(" + x + ")" if " " in x else x
    def fn(t, g):
        """a function (Lean text) of type t -> RV; for types of the group g, the auxiliary functions of the mutual block"""
        h, a = t
        if h == "Box": return fn(a, g)
        if h == "String": return "RV.str"
        inner = refs_t(t) & g
        if inner:
            if h == "WithMetaData": return "w" + name_of(a)
            if h == "Vec": return "RV.vecOf l" + name_of(a) if False else ("VEC", "l" + name_of(a))
            if h == "Option": return "o" + name_of(a)
            return h + ".rv"
        if h == "WithMetaData": return "(W.rv %s)" % fn(a, g)
        if h == "Vec": return "(vecRv %s)" % fn(a, g)
        if h == "Option": return "(optRv %s)" % fn(a, g)
        return h + ".rv"
    def refs_t(t): return ({t[0]} if t[0].startswith("Node") else set()) | (refs_t(t[1]) if t[1] else set())
    def name_of(t):
        h, a = t
        if h == "Box": return name_of(a)
        return {"WithMetaData": "W"}.get(h, h) + (name_of(a) if a else "")
    def app(t, x, g):
        f = fn(t, g)
        if isinstance(f, tuple): return ".vec (%s %s)" % (f[1], x)
        return "%s %s" % (f, x)
    out = ["""import Verif.Spec.RustValue
/-
The syntax trees of the model as Rust values; written by tools/actions_lean.py from the types in src/ast/nodes.rs.
-/
namespace Verif

/-- `WithMetaData { node, start, end }` -/
def W.rv {α : Type} (f : α → RV) (w : W α) : RV :=
  .node (str! "WithMetaData") [str! "node", str! "start", str! "end"] [f w.node, .pos w.start, .pos w.stop]

def vecRv {α : Type} (f : α → RV) (l : List α) : RV := .vec (l.map f)

def optRv {α : Type} (f : α → RV) : Option α → RV
  | none => .none
  | some x => .some (f x)
"""]
    lemmas = []
    structs = {m for m in re.findall(r"^structure (\w+)", open(HERE + "/../lean/Verif/Model/Ast.lean").read(), re.M)}
    for g in order:
        gs = set(g); rec = any(deps[n] & gs for n in g)
        body = []; aux = {}
        def need(t):
            h, a = t
            if h == "Box": return need(a)
            if not (refs_t(t) & gs) or h.startswith("Node"): return
            aux[name_of(t)] = t; need(a)
        for n in g:
            k, b, line = T[n]
            L = ["/-- nodes.rs %d -/" % line]
            if k == "struct":
                if n in structs:
                    L.append("def %s.rv (x : %s) : RV :=" % (n, n))
                    L.append("  .node %s %s [%s]" % (s(n), ss([f for f, _ in b]), ", ".join(app(parse(t), "x." + fcamel(f), gs) for f, t in b)))
                else:
                    L.append("def %s.rv : %s → RV" % (n, n))
                    vs = ["x%d" % i for i in range(len(b))]
                    L.append("  | .mk %s => .node %s %s [%s]" % (" ".join(vs), s(n), ss([f for f, _ in b]), ", ".join(app(parse(t), v, gs) for (f, t), v in zip(b, vs))))
                for f, t in b: need(parse(t))
            else:
                L.append("def %s.rv : %s → RV" % (n, n))
                for v, fs, ts in b:
                    vs = ["x%d" % i for i in range(len(ts))]
                    L.append("  | .%s%s => .node %s %s [%s]" % (camel(v), "".join(" " + x for x in vs), s(n + "::" + v), ss(fs or []), ", ".join(app(parse(t), x, gs) for t, x in zip(ts, vs))))
                    for t in ts: need(parse(t))
            body.append("\n".join(L))
        for a, t in aux.items():
            h, i = t
            if h == "WithMetaData":
                body.append("def w%s : %s → RV\n  | ⟨n, s, e⟩ => .node (str! \"WithMetaData\") [str! \"node\", str! \"start\", str! \"end\"] [%s, .pos s, .pos e]" % (name_of(i), lean_ty(t), app(i, "n", gs)))
                lemmas.append("theorem w%s_eq (x : %s) : w%s x = W.rv %s x := by cases x; rfl" % (name_of(i), lean_ty(t), name_of(i), fn(i, gs)))
            if h == "Vec":
                body.append("def l%s : %s → List RV\n  | [] => []\n  | x :: l => %s :: l%s l" % (name_of(i), lean_ty(t), app(i, "x", gs), name_of(i)))
                f = "(W.rv %s)" % fn(i[1], gs) if i[0] == "WithMetaData" else fn(i, gs)
                pr = "w%s_eq" % name_of(i[1]) if i[0] == "WithMetaData" else None
                lemmas.append("theorem l%s_eq (l : %s) : l%s l = l.map %s := by\n  induction l with\n  | nil => rfl\n  | cons x l ih => simp only [l%s, List.map_cons, ih%s]" % (name_of(i), lean_ty(t), name_of(i), f, name_of(i), ", " + pr if pr else ""))
            if h == "Option":
                body.append("def o%s : %s → RV\n  | none => .none\n  | some x => .some (%s)" % (name_of(i), lean_ty(t), app(i, "x", gs)))
                f = "(W.rv %s)" % fn(i[1], gs)
                lemmas.append("theorem o%s_eq (x : %s) : o%s x = optRv %s x := by\n  cases x with\n  | none => rfl\n  | some x => simp only [o%s, optRv, w%s_eq]" % (name_of(i), lean_ty(t), name_of(i), f, name_of(i), name_of(i[1])))
        out.append(("mutual\n" if rec else "") + "\n\n".join(body) + ("\nend\n" if rec else "\n"))
    def lemmaorder(x): return {"w": 0, "l": 1, "o": 2}[x.split()[1][0]]
    lemmas.sort(key=lemmaorder)
    out.append("\n\n".join(lemmas))
    # Val
    src = open(HERE + "/../lean/Verif/Spec/Grammar.lean").read()
    v = src[src.index("@[reducible] def Val"):]
    v = v[:v.index("\n\n")]
    vtext = v
    out.append("\n/-- the value of a nonterminal as a Rust value -/\ndef rv : (n : NT) → Val n → RV")
    def vty(t):
        t = t.strip().strip("()") if t.strip().startswith("(") else t.strip()
        if t.startswith("W "): return "W.rv " + (vtyp(t[2:]))
        if t.startswith("List ("): return "vecRv (" + vty(t[5:]) + ")"
        if t == "Str": return "RV.str"
        return t + ".rv"
    def vtyp(t):
        r = vty(t)
        return "(" + r + ")" if " " in r else r
    for m in re.finditer(r"^  \| \.(\w+)( n)? => (.*)$", v, re.M):
        n, rec, t = m.groups()
        if n in ("star", "plus"): out.append("  | .%s n => vecRv (rv n)" % n)
        elif n == "opt": out.append("  | .opt n => optRv (rv n)")
        else: out.append("  | .%s => %s" % (n, vty(t)))
    out.append("\nend Verif")
    open(HERE + "/../lean/Verif/Spec/NodeValues.lean", "w").write("\n".join(out) + "\n")
    # ---- injectivity
    def inj(t, g):
        h, a = t
        if h == "Box": return inj(a, g)
        if h == "String": return "strInj"
        if refs_t(t) & g:
            if h == "WithMetaData": return "w%s_inj" % name_of(a)
            if h == "Vec": return "l%s_inj" % name_of(a)
            if h == "Option": return "o%s_inj" % name_of(a)
            return h + ".rv_inj"
        if h == "WithMetaData": return "(W.rv_inj %s)" % inj(a, g)
        if h == "Vec": return "(vecRv_inj %s)" % inj(a, g)
        if h == "Option": return "(optRv_inj %s)" % inj(a, g)
        return h + ".rv_inj"
    out = ["""import Verif.Spec.NodeValues
/-
Different trees are different Rust values (written by tools/actions_lean.py).
-/
namespace Verif

theorem strInj (a b : Str) (h : RV.str a = RV.str b) : a = b := RV.str.inj h

theorem W.rv_inj {α : Type} {f : α → RV} (hf : ∀ a b, f a = f b → a = b) (a b : W α) (h : W.rv f a = W.rv f b) :
    a = b := by
  obtain ⟨n, s, e⟩ := a
  obtain ⟨n', s', e'⟩ := b
  simp only [W.rv, RV.node.injEq, List.cons.injEq, RV.pos.injEq, and_true, true_and] at h
  obtain ⟨h1, rfl, rfl⟩ := h
  rw [hf _ _ h1]

theorem map_inj {α : Type} {f : α → RV} (hf : ∀ a b, f a = f b → a = b) (a b : List α) (h : a.map f = b.map f) :
    a = b := by
  induction a generalizing b with
  | nil => cases b with
    | nil => rfl
    | cons y b => cases h
  | cons x a ih => cases b with
    | nil => cases h
    | cons y b =>
      simp only [List.map_cons, List.cons.injEq] at h
      rw [hf _ _ h.1, ih b h.2]

theorem vecRv_inj {α : Type} {f : α → RV} (hf : ∀ a b, f a = f b → a = b) (a b : List α) (h : vecRv f a = vecRv f b) :
    a = b := map_inj hf a b (RV.vec.inj h)

theorem RV.some_inj {a b : RV} (h : RV.some a = RV.some b) : a = b := by
  simpa [RV.some] using h

theorem RV.some_ne_none {a : RV} : RV.some a ≠ RV.none := by
  simp [RV.some, RV.none]

theorem optRv_inj {α : Type} {f : α → RV} (hf : ∀ a b, f a = f b → a = b) (a b : Option α) (h : optRv f a = optRv f b) :
    a = b := by
  cases a with
  | none => cases b with
    | none => rfl
    | some y => exact absurd h.symm RV.some_ne_none
  | some x => cases b with
    | none => exact absurd h RV.some_ne_none
    | some y => rw [hf _ _ (RV.some_inj h)]
"""]
    for g in order:
        gs = set(g); rec = any(deps[n] & gs for n in g)
        body = []; aux = {}
        def need(t):
            h, a = t
            if h == "Box": return need(a)
            if not (refs_t(t) & gs) or h.startswith("Node"): return
            aux[name_of(t)] = t; need(a)
        def proof(n, ts, cs):
            L = []
            if not ts:
                L.append("    cases b <;> first | rfl | (simp [%s.rv] at h; done)" % n)
                return L
            ys = ["y%d" % i for i in range(len(ts))]
            L.append("    cases b <;> simp [%s.rv] at h" % n)
            L.append("    rename_i %s" % " ".join(ys))
            for i, t in enumerate(ts):
                hh = "h" + ".2" * i + (".1" if i + 1 < len(ts) else "")
                L.append("    have e%d := %s x%d y%d %s" % (i, inj(parse(t), gs), i, i, hh))
            L.append("    rw [%s]" % ", ".join("e%d" % i for i in range(len(ts))))
            return L
        for n in g:
            k, b, line = T[n]
            L = ["theorem %s.rv_inj : ∀ a b : %s, a.rv = b.rv → a = b" % (n, n)]
            if k == "struct":
                vs = ["x%d" % i for i in range(len(b))]
                L.append("  | ⟨%s⟩, b, h => by" % ", ".join(vs))
                L += proof(n, [t for _, t in b], 1)
                for f, t in b: need(parse(t))
            else:
                for v, fs, ts in b:
                    vs = ["x%d" % i for i in range(len(ts))]
                    L.append("  | .%s%s, b, h => by" % (camel(v), "".join(" " + x for x in vs)))
                    L += proof(n, ts, len(b))
                    for t in ts: need(parse(t))
            body.append("\n".join(L))
        for a, t in aux.items():
            h, i = t
            if h == "WithMetaData":
                body.append("theorem w%s_inj : ∀ a b : %s, w%s a = w%s b → a = b\n  | ⟨n, s, e⟩, ⟨n', s', e'⟩, h => by\n    simp only [w%s, RV.node.injEq, List.cons.injEq, RV.pos.injEq, and_true, true_and] at h\n    obtain ⟨h1, rfl, rfl⟩ := h\n    rw [%s n n' h1]" % (name_of(i), lean_ty(t), name_of(i), name_of(i), name_of(i), inj(i, gs)))
            if h == "Vec":
                n = name_of(i)
                body.append("theorem l%s_inj : ∀ a b : %s, l%s a = l%s b → a = b\n  | [], [], _ => rfl\n  | [], _ :: _, h => by simp [l%s] at h\n  | _ :: _, [], h => by simp [l%s] at h\n  | x :: l, y :: m, h => by\n    simp only [l%s, List.cons.injEq] at h\n    rw [%s x y h.1, l%s_inj l m h.2]" % (n, lean_ty(t), n, n, n, n, n, inj(i, gs), n))
            if h == "Option":
                n = name_of(i)
                body.append("theorem o%s_inj : ∀ a b : %s, o%s a = o%s b → a = b\n  | none, none, _ => rfl\n  | none, some _, h => absurd h.symm RV.some_ne_none\n  | some _, none, h => absurd h RV.some_ne_none\n  | some x, some y, h => by\n    simp only [o%s] at h\n    rw [%s x y (RV.some_inj h)]" % (n, lean_ty(t), n, n, n, inj(i, gs)))
        out.append(("mutual\n" if rec else "") + "\n\n".join(body) + ("\nend\n" if rec else "\n"))
    out.append("theorem rv_inj : ∀ (n : NT) (a b : Val n), rv n a = rv n b → a = b")
    def vinj(t):
        t = t.strip().strip("()") if t.strip().startswith("(") else t.strip()
        if t.startswith("W "): return "W.rv_inj " + vinjp(t[2:])
        if t.startswith("List ("): return "vecRv_inj (" + vinj(t[5:]) + ")"
        if t == "Str": return "strInj"
        return t + ".rv_inj"
    def vinjp(t):
        r = vinj(t)
        return "(" + r + ")" if " " in r else r
    for m in re.finditer(r"^  \| \.(\w+)( n)? => (.*)$", vtext, re.M):
        n, r, t = m.groups()
        if n in ("star", "plus"): out.append("  | .%s n => vecRv_inj (rv_inj n)" % n)
        elif n == "opt": out.append("  | .opt n => optRv_inj (rv_inj n)")
        else: out.append("  | .%s => %s" % (n, vinj(t)))
    out.append("\nend Verif")
    open(HERE + "/../lean/Verif/Proofs/NodeValues.lean", "w").write("\n".join(out) + "\n")
if __name__ == "__main__": main()
