#!/usr/bin/env python3
"""Writes lean/Verif/Spec/NodeTypes.lean (the type declarations of src/ast/nodes.rs as data) and
lean/Verif/Proofs/NodeTypes.lean (the trees of the model are exactly the values of these types)."""
import re, os, sys
sys.path.insert(0, os.path.dirname(os.path.abspath(__file__)))
from actions_lean import T, s, ss, HERE
names = [n for n in T if n.startswith("Node")]
KW = {"match"}
def camel(x):
    y = x[0].lower() + x[1:]
    return y + "_" if y in KW else y
def parse(t):
    m = re.match(r"(\w+)(?:<(.*)>)?$", t)
    h, a = m.group(1), m.group(2)
    if h == "Box": return parse(a)
    return (h, parse(a)) if a else (h, None)
def rt(t):
    h, a = t
    if h == "String": return ".string"
    if h.startswith("Node"): return ".named .%s" % h
    return ".%s (%s)" % ({"WithMetaData": "located", "Vec": "vec", "Option": "option"}[h], rt(a))
def variants(n):
    k, b, line = T[n]
    if k == "struct": return [("mk", n, [f for f, _ in b], [parse(t) for _, t in b])]
    return [(camel(v), n + "::" + v, fs or [], [parse(t) for t in ts]) for v, fs, ts in b]
structs = set(re.findall(r"^structure (\w+)", open(HERE + "/../lean/Verif/Model/Ast.lean").read(), re.M))

def spec():
    o = ["""import Verif.Spec.RustValue
/-
The type declarations of src/ast/nodes.rs as data, written by tools/node_types.py, which reads the file, and which Rust
values are values of these types.
-/
namespace Verif

/-- the types declared in nodes.rs (besides `WithMetaData<T>`) -/
inductive TName where
"""+"\n".join("  | "+n for n in names)+"""
  deriving DecidableEq

/-- the types that occur in the declarations (a `Box<T>` is a `T`) -/
inductive RT where
  | string
  | named (t : TName)
  /-- `WithMetaData<T>`, nodes.rs 7-14 -/
  | located (t : RT)
  | vec (t : RT)
  | option (t : RT)
  deriving DecidableEq

/-- a variant of an enumeration (or a structure): its path, the names of its fields (none for a tuple), their types -/
structure Variant where
  path : Str
  fields : List Str
  types : List RT
  deriving DecidableEq

/-- nodes.rs 26-824: the variants of the types, in the order of the declarations -/
def TName.variants : TName → List Variant"""]
    for n in names:
        o.append("  -- %d" % T[n][2])
        o.append("  | .%s => [" % n + ",\n      ".join("⟨%s, %s, [%s]⟩" % (s(p)[1:-1], ss(fs), ", ".join(rt(t) for t in ts)) for _, p, fs, ts in variants(n)) + "]")
    o.append("""
mutual
/-- The value is a value of the type. -/
inductive HasType : RV → RT → Prop where
  | string (x : Str) : HasType (.str x) .string
  | located {v : RV} {t : RT} (start stop : Pos) (h : HasType v t) :
      HasType (.node (str! "WithMetaData") [str! "node", str! "start", str! "end"] [v, .pos start, .pos stop]) (.located t)
  | vec {l : List RV} {t : RT} (h : HasTypeAll l t) : HasType (.vec l) (.vec t)
  | none (t : RT) : HasType .none (.option t)
  | some {v : RV} {t : RT} (h : HasType v t) : HasType (.some v) (.option t)
  | node {t : TName} {c : Variant} {vs : List RV} (hc : c ∈ t.variants) (h : HasTypes vs c.types) :
      HasType (.node c.path c.fields vs) (.named t)

/-- The values are values of the types, in order. -/
inductive HasTypes : List RV → List RT → Prop where
  | nil : HasTypes [] []
  | cons {v : RV} {t : RT} {vs : List RV} {ts : List RT} (h : HasType v t) (hs : HasTypes vs ts) :
      HasTypes (v :: vs) (t :: ts)

/-- The values are all values of the type. -/
inductive HasTypeAll : List RV → RT → Prop where
  | empty (t : RT) : HasTypeAll [] t
  | more {v : RV} {t : RT} {vs : List RV} (h : HasType v t) (hs : HasTypeAll vs t) : HasTypeAll (v :: vs) t
end

end Verif""")
    open(HERE + "/../lean/Verif/Spec/NodeTypes.lean", "w").write("\n".join(o) + "\n")

def proofs():
    eqs = re.findall(r'^theorem (\w+_eq) ', open(HERE + '/../lean/Verif/Spec/NodeValues.lean').read(), re.M)
    # auxiliary functions of the mutual blocks
    aux = re.findall(r'^def ([wlo]\w*Node\w+) : (.*) → (?:List )?RV', open(HERE + '/../lean/Verif/Spec/NodeValues.lean').read(), re.M)
    o = ["""import Verif.Spec.NodeTypes
import Verif.Proofs.NodeValues
/-
The trees of the model are exactly the values of the types of nodes.rs (written by tools/node_types.py).
-/
set_option linter.unusedSimpArgs false
namespace Verif

/-- the types of the model -/
@[reducible] def TName.El : TName → Type"""]
    for n in names: o.append("  | .%s => Verif.%s" % (n, n))
    o.append("""
/-- the trees of the model as Rust values -/
def TName.rv : (t : TName) → t.El → RV""")
    for n in names: o.append("  | .%s => Verif.%s.rv" % (n, n))
    o.append("""
@[reducible] def RT.El : RT → Type
  | .string => Str
  | .named t => t.El
  | .located t => W t.El
  | .vec t => List t.El
  | .option t => Option t.El

def RT.rv : (t : RT) → t.El → RV
  | .string => RV.str
  | .named t => t.rv
  | .located t => W.rv t.rv
  | .vec t => vecRv t.rv
  | .option t => optRv t.rv

@[reducible] def Els : List RT → Type
  | [] => Unit
  | t :: ts => t.El × Els ts

def rvs : (ts : List RT) → Els ts → List RV
  | [], _ => []
  | t :: ts, (x, xs) => t.rv x :: rvs ts xs

theorem all_map {t : RT} {l : List t.El} (h : ∀ x ∈ l, HasType (t.rv x) t) : HasTypeAll (l.map t.rv) t := by
  induction l with
  | nil => exact .empty t
  | cons x l ih => exact .more (h x (by simp)) (ih fun y hy => h y (by simp [hy]))
""")
    # soundness
    order = []
    def refs(t): return ({t[0]} if t[0].startswith("Node") else set()) | (refs(t[1]) if t[1] else set())
    deps = {n: set().union(*[refs(t) for _, _, _, ts in variants(n) for t in ts]) if any(ts for _, _, _, ts in variants(n)) else set() for n in names}
    reach = {}
    for n in names:
        seen, todo = set(), [n]
        while todo:
            for d in deps[todo.pop()]:
                if d not in seen: seen.add(d); todo.append(d)
        reach[n] = seen
    done = set()
    def visit(n):
        if n in done: return
        g = [m for m in names if m in reach[n] and n in reach[m]] or [n]
        done.update(g)
        for m in g:
            for d in sorted(deps[m]):
                if d not in g: visit(d)
        order.append(g)
    for n in names: visit(n)
    def name_of(t): return {"WithMetaData": "W"}.get(t[0], t[0]) + (name_of(t[1]) if t[1] else "")
    def lean_ty(t):
        h, a = t
        if h == "WithMetaData": return "W " + par(lean_ty(a))
        if h == "Vec": return "List " + par(lean_ty(a))
        if h == "Option": return "Option " + par(lean_ty(a))
        if h == "String": return "Str"
        return h
    def par(x): return "(" + x + ")" if " " in x else x
    def ht(t, g, x):
        h, a = t
        if h == "String": return ".string _"
        if refs(t) & g:
            if h == "WithMetaData": return "w%s_ht %s" % (name_of(a), x)
            if h == "Vec": return ".vec (l%s_ht %s)" % (name_of(a), x)
            if h == "Option": return "o%s_ht %s" % (name_of(a), x)
            return "%s.ht %s" % (h, x)
        if h == "WithMetaData": return "W.ht (fun x => %s) %s" % (ht(a, g, "x"), x)
        if h == "Vec": return "vec_ht (fun x => %s) %s" % (ht(a, g, "x"), x)
        if h == "Option": return "opt_ht (fun x => %s) %s" % (ht(a, g, "x"), x)
        return "%s.ht %s" % (h, x)
    o.append("""theorem W.ht {α : Type} {f : α → RV} {t : RT} (h : ∀ x, HasType (f x) t) (w : W α) : HasType (W.rv f w) (.located t) :=
  .located _ _ (h _)
theorem vec_ht {α : Type} {f : α → RV} {t : RT} (h : ∀ x, HasType (f x) t) (l : List α) : HasType (vecRv f l) (.vec t) := by
  refine .vec ?_
  induction l with
  | nil => exact .empty t
  | cons x l ih => exact .more (h x) ih
theorem opt_ht {α : Type} {f : α → RV} {t : RT} (h : ∀ x, HasType (f x) t) : ∀ x : Option α, HasType (optRv f x) (.option t)
  | none => .none t
  | some x => .some (h x)
""")
    for g in order:
        gs = set(g); rec = any(deps[n] & gs for n in g)
        body = []; ax = {}
        def need(t):
            if not (refs(t) & gs) or t[0].startswith("Node"): return
            ax[name_of(t)] = t; need(t[1])
        for n in g:
            vs = variants(n)
            L = ["theorem %s.ht : ∀ x : %s, HasType x.rv (.named .%s)" % (n, n, n)]
            for i, (c, p, fs, ts) in enumerate(vs):
                for t in ts: need(t)
                xs = ["x%d" % j for j in range(len(ts))]
                pat = "⟨%s⟩" % ", ".join(xs) if c == "mk" else ".%s%s" % (c, "".join(" " + x for x in xs))
                tys = "HasTypes.nil"
                for t, x in reversed(list(zip(ts, xs))): tys = ".cons (%s) (%s)" % (ht(t, gs, x), tys)
                L.append("  | %s => .node (t := .%s) (c := ⟨%s, %s, [%s]⟩) (by simp [TName.variants]) (%s)" % (pat, n, s(p)[1:-1], ss(fs), ", ".join(rt(t) for t in ts), tys))
            body.append("\n".join(L))
        for a, t in ax.items():
            h, i = t
            if h == "WithMetaData":
                body.append("theorem w%s_ht : ∀ x : %s, HasType (w%s x) (%s)\n  | ⟨n, s, e⟩ => .located s e (%s)" % (name_of(i), lean_ty(t), name_of(i), rt(t), ht(i, gs, "n")))
            if h == "Vec":
                body.append("theorem l%s_ht : ∀ x : %s, HasTypeAll (l%s x) (%s)\n  | [] => .empty _\n  | x :: l => .more (%s) (l%s_ht l)" % (name_of(i), lean_ty(t), name_of(i), rt(i), ht(i, gs, "x"), name_of(i)))
            if h == "Option":
                body.append("theorem o%s_ht : ∀ x : %s, HasType (o%s x) (%s)\n  | none => .none _\n  | some x => .some (%s)" % (name_of(i), lean_ty(t), name_of(i), rt(t), ht(i, gs, "x")))
        o.append(("mutual\n" if rec else "") + "\n\n".join(body) + ("\nend\n" if rec else "\n"))
    o.append("theorem TName.ht : ∀ (t : TName) (x : t.El), HasType (t.rv x) (.named t)")
    for n in names: o.append("  | .%s, x => Verif.%s.ht x" % (n, n))
    # completeness
    o.append("""
theorem RT.ht : ∀ (t : RT) (x : t.El), HasType (t.rv x) t
  | .string, x => .string x
  | .named t, x => t.ht x
  | .located t, x => W.ht t.ht x
  | .vec t, x => vec_ht t.ht x
  | .option t, x => opt_ht t.ht x
""")
    for n in names:
        L = ["theorem %s.made {c : Variant} (hc : c ∈ TName.variants .%s) (xs : Els c.types) :" % (n, n),
             "    ∃ x : %s, x.rv = .node c.path c.fields (rvs c.types xs) := by" % n]
        vs = variants(n)
        L.append("  simp only [TName.variants, List.mem_cons, List.not_mem_nil, or_false] at hc")
        L.append("  rcases hc with %s" % " | ".join(["rfl"] * len(vs)))
        for c, p, fs, ts in vs:
            xs = ["x%d" % j for j in range(len(ts))]
            L.append("  · obtain ⟨%s⟩ := xs" % ", ".join(xs + ["_"]) if ts else "  · cases xs")
            con = "⟨%s⟩" % ", ".join(xs) if c == "mk" else ".%s%s" % (c, "".join(" " + x for x in xs))
            L.append("    exact ⟨%s, by simp only [%s.rv, rvs, RT.rv, TName.rv, vecRv, %s]⟩" % (con, n, ", ".join(eqs)))
        o.append("\n".join(L) + "\n")
    o.append("theorem TName.made : ∀ (t : TName) {c : Variant} (_ : c ∈ t.variants) (xs : Els c.types),\n    ∃ x : t.El, t.rv x = .node c.path c.fields (rvs c.types xs)")
    for n in names: o.append("  | .%s, _, hc, xs => Verif.%s.made hc xs" % (n, n))
    o.append("\ntheorem TName.rv_inj : ∀ (t : TName) (x y : t.El), t.rv x = t.rv y → x = y")
    for n in names: o.append("  | .%s => Verif.%s.rv_inj" % (n, n))
    o.append("""
theorem RT.rv_inj : ∀ (t : RT) (x y : t.El), t.rv x = t.rv y → x = y
  | .string => strInj
  | .named t => t.rv_inj
  | .located t => W.rv_inj t.rv_inj
  | .vec t => vecRv_inj t.rv_inj
  | .option t => optRv_inj t.rv_inj

mutual
theorem HasType.el : ∀ {v : RV} {t : RT}, HasType v t → ∃ x : t.El, t.rv x = v
  | _, _, .string x => ⟨x, rfl⟩
  | _, _, .located s e h => by
    obtain ⟨x, rfl⟩ := h.el
    exact ⟨⟨x, s, e⟩, rfl⟩
  | _, _, .vec h => by
    obtain ⟨l, rfl⟩ := h.els
    exact ⟨l, rfl⟩
  | _, _, .none t => ⟨(none : Option t.El), rfl⟩
  | _, _, .some h => by
    obtain ⟨x, rfl⟩ := h.el
    exact ⟨some x, rfl⟩
  | _, _, .node (t := t) hc h => by
    obtain ⟨xs, rfl⟩ := h.els
    exact t.made hc xs
theorem HasTypes.els : ∀ {vs : List RV} {ts : List RT}, HasTypes vs ts → ∃ xs : Els ts, rvs ts xs = vs
  | _, _, .nil => ⟨(), rfl⟩
  | _, _, .cons h hs => by
    obtain ⟨x, rfl⟩ := h.el
    obtain ⟨xs, rfl⟩ := hs.els
    exact ⟨(x, xs), rfl⟩
theorem HasTypeAll.els : ∀ {vs : List RV} {t : RT}, HasTypeAll vs t → ∃ l : List t.El, l.map t.rv = vs
  | _, _, .empty _ => ⟨[], rfl⟩
  | _, _, .more h hs => by
    obtain ⟨x, rfl⟩ := h.el
    obtain ⟨xs, rfl⟩ := hs.els
    exact ⟨x :: xs, rfl⟩
end

end Verif""")
    open(HERE + "/../lean/Verif/Proofs/NodeTypes.lean", "w").write("\n".join(o) + "\n")
spec(); proofs()
