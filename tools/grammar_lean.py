#!/usr/bin/env python3
"""Writes lean/Verif/Spec/GrammarFile.lean from /repo/src/parser/parser.lalrpop."""
import re, sys, os
sys.path.insert(0, os.path.dirname(__file__))
from grammar import productions
table, ps = productions()
LEAN_KEYWORDS = {"at", "forall", "import", "let", "in", "match", "with", "end", "fun", "exists", "of", "as"}
TEXT = {"ByStrWithSize", "Number", "HexNumber", "Identifier", "TemplateIdentifier", "CustomIdentifier", "SpecialIdentifier", "StringLiteral"}
def tok(x):
    y = x[0].lower() + x[1:]
    if y in LEAN_KEYWORDS: y += "_"
    return "(." + y + " [])" if x in TEXT else "." + y
names = []
for _, a, _ in ps:
    if a not in names: names.append(a)
def sym(s):
    if s[0] == "t": return ".tok " + tok(s[1])
    return {"": ".non", "*": ".star", "+": ".plus", "?": ".opt"}[s[2]] + " ." + s[1]
out = []
out.append("""import Verif.Model.Token
/-
The grammar file src/parser/parser.lalrpop as data.  Written by tools/grammar_lean.py, which reads the file; the
names of the nonterminals are those of the file.  Dropped: the actions, the names given to symbols, and the position
markers `@L` and `@R` (they derive the empty word).  A terminal is a token with its text erased.
-/
namespace Verif

/-- the nonterminals of parser.lalrpop -/
inductive GName where""")
line = "  "
for n in names:
    if len(line) + len(n) > 105: out.append(line.rstrip()); line = "  "
    line += "| " + n + " "
out.append(line.rstrip())
out.append("""deriving DecidableEq, Repr

/-- a symbol on the right of a production: a terminal, `X`, `X*`, `X+`, `X?` -/
inductive FSym where
  | tok (t : Token)
  | non (x : GName)
  | star (x : GName)
  | plus (x : GName)
  | opt (x : GName)
deriving DecidableEq, Repr

/-- a production, with the line it starts on -/
structure FProd where
  line : Nat
  lhs : GName
  rhs : List FSym
deriving DecidableEq, Repr

/-- parser.lalrpop 13-74: the terminals, in the order of the file -/
def fileTerminals : List Token :=""")
ts = [tok(v) for v in table.values()]
line = "  ["
for i, t in enumerate(ts):
    t = t.strip("()") if False else t
    piece = t + (", " if i + 1 < len(ts) else "]")
    if len(line) + len(piece) > 108: out.append(line.rstrip()); line = "   "
    line += piece
out.append(line)
out.append("")
out.append("/-- parser.lalrpop 91-1832: the productions, in the order of the file -/")
out.append("def grammarFile : List FProd :=")
for i, (l, a, b) in enumerate(ps):
    out.append(("  [" if i == 0 else "   ") + "⟨%d, .%s, [%s]⟩" % (l, a, ", ".join(map(sym, b))) + ("," if i + 1 < len(ps) else "]"))
out.append("\nend Verif")
open(os.path.join(os.path.dirname(__file__), "../lean/Verif/Spec/GrammarFile.lean"), "w").write("\n".join(out) + "\n")
