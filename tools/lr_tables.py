#!/usr/bin/env python3
"""Writes lean/Verif/Spec/LRData*.lean: LALR(1) tables for the grammar of parser.lalrpop, as data.
Nothing here is trusted: Lean checks that the rules are those of the file and that the tables fit."""
import collections, os, sys
sys.path.insert(0, os.path.dirname(os.path.abspath(__file__)))
from grammar import productions
from grammar_lean import names
table, ps = productions()
terms = list(table.values())
tnum = {t: i for i, t in enumerate(terms)}
nnum = {n: i for i, n in enumerate(names)}
N = len(names)

def alts(s):
    if s[0] == 't': return [[('t', tnum[s[1]])]]
    x, plus = ('n', nnum[s[1]]), ('n', N + nnum[s[1]])
    return {'': [[x]], '?': [[], [x]], '*': [[], [plus]], '+': [[plus]]}[s[2]]

def expand(b):
    if not b: return [[]]
    tail = expand(b[1:])
    return [a + t for a in alts(b[0]) for t in tail]

G = [(2 * N, [('n', nnum['Program'])])]
rep = []
for _, a, b in ps:
    for s in b:
        if s[0] == 'n' and s[2] in '*+' and s[2] and s[1] not in rep: rep.append(s[1])
    G += [(nnum[a], x) for x in expand(b)]
for x in rep:
    G += [(N + nnum[x], [('n', nnum[x])]), (N + nnum[x], [('n', N + nnum[x]), ('n', nnum[x])])]

byl = collections.defaultdict(list)
for i, (a, b) in enumerate(G): byl[a].append(i)
first = collections.defaultdict(int)
ch = True
def fst(X): return 1 << (X[1] + 1) if X[0] == 't' else first[X[1]]
while ch:
    ch = False
    for a, b in G:
        f = fst(b[0])
        if f & ~first[a]: first[a] |= f; ch = True

def closure(items):
    work = list(items)
    while work:
        p, d = work.pop(0)
        la, b = items[(p, d)], G[p][1]
        if d < len(b) and b[d][0] == 'n':
            f = fst(b[d + 1]) if d + 1 < len(b) else la
            for q in byl[b[d][1]]:
                old = items.get((q, 0))
                if old is None: items[(q, 0)] = f; work.append((q, 0))
                elif f & ~old: items[(q, 0)] |= f; work.append((q, 0))
    return items

def build():
    states = [closure({(0, 0): 1})]
    index = {frozenset([(0, 0)]): 0}
    trans = [{}]
    work = [0]
    while work:
        s = work.pop(0)
        nxt = {}
        for (p, d), la in states[s].items():
            b = G[p][1]
            if d < len(b): nxt.setdefault(b[d], {})[(p, d + 1)] = la
        for X, k in nxt.items():
            key = frozenset(k)
            if key in index:
                t = index[key]; chg = False
                for kk, la in k.items():
                    if la & ~states[t][kk]: states[t][kk] |= la; chg = True
                if chg:
                    closure(states[t])
                    if t not in work: work.append(t)
            else:
                t = len(states); index[key] = t; states.append(closure(k)); trans.append({}); work.append(t)
            trans[s][X] = t
    return states, trans

def sym(X): return '.%s %d' % X

def wrap(xs, ind, width=116):
    out, line = [], ' ' * ind
    for i, x in enumerate(xs):
        y = x + (', ' if i + 1 < len(xs) else '')
        if len(line) + len(y) > width: out.append(line.rstrip()); line = ' ' * ind
        line += y
    out.append(line.rstrip())
    return '\n'.join(out)

if __name__ == '__main__':
    states, trans = build()
    # ranks
    ranks = [0] * (2 * N + 1)
    ch = True
    while ch:
        ch = False
        for a, b in G:
            if len(b) == 1:
                k = 1 if b[0][0] == 't' else ranks[b[0][1]] + 1
                if ranks[a] < k: ranks[a] = k; ch = True
    order, acc = [], set()
    ch = True
    while ch:
        ch = False
        for i, (a, b) in enumerate(G):
            if a not in acc and all(X[0] == 't' or X[1] in acc for X in b):
                acc.add(a); order.append(i); ch = True
    print(len(G), 'rules', len(states), 'states', sum(map(len, states)), 'items', max(ranks), 'max rank', file=sys.stderr)
    root = os.path.join(os.path.dirname(os.path.abspath(__file__)), '..', 'lean', 'Verif', 'Spec')
    o = ['import Verif.Spec.LRCheck', '/-', 'LALR(1) tables for the grammar of parser.lalrpop, written by tools/lr_tables.py.  Nothing about them is assumed: that they',
         'fit the grammar is checked (`Props/LR`).', '-/', 'namespace Verif.LR', '',
         '/-- the productions of `desugared`, written out -/', 'def lrRules : List Rule :=', '  [' + wrap(['⟨%d, [%s]⟩' % (a, ', '.join(map(sym, b))) for a, b in G], 3).lstrip() + ']', '',
         '/-- for every nonterminal the terminals it can begin with -/', 'def lrFirst : List Nat :=', '  [' + wrap(['%d' % first[x] for x in range(2 * N + 1)], 3).lstrip() + ']', '',
         '/-- productions that show, in this order, that the nonterminals are productive -/', 'def lrOrder : List Nat :=', '  [' + wrap(map_ := ['%d' % x for x in order], 3).lstrip() + ']', '',
         '/-- ranks against cycles of unit productions -/', 'def lrRanks : List Nat :=', '  [' + wrap(['%d' % x for x in ranks], 3).lstrip() + ']', '',
         'def lrMaxRank : Nat := %d' % max(ranks), '']
    def put_states(o, pre, states, trans):
        CH = 40
        for c in range(0, len(states), CH):
            o.append('def %sStates%d : List State :=' % (pre, c // CH))
            rows = []
            for s in range(c, min(c + CH, len(states))):
                its = wrap(['⟨%d, %d, %d⟩' % (p, d, la) for (p, d), la in states[s].items()], 5).lstrip()
                nx = wrap(['(%s, %d)' % (sym(X), t) for X, t in trans[s].items()], 5).lstrip()
                rows.append('⟨[%s],\n    [%s]⟩' % (its, nx))
            o.append('  [' + ',\n   '.join(rows) + ']')
            o.append('')
        o.append('def %sStates : List State :=\n  ' % pre + ' ++ '.join('%sStates%d' % (pre, i) for i in range((len(states) + CH - 1) // CH)))
        o += ['', 'end Verif.LR', '']
    put_states(o, 'lr', states, trans)
    open(os.path.join(root, 'LRData.lean'), 'w').write('\n'.join(o))
    # another start symbol: only the start production and the states differ
    G[0] = (2 * N, [('n', nnum['ScillaType'])])
    first[2 * N] = first[nnum['ScillaType']]
    states, trans = build()
    o = ['import Verif.Spec.LRData', '/-', 'LALR(1) tables for the same grammar with the start symbol `ScillaType`, written by tools/lr_tables.py.', '-/',
         'namespace Verif.LR', '', '/-- for every nonterminal the terminals it can begin with -/', 'def lrTypeFirst : List Nat :=',
         '  [' + wrap(['%d' % first[x] for x in range(2 * N + 1)], 3).lstrip() + ']', '']
    put_states(o, 'lrType', states, trans)
    open(os.path.join(root, 'LRTypeData.lean'), 'w').write('\n'.join(o))
