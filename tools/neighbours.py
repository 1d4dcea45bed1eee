#!/usr/bin/env python3
"""Writes lean/Verif/Spec/Neighbours.lean: which kinds of token may follow which, computed from Spec/LRData (rules) and
Spec/GrammarFile (terminals).  That the table is right is proved in Props/Neighbours; nothing is trusted here."""
import re,os
R=os.path.join(os.path.dirname(os.path.abspath(__file__)),'..','lean','Verif')
s=open(R+'/Spec/LRData.lean').read(); i=s.index('def lrRules'); j=s.find('\ndef ',i+5); j=len(s) if j<0 else j
rules=[(int(m.group(1)),[(x.split()[0],int(x.split()[1])) for x in m.group(2).split(', ')])
       for m in re.finditer(r'⟨(\d+), \[([^\]]*)\]⟩',s[i:j])]
g=open(R+'/Spec/GrammarFile.lean').read()
T=[x.strip() for x in re.search(r'def fileTerminals : List Token :=\s*\[(.*?)\]\n\n',g,re.S).group(1).replace('\n',' ').split(',')]
F={};L={}
f=lambda D,X:{X[1]} if X[0]=='.t' else D.get(X[1],set())
ch=True
while ch:
    ch=False
    for l,r in rules:
        for D,X in((F,r[0]),(L,r[-1])):
            if not f(D,X)<=D.get(l,set()): D[l]=D.get(l,set())|f(D,X);ch=True
P={}
for l,r in rules:
    for X,Y in zip(r,r[1:]):
        for a in f(L,X): P[a]=P.get(a,set())|f(F,Y)
def wrap(items,ind):
    out=[];line=''
    for k,x in enumerate(items):
        x=x+(', ' if k+1<len(items) else '')
        if len(ind)+len(line)+len(x)>120: out.append(line.rstrip());line=''
        line+=x
    out.append(line); return ('\n'+ind).join(out)
print('''import Verif.Model.Parser
/-
Which kinds of token may stand next to each other in a program.  Written by tools/neighbours.py; Props/Neighbours proves
that the tables are exact.  A kind is a token with its text erased.
-/
namespace Verif

/-- for each kind of token, the kinds of token that may follow it -/
def neighbours : List (Token × List Token) :=
  ['''+',\n   '.join('(%s,\n    [%s])'%(T[a],wrap([T[b] for b in sorted(P.get(a,()))],'     ')) for a in range(len(T)))+''']

/-- the kinds of token that a program may end with -/
def lastTokens : List Token :=
  ['''+wrap([T[a] for a in sorted(L[rules[0][1][0][1]])],'   ')+''']

/-- the token `b` may follow the token `a` -/
def MayFollow (a b : Token) : Prop := ∃ row ∈ neighbours, row.1 = a.kind ∧ b.kind ∈ row.2

instance (a b : Token) : Decidable (MayFollow a b) := inferInstanceAs (Decidable (∃ row ∈ neighbours, _ ∧ _))

end Verif''')
