#!/usr/bin/env python3
"""Generates Spec/Spans.lean (the spans recorded in a syntax tree, in source order) and
Proofs/SpansDerives.lean.  Typing aid; the output is ordinary Lean."""
import re,os
from astlib import load,parse_ty
here=os.path.dirname(os.path.abspath(__file__))
root=os.path.join(here,'..','lean','Verif')
blocks=load()
G=open(root+'/Spec/Grammar.lean').read()
SUF={'W':'W','List':'L','Option':'O'}
def base(ty): return ty if isinstance(ty,str) else base(ty[1])
def suffix(ty): return '' if isinstance(ty,str) else SUF[ty[0]]+suffix(ty[1])
def leanty(ty):
    if isinstance(ty,str): return ty
    s=leanty(ty[1]); return f'{ty[0]} ({s})' if ' ' in s else f'{ty[0]} {s}'
def gen(ty):
    if isinstance(ty,str): return 'noSpans' if ty=='Str' else ty+'.spans'
    i=gen(ty[1]); i=f'({i})' if ' ' in i else i
    return {'W':'spanW','List':'spanL','Option':'spanO'}[ty[0]]+' '+i
# fields in source order where the order of the fields differs from the source
ORDER={('NodeFullExpression','localVariableDeclaration'):[0,2,1,3],
       ('NodeStatement','mapGet'):[0,2,1],('NodeStatement','mapGetExists'):[0,2,1],
       ('NodeAddressType','mk'):[0,2]}
out=[];o=out.append
o('''import Verif.Model.Ast
import Verif.Spec.Grammar
/-
The spans recorded in a syntax tree: the forest of all `WithMetaData` nodes, in source order, with the
`start` and `stop` each of them records.  Two kinds of nodes are left out, because what they record is
different (see C19_import_span and C19_address_tag): the node of the import declarations (its imported
names are in the forest) and the tag of an address type.
Generated by tools/gen_spans.py from Model/Ast.lean.
-/
namespace Verif

inductive SpanTree where
  | node (start stop : Pos) (children : List SpanTree)

def noSpans {α : Type} (_ : α) : List SpanTree := []

def spanW {α : Type} (f : α → List SpanTree) : W α → List SpanTree
  | ⟨x, a, b⟩ => [.node a b (f x)]

def spanL {α : Type} (f : α → List SpanTree) : List α → List SpanTree
  | [] => []
  | x :: xs => f x ++ spanL f xs

def spanO {α : Type} (f : α → List SpanTree) : Option α → List SpanTree
  | none => []
  | some x => f x
''')
lemmas=[];names=[]
for b in blocks:
    mem={t['name'] for t in b}
    rec=len(b)>1
    aux=[]
    def need(ty):
        if isinstance(ty,str): return
        need(ty[1])
        if ty not in aux: aux.append(ty)
    body=[]
    for t in b:
        L=[f'def {t["name"]}.spans : {t["name"]} → List SpanTree']
        for c,fs in t['ctors']:
            args=[]
            for i in range(len(fs)): 
                n,ty=fs[i]; ty=parse_ty(ty)
                if (t['name'],c) in ORDER and i not in ORDER[(t['name'],c)]: args.append(None); continue
                if t['name']=='NodeProgram' and n=='importDeclarations':
                    args.append('spanO (fun d => NodeImportDeclarations.spans d.node) x_'+n); continue
                if rec and base(ty) in mem:
                    need(ty); f=base(ty)+'.spans'+suffix(ty)
                else: f=gen(ty)
                args.append(f'{f} x_{n}')
            order=ORDER.get((t['name'],c),range(len(fs)))
            rhs=[args[i] for i in order]
            r=rhs[-1] if rhs else '[]'
            for a in reversed(rhs[:-1]): r=f'{a} ++ ({r})' if '++' in r else f'{a} ++ {r}'
            pats=['x_'+n if i in order else '_' for i,(n,_) in enumerate(fs)]
            if t['kind']=='structure':
                L.append(f'  | ⟨{", ".join(pats)}⟩ => {r}')
            else:
                L.append(f'  | .{c}{" "+" ".join(pats) if pats else ""} => {r}')
        body.append('\n'.join(L)); names.append(t['name']+'.spans')
    for ty in aux:
        nm=base(ty)+'.spans'+suffix(ty); inner=base(ty)+'.spans'+suffix(ty[1])
        if ty[0]=='W':
            body.append(f'def {nm} : {leanty(ty)} → List SpanTree\n  | ⟨x, a, b⟩ => [.node a b ({inner} x)]')
            lemmas.append(f'@[simp] theorem {nm}_eq (x : {leanty(ty)}) : {nm} x = {gen(ty)} x := by cases x; rfl')
        elif ty[0]=='Option':
            body.append(f'def {nm} : {leanty(ty)} → List SpanTree\n  | none => []\n  | some x => {inner} x')
            lemmas.append(f'@[simp] theorem {nm}_eq (x : {leanty(ty)}) : {nm} x = {gen(ty)} x := by\n  cases x <;> simp [{nm}, spanO]')
        else:
            body.append(f'def {nm} : {leanty(ty)} → List SpanTree\n  | [] => []\n  | x :: xs => {inner} x ++ {nm} xs')
            lemmas.append(f'@[simp] theorem {nm}_eq : ∀ x : {leanty(ty)}, {nm} x = {gen(ty)} x\n  | [] => rfl\n  | x :: xs => by simp [{nm}, spanL, {nm}_eq xs]')
    if rec: o('mutual\n'+'\n'.join(body)+'\nend\n')
    else: o('\n'.join(body)+'\n')
m=re.search(r'def Val : NT → Type\n(.*?)\n\n',G,re.S)
L=['/-- the same for the value of a nonterminal -/','def spansV : (n : NT) → Val n → List SpanTree']
for ln in m.group(1).split('\n'):
    mm=re.match(r'  \| \.(\w+)( n)? => (.*)$',ln)
    if mm.group(2):
        f={'star':'spanL','plus':'spanL','opt':'spanO'}[mm.group(1)]
        L.append(f'  | .{mm.group(1)} n => {f} (spansV n)')
    elif mm.group(1)=='importDecls':
        L.append(f'  | .importDecls => fun d => NodeImportDeclarations.spans d.node')
    else:
        L.append(f'  | .{mm.group(1)} => {gen(parse_ty(mm.group(3)))}')
o('\n'.join(L)+'\n')
o('''/-- `run` is a phrase of the grammar whose syntax tree is (up to kinds and texts) `t`. -/
def Phrase (run : List STok) (t : SpanTree) : Prop :=
  ∃ (n : NT) (v : Val n), Derives n run v ∧ spansV n v = [t]

/-- The forest `f` fits the tokens `w`: its trees, from left to right, belong to disjoint non-empty runs
of consecutive tokens of `w`; each run is a phrase of the grammar with this tree; the recorded start
(stop) is the start (stop) of the first (last) token of the run; the children of a node fit the run of
the node. -/
inductive Fits : List STok → List SpanTree → Prop
  | nil (w : List STok) : Fits w []
  | cons (before run after : List STok) (children rest : List SpanTree) : run ≠ [] →
      Phrase run (.node (startOf run) (stopOf run) children) →
      Fits run children → Fits after rest →
      Fits (before ++ (run ++ after)) (.node (startOf run) (stopOf run) children :: rest)

end Verif''')
open(root+'/Spec/Spans.lean','w').write('\n'.join(out)+'\n')
P=[];p=P.append
p('''import Verif.Spec.Spans
/-
The spans recorded in a syntax tree fit the tokens.  Generated by tools/gen_spans.py.
-/
namespace Verif

set_option linter.unusedSimpArgs false

theorem Fits.pre {w : List STok} {f : List SpanTree} (p : List STok) (h : Fits w f) :
    Fits (p ++ w) f := by
  cases h with
  | nil => exact .nil _
  | cons b r a c rest h1 h0 h2 h3 => rw [← List.append_assoc]; exact .cons _ _ _ _ _ h1 h0 h2 h3

theorem Fits.tok {w : List STok} {f : List SpanTree} {t : STok} (h : Fits w f) : Fits (t :: w) f :=
  Fits.pre [t] h

theorem Fits.post {w q : List STok} {f : List SpanTree} (h : Fits w f) : Fits (w ++ q) f := by
  induction h with
  | nil => exact .nil _
  | cons b r a c rest h1 h0 h2 h3 ih2 ih3 =>
    rw [List.append_assoc, List.append_assoc]; exact .cons _ _ _ _ _ h1 h0 h2 ih3

theorem Fits.append {w q : List STok} {f g : List SpanTree} (h : Fits w f) (h' : Fits q g) :
    Fits (w ++ q) (f ++ g) := by
  induction h with
  | nil => exact h'.pre _
  | cons b r a c rest h1 h0 h2 h3 ih2 ih3 =>
    rw [List.append_assoc, List.append_assoc]; exact .cons _ _ _ _ _ h1 h0 h2 ih3

theorem Fits.single {w : List STok} {f : List SpanTree} (hw : w ≠ [])
    (hp : Phrase w (.node (startOf w) (stopOf w) f)) (h : Fits w f) :
    Fits w [.node (startOf w) (stopOf w) f] := by
  have := Fits.cons [] w [] f [] hw hp h (.nil _)
  simpa using this

theorem Fits.inner {w : List STok} {s e : Pos} {k f : List SpanTree} (h : Fits w (.node s e k :: f)) :
    Fits w k := by
  cases h with
  | cons b r a c rest h1 h0 h2 h3 => exact Fits.pre _ h2.post

theorem Fits.mkW {α : Type} {f : α → List SpanTree} {w : List STok} {x : α} {n : NT} {v : Val n}
    (d : Derives n w v) (e : spansV n v = spanW f (mkW w x)) (hw : w ≠ [])
    (h : Fits w (f x)) : Fits w (spanW f (mkW w x)) := Fits.single hw ⟨n, v, d, e⟩ h

theorem Fits.cast {w : List STok} {f g : List SpanTree} (h : Fits w f) (e : f = g) : Fits w g := e ▸ h

theorem spanL_append {α : Type} (f : α → List SpanTree) : ∀ a b : List α,
    spanL f (a ++ b) = spanL f a ++ spanL f b
  | [], _ => rfl
  | x :: a, b => by simp [spanL, spanL_append f a b]

theorem spanL_toList {α : Type} (f : α → List SpanTree) (a : Option α) :
    spanL f a.toList = spanO f a := by cases a <;> simp [spanL, spanO]

theorem spanL_getD {α : Type} (f : α → List SpanTree) (a : Option (List α)) :
    spanL f (a.getD []) = spanO (spanL f) a := by cases a <;> rfl

/-- nonterminals that derive no empty word -/
def NT.filled : NT → Bool
  | .star _ => false
  | .opt _ => false
  | .plus n => n.filled
  | _ => true

theorem Derives.filled {n : NT} {w : List STok} {v : Val n} (d : Derives n w v) :
    n.filled = true → w ≠ [] := by
  induction d <;> simp_all [NT.filled]
''')
p('\n'.join(lemmas)+'\n')
body=G[G.index('inductive Derives'):]
A=['theorem Derives.fits {n : NT} {w : List STok} {v : Val n} (d : Derives n w v) :',
   '    Fits w (spansV n v) := by','  induction d with']
for m in re.finditer(r'^  \| (\w+) : (.*?)(?=^  \||^  --|^end)',body,re.S|re.M):
    name,txt=m.group(1),' '.join(m.group(2).split())
    parts=[q.strip() for q in txt.split('→')]
    eq=None;subs=[]
    for q in parts[:-1]:
        if q.startswith('Derives'):
            mm=re.match(r'Derives (\.\w+|\(\.\w+ \.\w+\)|\w+|\(\.star n\)) (w\d*) (.*)$',q); subs.append(mm.group(2))
        else: eq=q
    k=len(subs)
    ds=' '.join(f'd{i+1}' for i in range(k)); ihs=' '.join(f'ih{i+1}' for i in range(k))
    A.append(f'  | {name}{" h" if eq else ""}{" "+ds+" "+ihs if k else ""} =>')
    if name in('starNil','optNone'): A.append('    exact .nil _'); continue
    if name in('starCons','plusIntro'): A.append('    exact .append ih1 ih2'); continue
    if not eq and k and not re.search(r'\(mkW w',parts[-1]):
        A.append('    exact ih1'); continue
    items=[]
    if eq:
        rhs=eq.split(' = ',1)[1]
        for t in re.finditer(r'⟨\w+, (\.\w+(?: \w+)?), \w+⟩|\b(w\d*)\b',rhs):
            if t.group(1): items.append(None)
            else: items.append(subs.index(t.group(2))+1)
    else: items=[1] if k else []
    def build(its):
        if not any(its): return '(.nil _)'
        if its[0] is None: return f'(.tok {build(its[1:])})'
        ih=f'ih{its[0]}'
        if name in('builtinMore',) and its[0]==1: ih='ih1.inner'
        if name=='addrSpecial' and its[0]==2: return '(.nil _)'
        if len(its)==1: return ih
        if not any(its[1:]) or (name=='addrSpecial'): return f'(.post {ih})'
        return f'(.append {ih} {build(its[1:])})'
    term=build(items)
    concl=parts[-1]
    isW=bool(re.search(r'\(mkW w',concl)) or name=='importMore'
    if name=='byteString': A.append('    have d := Derives.byteString h\n    subst h; exact Fits.mkW d rfl (by simp) (.nil _)'); continue
    if name=='importMore':
        A.append('    subst h; exact (Fits.append ih1 (.tok ih2)).cast (by simp [spansV, NodeImportDeclarations.spans, spanL_append, spanL])'); continue
    if name=='importFirst': A.append('    subst h; exact .tok ih1'); continue
    if isW:
        A.append(f'    have d0 := Derives.{name}{" h" if eq else ""} {ds}')
        A.append('    have hw := d0.filled rfl')
        if eq: A.append('    subst h')
        A.append('    refine Fits.mkW d0 rfl hw ?_')
        if name=='valMap': term='(Fits.single hw ⟨_, _, Derives.remMap rfl d1 d2, by rw [spansV, spanW, mkW, NodeScillaType.spans]⟩ ((Fits.tok (.append ih1 ih2)).cast (by simp [spansV])))'
        A.append(f'    exact Fits.cast (w := _) {term} (by first | rfl | simp [spansV, {"NodeAddressType.spans, NodeComponentParameters.spans, NodeBuiltinArguments.spans, " if name in ("addrContract","compParams","builtinMore") else ""}{"mkW, spanW, " if name=="valMap" else ""}spanL_append, spanL_toList, spanL_getD, spanL, spanO, spanW, mkW, SPANS])')
    else:
        A.append(f'    subst h; exact Fits.cast {term} (by first | rfl | simp [spansV, spanL_append, spanL, spanO, spanW, mkW, SPANS])')
rec_names=[t['name']+'.spans' for b in blocks if len(b)>1 for t in b]
p('\n'.join(A).replace('spanW, mkW, SPANS',', '.join(rec_names))+'\n')
p('end Verif')
open(root+'/Proofs/SpansDerives.lean','w').write('\n'.join(P)+'\n')
