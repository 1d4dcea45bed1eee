#!/usr/bin/env python3
"""Generates Spec/Rename.lean (applying a function to all names and literals of a syntax tree) and
Proofs/RenameDerives.lean (the grammar does not look at names).  Typing aid; the output is ordinary Lean."""
import re,os
from astlib import load,parse_ty
here=os.path.dirname(os.path.abspath(__file__))
root=os.path.join(here,'..','lean','Verif')
blocks=load()
G=open(root+'/Spec/Grammar.lean').read()
SUF={'W':'W','List':'L','Option':'O'}
def base(ty): return ty if isinstance(ty,str) else base(ty[1])
def suffix(ty): return '' if isinstance(ty,str) else SUF[ty[0]]+suffix(ty[1])
def leanty(ty):
    if isinstance(ty,str): return ty
    s=leanty(ty[1]); return f'{ty[0]} ({s})' if ' ' in s else f'{ty[0]} {s}'
def gen(ty):
    if isinstance(ty,str): return 'f' if ty=='Str' else f'({ty}.ren f)'
    return '('+{'W':'W.ren','List':'List.map','Option':'Option.map'}[ty[0]]+' '+gen(ty[1])+')'
out=[]
o=out.append
o('''import Verif.Model.Ast
import Verif.Spec.Grammar
/-
Applying a function `f` to all names and literals of a syntax tree; positions are kept.
Generated by tools/gen_rename.py from Model/Ast.lean.
-/
namespace Verif

def W.ren {α : Type} (f : α → α) : W α → W α
  | ⟨x, s, e⟩ => ⟨f x, s, e⟩
''')
lemmas=[]
names=[]
for b in blocks:
    mem={t['name'] for t in b}
    rec=len(b)>1
    aux=[]
    def need(ty):
        if isinstance(ty,str): return
        need(ty[1])
        if ty not in aux: aux.append(ty)
    body=[]
    for t in b:
        L=[f'def {t["name"]}.ren (f : Str → Str) : {t["name"]} → {t["name"]}']
        for c,fs in t['ctors']:
            args=[]
            for n,ty in fs:
                ty=parse_ty(ty)
                if rec and base(ty) in mem:
                    need(ty); g=base(ty)+'.ren'+suffix(ty)+' f'
                else: g=gen(ty)
                args.append(f'({g} x_{n})')
            v=' '.join('x_'+n for n,_ in fs)
            if t['kind']=='structure':
                L.append(f'  | ⟨{", ".join("x_"+n for n,_ in fs)}⟩ => ⟨{", ".join(a[1:-1] for a in args)}⟩')
            else:
                L.append(f'  | .{c}{" "+v if v else ""} => .{c}{" "+" ".join(args) if args else ""}')
        body.append('\n'.join(L)); names.append(t['name']+'.ren')
    for ty in aux:
        nm=base(ty)+'.ren'+suffix(ty); inner=base(ty)+'.ren'+suffix(ty[1])+' f'
        T=leanty(ty)
        if ty[0]=='W':
            body.append(f'def {nm} (f : Str → Str) : {T} → {T}\n  | ⟨x, s, e⟩ => ⟨{inner} x, s, e⟩')
            lemmas.append(f'@[simp] theorem {nm}_eq (f : Str → Str) (x : {T}) : {nm} f x = {gen(ty)} x := by cases x; rfl')
        elif ty[0]=='Option':
            body.append(f'def {nm} (f : Str → Str) : {T} → {T}\n  | none => none\n  | some x => some ({inner} x)')
            lemmas.append(f'@[simp] theorem {nm}_eq (f : Str → Str) (x : {T}) : {nm} f x = {gen(ty)} x := by\n  cases x <;> simp [{nm}]')
        else:
            body.append(f'def {nm} (f : Str → Str) : {T} → {T}\n  | [] => []\n  | x :: xs => {inner} x :: {nm} f xs')
            lemmas.append(f'@[simp] theorem {nm}_eq (f : Str → Str) : ∀ x : {T}, {nm} f x = {gen(ty)} x\n  | [] => rfl\n  | x :: xs => by simp [{nm}, {nm}_eq f xs]')
    if rec: o('mutual\n'+'\n'.join(body)+'\nend\n')
    else: o('\n'.join(body)+'\n')
m=re.search(r'def Val : NT → Type\n(.*?)\n\n',G,re.S)
L=['/-- the same for the value of a nonterminal -/','def renV (f : Str → Str) : (n : NT) → Val n → Val n']
for ln in m.group(1).split('\n'):
    mm=re.match(r'  \| \.(\w+)( n)? => (.*)$',ln)
    if mm.group(2):
        g={'star':'List.map','plus':'List.map','opt':'Option.map'}[mm.group(1)]
        L.append(f'  | .{mm.group(1)} n => {g} (renV f n)')
    else:
        L.append(f'  | .{mm.group(1)} => {gen(parse_ty(mm.group(3)))}')
o('\n'.join(L)+'\n')
o('''/-- the same for tokens: names and literals are replaced, keywords and punctuation are not -/
def Token.ren (f : Str → Str) : Token → Token
  | .identifier s => .identifier (f s)
  | .customIdentifier s => .customIdentifier (f s)
  | .specialIdentifier s => .specialIdentifier (f s)
  | .templateIdentifier s => .templateIdentifier (f s)
  | .byStrWithSize s => .byStrWithSize (f s)
  | .number s => .number (f s)
  | .hexNumber s => .hexNumber (f s)
  | .stringLiteral s => .stringLiteral (f s)
  | t => t

def STok.ren (f : Str → Str) (t : STok) : STok := ⟨t.start, t.tok.ren f, t.stop⟩

end Verif''')
open(root+'/Spec/Rename.lean','w').write('\n'.join(out)+'\n')
P=[]
p=P.append
p('''import Verif.Spec.Rename
import Verif.Proofs.StripDerives
/-
The grammar does not look at names.  Generated by tools/gen_rename.py.
-/
namespace Verif

set_option linter.unusedSimpArgs false
''')
p('attribute [simp] '+' '.join(names)+'\n')
p('\n'.join(lemmas)+'\n')
p('''@[simp] theorem W.ren_node {α : Type} (f : α → α) (w : W α) : (W.ren f w).node = f w.node := rfl

@[simp] theorem W.ren_start {α : Type} (f : α → α) (w : W α) : (W.ren f w).start = w.start := rfl

@[simp] theorem W.ren_stop {α : Type} (f : α → α) (w : W α) : (W.ren f w).stop = w.stop := rfl

@[simp] theorem startOf_ren (f : Str → Str) (w : List STok) : startOf (w.map (STok.ren f)) = startOf w := by
  cases w <;> rfl

theorem stopFrom_ren (f : Str → Str) : ∀ (p : Pos) (w : List STok), stopFrom p (w.map (STok.ren f)) = stopFrom p w
  | _, [] => rfl
  | _, t :: w => stopFrom_ren f t.stop w

@[simp] theorem stopOf_ren (f : Str → Str) (w : List STok) : stopOf (w.map (STok.ren f)) = stopOf w :=
  stopFrom_ren f _ w

@[simp] theorem importList_ren (f : Str → Str) (d : NodeImportDeclarations) :
    (d.ren f).importList = d.importList.map (W.ren (NodeImportedName.ren f)) := by cases d; rfl

@[simp] theorem arguments_ren (f : Str → Str) (d : NodeBuiltinArguments) :
    (d.ren f).arguments = d.arguments.map (W.ren (NodeVariableIdentifier.ren f)) := by cases d; rfl

theorem W.ren_eq {α : Type} (f : α → α) (x : α) (a b : Pos) :
    W.ren f ⟨x, a, b⟩ = ⟨f x, a, b⟩ := rfl

theorem mkW_ren {α : Type} (f : Str → Str) (w : List STok) (x : α) :
    mkW (w.map (STok.ren f)) x = mkW w x := by simp [mkW]

theorem W.ren_mkW {α : Type} (g : α → α) (w : List STok) (x : α) :
    W.ren g (mkW w x) = mkW w (g x) := rfl
''')
body=G[G.index('inductive Derives'):]
A=['theorem Derives.ren (f : Str → Str) (f0 : f [] = []) (f1 : f (str! "contract") = str! "contract")',
   '    (f2 : f (str! "library") = str! "library") {n : NT} {w : List STok} {v : Val n} (d : Derives n w v) :',
   '    Derives n (w.map (STok.ren f)) (renV f n v) := by','  induction d with']
for m in re.finditer(r'^  \| (\w+) : (.*?)(?=^  \||^  --|^end)',body,re.S|re.M):
    name,txt=m.group(1),' '.join(m.group(2).split())
    parts=[q.strip() for q in txt.split('→')]
    eq=None;subs=[]
    for q in parts[:-1]:
        if q.startswith('Derives'):
            mm=re.match(r'Derives (\.\w+|\(\.\w+ \.\w+\)|\w+|\(\.star n\)) (w\d*) (.*)$',q); subs.append(mm.group(2))
        else: eq=q
    k=len(subs)
    ds=' '.join(f'd{i+1}' for i in range(k)); ihs=' '.join(f'ih{i+1}' for i in range(k))
    A.append(f'  | {name}{" h" if eq else ""}{" "+ds+" "+ihs if k else ""} =>')
    if name in('starNil','optNone'):
        A.append(f'    exact .{name}')
    elif name=='optSome': A.append('    exact .optSome ih1')
    elif name in('starCons','plusIntro'):
        A.append(f'    rw [List.map_append]; exact .{name} ih1 ih2')
    elif name in('typeFun','typeRem'): A.append(f'    exact .{name} ih1')
    else:
        if eq: A.append('    subst h')
        prem='(by simp only [List.map_cons, List.map_append, List.map_nil, STok.ren, Token.ren] <;> rfl) ' if eq else ''
        A.append(f'    exact (Derives.{name} {prem}{ihs}).cast (by (try simp only [mkW_ren, stopOf_ren, startOf_ren]); first | rfl | (simp [renV, W.ren_mkW, f0, f1, f2]; done) | (simp [renV, W.ren_mkW, f0, f1, f2, Option.map_getD_nil, Option.map_toList]; done) | simp [renV, W.ren_eq, W.ren_mkW, f0, f1, f2])')
p('\n'.join(A)+'\n')
p("""/-- what kind of token it is, forgetting the text -/
def Token.shape (t : Token) : Token := t.ren fun _ => []

def kinds (w : List STok) : List Token := w.map fun t => t.tok.shape

@[simp] theorem kinds_nil : kinds [] = [] := rfl
@[simp] theorem kinds_cons (t : STok) (w : List STok) : kinds (t :: w) = t.tok.shape :: kinds w := rfl
@[simp] theorem kinds_append (a b : List STok) : kinds (a ++ b) = kinds a ++ kinds b := by simp [kinds]

theorem kinds_cons_inv {w : List STok} {t : Token} {r : List Token} (h : kinds w = t.shape :: r) :
    ∃ s t' e u, w = ⟨s, t', e⟩ :: u ∧ t'.shape = t.shape ∧ kinds u = r := by
  cases w with
  | nil => simp [kinds] at h
  | cons a u =>
    obtain ⟨s, t', e⟩ := a
    simp only [kinds_cons, List.cons.injEq] at h
    exact ⟨s, t', e, u, rfl, h.1, h.2⟩

theorem kinds_append_inv {w : List STok} {a b : List Token} (h : kinds w = a ++ b) :
    ∃ p u, w = p ++ u ∧ kinds p = a ∧ kinds u = b := by
  simp only [kinds, List.map_eq_append_iff] at h
  obtain ⟨p, u, rfl, h1, h2⟩ := h
  exact ⟨p, u, rfl, h1, h2⟩

theorem kinds_nil_inv {w : List STok} (h : kinds w = []) : w = [] := by
  simpa [kinds] using h

/-- tokens without a text of their own -/
def Token.fixed : Token → Bool
  | .identifier _ | .customIdentifier _ | .specialIdentifier _ | .templateIdentifier _
  | .byStrWithSize _ | .number _ | .hexNumber _ | .stringLiteral _ => false
  | _ => true

theorem Token.fixed_shape (t : Token) : t.shape.fixed = t.fixed := by cases t <;> rfl

theorem Token.shape_fixed {t : Token} (h : t.fixed = true) : t.shape = t := by
  cases t <;> first | rfl | cases h

theorem kind_inv {t t' : Token} (ht : t.fixed = true) (h : t'.shape = t.shape) : t' = t := by
  have h' : t'.fixed = true := by rw [← Token.fixed_shape, h, Token.fixed_shape, ht]
  rw [← Token.shape_fixed ht, ← Token.shape_fixed h', h]
""")
for c in ['identifier','customIdentifier','specialIdentifier','templateIdentifier','byStrWithSize','number','hexNumber','stringLiteral']:
    p(f"""theorem kind_{c} {{t : Token}} {{x : Str}} (h : t.shape = Token.shape (.{c} x)) : ∃ y, t = .{c} y := by
  cases t <;> first | exact ⟨_, rfl⟩ | (simp [Token.shape, Token.ren] at h)
""")
B=['/-- a derivation can be replayed on tokens with other texts and positions -/',
   'theorem Derives.rekind {n : NT} {w0 : List STok} {v : Val n} (d : Derives n w0 v) :',
   '    ∀ w, kinds w = kinds w0 → ∃ v\', Derives n w v\' := by','  induction d with']
for m in re.finditer(r'^  \| (\w+) : (.*?)(?=^  \||^  --|^end)',body,re.S|re.M):
    name,txt=m.group(1),' '.join(m.group(2).split())
    parts=[q.strip() for q in txt.split('→')]
    eq=None;subs=[]
    for q in parts[:-1]:
        if q.startswith('Derives'):
            mm=re.match(r'Derives (\.\w+|\(\.\w+ \.\w+\)|\w+|\(\.star n\)) (w\d*) (.*)$',q); subs.append(mm.group(2))
        else: eq=q
    k=len(subs)
    ds=' '.join(f'd{i+1}' for i in range(k)); ihs=' '.join(f'ih{i+1}' for i in range(k))
    B.append(f'  | {name}{" h" if eq else ""}{" "+ds+" "+ihs if k else ""} =>')
    if name in('starNil','optNone'):
        B.append(f'    intro w hw; simp [kinds] at hw; subst hw; exact ⟨_, .{name}⟩'); continue
    if name in('starCons','plusIntro'):
        items=[('sub','w1'),('sub','w2')]
    elif eq:
        rhs=eq.split(' = ',1)[1]
        items=[]
        for t in re.finditer(r'⟨\w+, (\.\w+(?: \w+)?), \w+⟩|\b(w\d*)\b',rhs):
            if t.group(1): items.append(('tok',t.group(1)))
            else: items.append(('sub',t.group(2)))
    else:
        items=None
    if items is None:
        B.append('    intro w hw; obtain ⟨v1, e1⟩ := ih1 w hw; exact ⟨_, .%s e1⟩'%name); continue
    B.append('    intro w hw'+('; subst h' if eq else ''))
    B.append('    simp only [kinds_cons, kinds_append, kinds_nil] at hw')
    hcur='hw'
    n_items=len(items)
    for j,(kd,x) in enumerate(items):
        last=j==n_items-1
        if kd=='tok':
            B.append(f'    obtain ⟨s{j}, t{j}, e{j}, u{j}, rfl, x{j}, k{j}⟩ := kinds_cons_inv {hcur}')
            if ' ' in x:
                B.append(f'    obtain ⟨y{j}, rfl⟩ := kind_{x.split()[0][1:]} x{j}')
            else:
                B.append(f'    obtain rfl := kind_inv rfl x{j}')
            hcur=f'k{j}'
        else:
            i=subs.index(x)+1
            if last:
                B.append(f'    obtain ⟨v{i}, g{i}⟩ := ih{i} _ {hcur}')
            else:
                B.append(f'    obtain ⟨p{j}, u{j}, rfl, q{j}, k{j}⟩ := kinds_append_inv {hcur}')
                B.append(f'    obtain ⟨v{i}, g{i}⟩ := ih{i} _ q{j}')
                hcur=f'k{j}'
    if items[-1][0]=='tok':
        B.append(f'    obtain rfl := kinds_nil_inv {hcur}')
    gs=' '.join(f'g{i+1}' for i in range(k))
    B.append(f'    exact ⟨_, .{name}{" rfl" if eq else ""} {gs}⟩')
p('\n'.join(B)+'\n')

p('end Verif')
open(root+'/Proofs/RenameDerives.lean','w').write('\n'.join(P)+'\n')
