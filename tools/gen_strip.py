#!/usr/bin/env python3
"""Generates Spec/Strip.lean (erasing the positions of a syntax tree) and Proofs/StripDerives.lean
(the grammar does not look at positions).  Typing aid; the output is ordinary Lean."""
import re,os
from astlib import load,parse_ty
here=os.path.dirname(os.path.abspath(__file__))
root=os.path.join(here,'..','lean','Verif')
blocks=load()
G=open(root+'/Spec/Grammar.lean').read()
SUF={'W':'W','List':'L','Option':'O'}
def base(ty): return ty if isinstance(ty,str) else base(ty[1])
def suffix(ty): return '' if isinstance(ty,str) else SUF[ty[0]]+suffix(ty[1])
def leanty(ty):
    if isinstance(ty,str): return ty
    s=leanty(ty[1]); return f'{ty[0]} ({s})' if ' ' in s else f'{ty[0]} {s}'
def gen(ty,fn=lambda b:'id' if b=='Str' else b+'.strip'):
    """generic stripping function of a type"""
    if isinstance(ty,str): return fn(ty)
    i=gen(ty[1],fn); i=f'({i})' if ' ' in i else i
    return {'W':'W.strip','List':'List.map','Option':'Option.map'}[ty[0]]+' '+i
out=[]
o=out.append
o('''import Verif.Model.Ast
import Verif.Spec.Grammar
/-
Erasing the positions of a syntax tree: every `start`/`stop` becomes the default position, all else
is kept.  Two trees are equal up to positions iff their `strip`s are equal.
Generated by tools/gen_strip.py from Model/Ast.lean.
-/
namespace Verif

def W.strip {α : Type} (f : α → α) : W α → W α
  | ⟨x, _, _⟩ => ⟨f x, default, default⟩
''')
lemmas=[]
names=[]
for b in blocks:
    mem={t['name'] for t in b}
    rec=len(b)>1
    aux=[]
    def need(ty):
        if isinstance(ty,str): return
        need(ty[1])
        if ty not in aux: aux.append(ty)
    body=[]
    for t in b:
        L=[f'def {t["name"]}.strip : {t["name"]} → {t["name"]}']
        for c,fs in t['ctors']:
            args=[]
            for n,ty in fs:
                ty=parse_ty(ty)
                if rec and base(ty) in mem:
                    need(ty); f=base(ty)+'.strip'+suffix(ty)
                else: f=gen(ty)
                args.append(f'({f} x_{n})')
            v=' '.join('x_'+n for n,_ in fs)
            if t['kind']=='structure':
                L.append(f'  | ⟨{", ".join("x_"+n for n,_ in fs)}⟩ => ⟨{", ".join(a[1:-1] for a in args)}⟩')
            else:
                L.append(f'  | .{c}{" "+v if v else ""} => .{c}{" "+" ".join(args) if args else ""}')
        body.append('\n'.join(L)); names.append(t['name']+'.strip')
    for ty in aux:
        nm=base(ty)+'.strip'+suffix(ty); inner=base(ty)+'.strip'+suffix(ty[1])
        if ty[0]=='W':
            body.append(f'def {nm} : {leanty(ty)} → {leanty(ty)}\n  | ⟨x, _, _⟩ => ⟨{inner} x, default, default⟩')
            lemmas.append(f'@[simp] theorem {nm}_eq (x : {leanty(ty)}) : {nm} x = {gen(ty)} x := by cases x; rfl')
        elif ty[0]=='Option':
            body.append(f'def {nm} : {leanty(ty)} → {leanty(ty)}\n  | none => none\n  | some x => some ({inner} x)')
            lemmas.append(f'@[simp] theorem {nm}_eq (x : {leanty(ty)}) : {nm} x = {gen(ty)} x := by\n  cases x <;> simp [{nm}]')
        else:
            body.append(f'def {nm} : {leanty(ty)} → {leanty(ty)}\n  | [] => []\n  | x :: xs => {inner} x :: {nm} xs')
            lemmas.append(f'@[simp] theorem {nm}_eq : ∀ x : {leanty(ty)}, {nm} x = {gen(ty)} x\n  | [] => rfl\n  | x :: xs => by simp [{nm}, {nm}_eq xs]')
    if rec: o('mutual\n'+'\n'.join(body)+'\nend\n')
    else: o('\n'.join(body)+'\n')
# stripV
m=re.search(r'def Val : NT → Type\n(.*?)\n\n',G,re.S)
L=['/-- erasing the positions of the value of a nonterminal -/','def stripV : (n : NT) → Val n → Val n']
for ln in m.group(1).split('\n'):
    mm=re.match(r'  \| \.(\w+)( n)? => (.*)$',ln)
    if mm.group(2):
        f={'star':'List.map','plus':'List.map','opt':'Option.map'}[mm.group(1)]
        L.append(f'  | .{mm.group(1)} n => {f} (stripV n)')
    else:
        L.append(f'  | .{mm.group(1)} => {gen(parse_ty(mm.group(3)))}')
o('\n'.join(L)+'\n')
o('''/-- the same for tokens -/
def STok.strip (t : STok) : STok := ⟨default, t.tok, default⟩

end Verif''')
open(root+'/Spec/Strip.lean','w').write('\n'.join(out)+'\n')
# proofs
P=[]
p=P.append
p('''import Verif.Spec.Strip
import Verif.Spec.Scan
import Verif.Proofs.ParserScan
/-
The grammar does not look at positions.  Generated by tools/gen_strip.py.
-/
namespace Verif

set_option linter.unusedSimpArgs false
''')
p('attribute [simp] '+' '.join(names)+'\n')
p('\n'.join(lemmas)+'\n')
p('''@[simp] theorem W.strip_node {α : Type} (f : α → α) (w : W α) : (W.strip f w).node = f w.node := rfl

@[simp] theorem W.strip_mkW {α : Type} (f : α → α) (w : List STok) (x : α) :
    W.strip f (mkW w x) = ⟨f x, default, default⟩ := rfl

@[simp] theorem startOf_strip (w : List STok) : startOf (w.map STok.strip) = default := by
  cases w <;> rfl

theorem stopFrom_strip : ∀ (w : List STok), stopFrom default (w.map STok.strip) = default
  | [] => rfl
  | _ :: w => stopFrom_strip w

@[simp] theorem stopOf_strip (w : List STok) : stopOf (w.map STok.strip) = default :=
  stopFrom_strip w

@[simp] theorem importList_strip (d : NodeImportDeclarations) :
    d.strip.importList = d.importList.map (W.strip NodeImportedName.strip) := by cases d; rfl

@[simp] theorem arguments_strip (d : NodeBuiltinArguments) :
    d.strip.arguments = d.arguments.map (W.strip NodeVariableIdentifier.strip) := by cases d; rfl

theorem W.strip_eq {α : Type} (f : α → α) (x : α) (a b : Pos) :
    W.strip f ⟨x, a, b⟩ = ⟨f x, default, default⟩ := rfl

theorem Option.map_getD_nil {α β : Type} (f : α → β) (x : Option (List α)) :
    (Option.map (List.map f) x).getD [] = List.map f (x.getD []) := by cases x <;> rfl

theorem Option.map_toList {α β : Type} (f : α → β) (x : Option α) :
    (Option.map f x).toList = List.map f x.toList := by cases x <;> rfl

theorem Derives.cast {n : NT} {w : List STok} {v v' : Val n} (h : Derives n w v) (e : v = v') :
    Derives n w v' := e ▸ h

theorem mkW_strip {α : Type} (w : List STok) (x : α) :
    mkW (w.map STok.strip) x = ⟨x, default, default⟩ := by simp [mkW]
''')
body=G[G.index('inductive Derives'):]
A=['theorem Derives.strip {n : NT} {w : List STok} {v : Val n} (d : Derives n w v) :',
   '    Derives n (w.map STok.strip) (stripV n v) := by','  induction d with']
B=['/-- a derivation can be replayed on tokens with other positions -/',
   'theorem Derives.relift {n : NT} {w0 : List STok} {v : Val n} (d : Derives n w0 v) :',
   '    ∀ w, bare w = bare w0 → ∃ v\', Derives n w v\' := by','  induction d with']
for m in re.finditer(r'^  \| (\w+) : (.*?)(?=^  \||^  --|^end)',body,re.S|re.M):
    name,txt=m.group(1),' '.join(m.group(2).split())
    parts=[q.strip() for q in txt.split('→')]
    eq=None;subs=[]
    for q in parts[:-1]:
        if q.startswith('Derives'):
            mm=re.match(r'Derives (\.\w+|\(\.\w+ \.\w+\)|\w+|\(\.star n\)) (w\d*) (.*)$',q); subs.append(mm.group(2))
        else: eq=q
    k=len(subs)
    ds=' '.join(f'd{i+1}' for i in range(k)); ihs=' '.join(f'ih{i+1}' for i in range(k))
    # strip
    A.append(f'  | {name}{" h" if eq else ""}{" "+ds+" "+ihs if k else ""} =>')
    if name in('starNil','optNone'):
        A.append(f'    exact .{name}')
    elif name=='optSome': A.append('    exact .optSome ih1')
    elif name in('starCons','plusIntro'):
        A.append(f'    rw [List.map_append]; exact .{name} ih1 ih2')
    elif name in('typeFun','typeRem'): A.append(f'    exact .{name} ih1')
    else:
        named=''
        if eq:
            A.append('    subst h')
            nm=re.findall(r'⟨(\w+), (\.\w+)(?: (\w+))?, (\w+)⟩',eq)
            for st,_,x,en in nm:
                named+=f'({st} := default) ({en} := default) '
        prem='(by simp only [List.map_cons, List.map_append, List.map_nil, STok.strip] <;> rfl) ' if eq else ''
        A.append(f'    exact (Derives.{name} {named}{prem}{ihs}).cast (by (try simp only [mkW_strip, stopOf_strip]); first | rfl | (simp [stripV]; done) | (simp [stripV, Option.map_getD_nil, Option.map_toList]; done) | simp [stripV, W.strip_eq])')
    # relift
    B.append(f'  | {name}{" h" if eq else ""}{" "+ds+" "+ihs if k else ""} =>')
    if name in('starNil','optNone'):
        B.append(f'    intro w hw; simp [bare] at hw; subst hw; exact ⟨_, .{name}⟩'); continue
    if name in('starCons','plusIntro'):
        items=[('sub','w1'),('sub','w2')]
    elif eq:
        rhs=eq.split(' = ',1)[1]
        items=[]
        for t in re.finditer(r'⟨\w+, (\.\w+(?: \w+)?), \w+⟩|\b(w\d*)\b',rhs):
            if t.group(1): items.append(('tok',t.group(1)))
            else: items.append(('sub',t.group(2)))
    else:
        items=None
    if items is None:
        B.append('    intro w hw; obtain ⟨v1, e1⟩ := ih1 w hw; exact ⟨_, .%s e1⟩'%name); continue
    B.append('    intro w hw'+('; subst h' if eq else ''))
    if name in('starCons','plusIntro'): pass
    B.append('    simp only [bare_cons, bare_append, bare_nil] at hw')
    cur='w';hcur='hw';n=0
    n_items=len(items)
    for j,(kd,x) in enumerate(items):
        last=j==n_items-1
        if kd=='tok':
            B.append(f'    obtain ⟨s{j}, e{j}, u{j}, rfl, k{j}⟩ := bare_cons_inv {hcur}')
            cur=f'u{j}';hcur=f'k{j}'
        else:
            i=subs.index(x)+1
            if last:
                B.append(f'    obtain ⟨v{i}, g{i}⟩ := ih{i} _ {hcur}')
            else:
                B.append(f'    obtain ⟨p{j}, u{j}, rfl, q{j}, k{j}⟩ := bare_append_inv {hcur}')
                B.append(f'    obtain ⟨v{i}, g{i}⟩ := ih{i} _ q{j}')
                cur=f'u{j}';hcur=f'k{j}'
    if items[-1][0]=='tok':
        B.append(f'    obtain rfl := bare_nil_inv {hcur}')
    gs=' '.join(f'g{i+1}' for i in range(k))
    B.append(f'    exact ⟨_, .{name}{" rfl" if eq else ""} {gs}⟩')
p('\n'.join(A)+'\n')
p('''theorem bare_cons_inv {w : List STok} {t : Token} {r : List Token} (h : bare w = t :: r) :
    ∃ s e u, w = ⟨s, t, e⟩ :: u ∧ bare u = r := by
  cases w with
  | nil => simp [bare] at h
  | cons a u =>
    obtain ⟨s, t', e⟩ := a
    simp only [bare_cons, List.cons.injEq] at h
    obtain ⟨rfl, h⟩ := h
    exact ⟨s, e, u, rfl, h⟩

theorem bare_append_inv {w : List STok} {a b : List Token} (h : bare w = a ++ b) :
    ∃ p u, w = p ++ u ∧ bare p = a ∧ bare u = b := by
  simp only [bare, List.map_eq_append_iff] at h
  obtain ⟨p, u, rfl, h1, h2⟩ := h
  exact ⟨p, u, rfl, h1, h2⟩

theorem bare_nil_inv {w : List STok} (h : bare w = []) : w = [] := by
  simpa [bare] using h
''')
p('\n'.join(B)+'\n')
p('end Verif')
open(root+'/Proofs/StripDerives.lean','w').write('\n'.join(P)+'\n')
