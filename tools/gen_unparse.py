#!/usr/bin/env python3
"""Generates Proofs/UnparseDerives.lean: the tokens of a tree derive the tree again.  Typing aid; the
output is ordinary Lean."""
import re,os
here=os.path.dirname(os.path.abspath(__file__))
root=os.path.join(here,'..','lean','Verif')
G=open(root+'/Spec/Grammar.lean').read()
body=G[G.index('inductive Derives'):]
P=[]
p=P.append
p('''import Verif.Proofs.Unparse
/-
The tokens of a tree (`unparse`) derive the same tree.  Generated by tools/gen_unparse.py.
-/
namespace Verif

set_option linter.unusedSimpArgs false
set_option maxHeartbeats 1000000

/-- a token without position -/
def STok.at0 (t : Token) : STok := ⟨default, t, default⟩

/-- no special identifier that an address type would take for something else -/
def Decent (w : List STok) : Prop :=
  ∀ t ∈ w, ∀ x, t.tok = .specialIdentifier x →
    x ≠ [] ∧ x ≠ str! "contract" ∧ x ≠ str! "library"

theorem Decent.left {a b : List STok} (h : Decent (a ++ b)) : Decent a :=
  fun t ht => h t (List.mem_append_left _ ht)
theorem Decent.right {a b : List STok} (h : Decent (a ++ b)) : Decent b :=
  fun t ht => h t (List.mem_append_right _ ht)
theorem Decent.tail {a : STok} {b : List STok} (h : Decent (a :: b)) : Decent b :=
  fun t ht => h t (List.mem_cons_of_mem _ ht)

@[simp] theorem startOf_at0 (w : List Token) : startOf (w.map STok.at0) = default := by
  cases w <;> rfl

theorem stopFrom_at0 : ∀ (w : List Token), stopFrom default (w.map STok.at0) = default
  | [] => rfl
  | _ :: w => stopFrom_at0 w

@[simp] theorem stopOf_at0 (w : List Token) : stopOf (w.map STok.at0) = default := stopFrom_at0 w

theorem mkW_at0 {α : Type} (w : List Token) (x : α) :
    mkW (w.map STok.at0) x = ⟨x, default, default⟩ := by simp [mkW]

theorem Derives.word {n : NT} {w w' : List STok} {v : Val n} (h : Derives n w v) (e : w = w') :
    Derives n w' v := e ▸ h

theorem Derives.starSnoc {n : NT} {w1 : List STok} {vs : List (Val n)}
    (h : Derives (.star n) w1 vs) : ∀ {w2 : List STok} {v : Val n}, Derives n w2 v →
      Derives (.star n) (w1 ++ w2) (vs ++ [v]) := by
  induction vs generalizing w1 with
  | nil =>
    intro w2 v d
    cases h
    simpa using Derives.starCons d .starNil
  | cons x xs ih =>
    intro w2 v d
    cases h with
    | starCons d1 d2 =>
      rw [List.append_assoc]
      exact Derives.starCons d1 (ih d2 d)

theorem Derives.plusSnoc {n : NT} {w1 w2 : List STok} {vs : List (Val n)} {v : Val n}
    (h : Derives (.plus n) w1 vs) (d : Derives n w2 v) :
      Derives (.plus n) (w1 ++ w2) (vs ++ [v]) := by
  cases h with
  | plusIntro d1 d2 =>
    rw [List.append_assoc]
    exact Derives.plusIntro d1 (d2.starSnoc d)

/-- what is needed besides the derivation in the inductive proof -/
def Extra : (n : NT) → Val n → Prop
  | .importDecls, v =>
    Derives (.plus .importedName) ((v.node.importList.flatMap (·.node.toks)).map STok.at0)
      (v.node.importList.map (W.strip NodeImportedName.strip))
  | .nextParamPair, v =>
    Derives .paramPair (v.node.toks.map STok.at0) (W.strip NodeParameterPair.strip v)
  | .star .nextParamPair, vs => ∀ q qs, vs = q :: qs →
    Derives .paramPair (q.node.toks.map STok.at0) (W.strip NodeParameterPair.strip q) ∧
    Derives (.star .nextParamPair) ((unparse (.star .nextParamPair) qs).map STok.at0)
      (stripV (.star .nextParamPair) qs)
  | _, _ => True

theorem flatMap_congr' {α : Type} {f g : α → List Token} (h : ∀ x, f x = g x) (xs : List α) :
    xs.flatMap f = xs.flatMap g := by
  induction xs with
  | nil => rfl
  | cons x xs ih => simp [h, ih]
''')
TOKS='''NodeByteStr NodeTypeNameIdentifier NodeImportedName NodeImportDeclarations NodeMetaIdentifier NodeVariableIdentifier NodeBuiltinArguments NodeTypeMapKey NodeTypeMapValue NodeTypeArgument NodeScillaType NodeTypeMapEntry NodeAddressTypeField NodeAddressType NodeTypeMapValueArguments NodeTypeMapValueAllowingTypeArguments NodeTypeAnnotation NodeTypedIdentifier NodeContractTypeArguments NodeValueLiteral NodeMessageEntry NodeAtomicExpression NodeMapAccess NodePattern NodeArgumentPattern NodeFullExpression NodePatternMatchExpressionClause NodeBlockchainFetchArguments NodeComponentId NodeRemoteFetchStatement NodeStatement NodeStatementBlock NodeParameterPair NodeComponentParameters NodeComponentBody NodeTypeAlternativeClause NodeLibrarySingleDefinition NodeLibraryDefinition NodeContractField NodeWithConstraint NodeProcedureDefinition NodeTransitionDefinition NodeComponentDefinition NodeContractDefinition NodeProgram'''.split()
p('macro "unparse_simp" : tactic => `(tactic| simp [mkW, unparse, sepBy, addressTag, '+', '.join(t+'.toks' for t in TOKS)+''',
  NodeTypeArgument.toksL_eq, NodeAddressTypeField.toksN_eq, NodeAddressTypeField.toksL_eq,
  NodeTypeMapValueArguments.toksL_eq, NodeArgumentPattern.toksL_eq,
  NodePatternMatchExpressionClause.toksL_eq, NodePatternMatchClause.toksL_eq,
  NodeStatement.toksN_eq, NodeStatement.toksL_eq, NodePatternMatchClause.toks_eq])
''')
A=['theorem Derives.reprint {n : NT} {w : List STok} {v : Val n} (d : Derives n w v) :',
   '    Decent w → Derives n ((unparse n v).map STok.at0) (stripV n v) ∧ Extra n v := by','  induction d with']
SPECIAL={}
SPECIAL['starCons']='''    intro hd
    have h1 := ih1 hd.left
    have h2 := ih2 hd.right
    refine ⟨(Derives.starCons h1.1 h2.1).word (by simp [unparse]), ?_⟩
    rename_i n _ _ _ _
    cases n
    case nextParamPair =>
      intro q qs e
      injection e with e1 e2
      subst e1 e2
      exact ⟨h1.2, h2.1⟩
    all_goals trivial'''
SPECIAL['plusIntro']='''    intro hd
    exact ⟨(Derives.plusIntro (ih1 hd.left).1 (ih2 hd.right).1).word (by simp [unparse]), trivial⟩'''
SPECIAL['starNil']='''    intro hd
    refine ⟨.starNil, ?_⟩
    rename_i n
    cases n
    case nextParamPair => intro q qs e; cases e
    all_goals trivial'''
SPECIAL['optNone']='''    intro hd
    exact ⟨.optNone, trivial⟩'''
SPECIAL['optSome']='''    intro hd
    exact ⟨(Derives.optSome (ih1 hd).1).word (by simp [unparse]), trivial⟩'''
SPECIAL['typeFun']='''    intro hd
    exact ⟨.typeFun (ih1 hd).1, trivial⟩'''
SPECIAL['typeRem']='''    intro hd
    exact ⟨.typeRem (ih1 hd).1, trivial⟩'''
SPECIAL['importMore']='''    subst h
    intro hd
    have h1 := (ih1 hd.left).2
    have h2 := (ih2 hd.right.tail).1
    have h3 := Derives.plusSnoc (n := .importedName) h1 h2
    refine ⟨((Derives.importFirst (s1 := default) (e1 := default) rfl h3).word ?_).cast ?_,
      (h3.word ?_).cast ?_⟩
    · reprint_word
    · rw [STok.at0_eq, ← List.map_append, ← List.map_cons, mkW_at0]
      simp [stripV, W.strip_eq]
    · unparse_simp
    · simp [stripV]'''
SPECIAL['builtinMore']='''    subst h
    intro hd
    have h1 := (ih1 hd.left).1
    have h2 := (ih2 hd.right).1
    refine ⟨?_, trivial⟩
    rename_i prev n
    by_cases he : prev.node.arguments = []
    · refine ((Derives.builtinOne h2).word ?_).cast ?_
      · simp [unparse, NodeBuiltinArguments.toks, mkW, he]
      · rw [mkW_at0]
        simp [stripV, he, W.strip_eq]
    · refine ((Derives.builtinMore rfl h1 h2).word ?_).cast ?_
      · simp [unparse, NodeBuiltinArguments.toks, mkW, he]
      · rw [← List.map_append, mkW_at0]
        simp [stripV, W.strip_eq]'''
SPECIAL['compParams']='''    subst h
    intro hd
    have h1 := (ih1 hd.tail.left).1
    have h2 := ih2 hd.tail.right.left
    refine ⟨?_, trivial⟩
    rename_i p ps _ _ _ _
    cases p with
    | some x =>
      refine ((Derives.compParams (s1 := default) (e1 := default) (s2 := default) (e2 := default)
        rfl h1 h2.1).word ?_).cast ?_
      · reprint_word
      · reprint_val
    | none =>
      cases ps with
      | nil =>
        refine ((Derives.compParams (s1 := default) (e1 := default) (s2 := default) (e2 := default)
          rfl h1 h2.1).word ?_).cast ?_
        · reprint_word
        · reprint_val
      | cons q qs =>
        obtain ⟨a, b⟩ := h2.2 q qs rfl
        refine ((Derives.compParams (s1 := default) (e1 := default) (s2 := default) (e2 := default)
          rfl (Derives.optSome a) b).word ?_).cast ?_
        · reprint_word
        · reprint_val'''
def nt_of(q):
    mm=re.match(r'Derives (\.\w+|\(\.\w+ \.\w+\)|\w+|\(\.star n\)) (w\d*) (.*)$',q)
    return mm.groups()
for m in re.finditer(r'^  \| (\w+) : (.*?)(?=^  \||^  --|^end)',body,re.S|re.M):
    name,txt=m.group(1),' '.join(m.group(2).split())
    parts=[q.strip() for q in txt.split('→')]
    eq=None;subs=[]
    for q in parts[:-1]:
        if q.startswith('Derives'): subs.append(nt_of(q))
        else: eq=q
    k=len(subs)
    ds=' '.join(f'd{i+1}' for i in range(k)); ihs=' '.join(f'ih{i+1}' for i in range(k))
    A.append(f'  | {name}{" h" if eq else ""}{" "+ds+" "+ihs if k else ""} =>')
    if name in SPECIAL: A.append(SPECIAL[name]); continue
    named=''
    if eq:
        A.append('    subst h')
        for st,tk,x,en in re.findall(r'⟨(\w+), (\.\w+)(?: (\w+))?, (\w+)⟩',eq):
            named+=f'({st} := default) ({en} := default) '
            if x: named+='(x := x) '; A.append('    rename_i x _ _')
    A.append('    intro hd')
    for i,(nt,ww,val) in enumerate(subs):
        # path to decency: membership
        A.append(f'    have g{i+1} := ih{i+1} (fun t ht => hd t (by simp [ht]))')
    gs=' '.join(f'g{i+1}.1' for i in range(k))
    extra='trivial'
    if name=='importFirst': extra='g1.1'
    if name=='nextParamPair': extra='g1.1'
    pre=''
    if name=='addrSpecial':
        A.append('    cases d2 with | specialId hs =>')
        A.append('    subst hs')
        A.append('    obtain ⟨q1, q2, q3⟩ := hd _ (List.mem_append_right _ (List.mem_cons_of_mem _ List.mem_cons_self)) _ rfl')
        pre='q1, q2, q3, '
    if name=='builtinOne' : pass
    if name=='addrContract': A.append('    rename_i fs _ _ _ _ _ _'); A.append('    cases fs')
    pref='    all_goals ' if name=='addrContract' else '    '
    A.append(f'{pref}refine ⟨((Derives.{name} {named}{"rfl " if eq else ""}{gs}).word ?_).cast ?_, {extra}⟩')
    if name=='addrContract':
        A.append('    any_goals reprint_word')
        A.append('    all_goals reprint_val')
    elif name=='stAccept':
        A.append('    · rfl')
        A.append('    · rfl')
    else:
        A.append(f'    · reprint_word'+(f' [{pre[:-2]}]' if pre else ''))
        A.append(f'    · reprint_val')
p('''theorem mkW_at0x {α : Type} (s e : Pos) (x : α) : (⟨x, s, e⟩ : W α).node = x := rfl

theorem STok.at0_eq (t : Token) : (⟨default, t, default⟩ : STok) = STok.at0 t := rfl

macro "reprint_word" : tactic => `(tactic|
  (first
    | rfl
    | (unparse_simp; done)
    | (unparse_simp; exact ⟨rfl, rfl⟩)
    | (unparse_simp; rfl)
    | (unparse_simp; simp [STok.at0]; done)))
syntax "reprint_word" "[" Lean.Parser.Tactic.simpLemma,* "]" : tactic
macro_rules
  | `(tactic| reprint_word [$ls,*]) => `(tactic|
     (simp [mkW, unparse, NodeAddressType.toks, addressTag, STok.at0, $ls,*]))
theorem at0_nil : ([] : List STok) = [].map STok.at0 := rfl
macro "reprint_val" : tactic => `(tactic|
  (first
  | rfl
  | (simp [stripV]; done)
  | (simp only [STok.at0_eq, ← List.map_cons, ← List.map_append, at0_nil, mkW_at0]
     first
      | rfl
      | (simp [stripV]; done)
      | (simp [stripV, Option.map_getD_nil, Option.map_toList]; done)
      | (simp [stripV, W.strip_eq]; done)
      | (simp [stripV, W.strip_eq, Option.map_getD_nil, Option.map_toList]; done))))
''')
p('\n'.join(A)+'\n')
p('end Verif')
open(root+'/Proofs/UnparseDerives.lean','w').write('\n'.join(P)+'\n')
