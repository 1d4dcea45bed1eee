#!/usr/bin/env python3
"""Generates Proofs/EssentialDerives.lean: the essential tokens of a derivable word are the tokens of
its tree.  Typing aid; the output is ordinary Lean."""
import re,os
here=os.path.dirname(os.path.abspath(__file__))
root=os.path.join(here,'..','lean','Verif')
G=open(root+'/Spec/Grammar.lean').read()
body=G[G.index('inductive Derives'):]
prods=[]
for m in re.finditer(r'^  \| (\w+) : (.*?)(?=^  \||^  --|^end)',body,re.S|re.M):
    name,txt=m.group(1),' '.join(m.group(2).split())
    parts=[q.strip() for q in txt.split('→')]
    eq=None;subs=[]
    for q in parts[:-1]:
        if q.startswith('Derives'):
            mm=re.match(r'Derives (\.\w+|\(\.\w+ \.\w+\)|\w+|\(\.star n\)) (w\d*) (.*)$',q)
            subs.append(mm.groups())
        else: eq=q
    items=[]
    if eq:
        rhs=eq.split('=',1)[1]
        for t in re.finditer(r'⟨\w+, (\.\w+)(?: \w+)?, \w+⟩|\b(w\d+)\b',rhs):
            items.append(('tok',t.group(1)) if t.group(1) else ('sub',t.group(2)))
    elif subs: items=[('sub',s[1]) for s in subs]
    prods.append((name,eq,subs,items))
NULL=lambda nt: 'opt' in nt or 'star' in nt
GEN=('starNil','starCons','plusIntro','optNone','optSome')
P=[]
p=P.append
p('''import Verif.Proofs.UnparseDerives
import Verif.Proofs.ParserHead
import Verif.Spec.Essential
/-
The essential tokens of a derivable word are the tokens of its tree.
Generated by tools/gen_essential.py.
-/
namespace Verif

set_option linter.unusedSimpArgs false
set_option maxHeartbeats 1000000

/-- the token before is not `builtin` -/
def NB (b : List Token) : Prop := b.head? ≠ some .builtin

/-- nonterminals that can end with `}` -/
def endsBrace : NT → Bool
  | .contractTypeArgs | .fullExpr | .pmExprClause | .statement | .nextStatement | .stmtBlock
  | .pmClause | .librarySingle | .libraryDef | .contractField | .contractDef | .program => true
  | .star n => endsBrace n
  | .plus n => endsBrace n
  | .opt n => endsBrace n
  | _ => false

/-- nonterminals that can end with an expression -/
def exprLast : NT → Bool
  | .fullExpr | .pmExprClause | .statement | .nextStatement | .stmtBlock
  | .pmClause | .librarySingle | .libraryDef | .contractField | .contractDef | .program => true
  | .star n => exprLast n
  | .plus n => exprLast n
  | .opt n => exprLast n
  | _ => false

/-- what is known about the tokens before, after something has been read -/
def FineB (e : Bool) (c : List Token) : Prop :=
  c.head? ≠ some .openParen ∧ c.head? ≠ some .builtin ∧
    (∀ x r, c ≠ .identifier x :: .builtin :: r) ∧ (e = false → c.head? ≠ some .closeBrace)

theorem FineB.nb {e : Bool} {c : List Token} (h : FineB e c) : NB c := h.2.1

theorem FineB.weaken {e e' : Bool} {c : List Token} (h : FineB e c) (he : e' = false → e = false) :
    FineB e' c := ⟨h.1, h.2.1, h.2.2.1, fun k => h.2.2.2 (he k)⟩

theorem FineB.step {e e1 e2 : Bool} {c : List Token} {w : List STok} (h : FineB e1 c)
    (k : w ≠ [] → NB c → FineB e2 ((bare w).reverse ++ c)) (he : e = false → e1 = false ∧ e2 = false) :
    FineB e ((bare w).reverse ++ c) := by
  by_cases hw : w = []
  · subst hw; exact h.weaken (fun k => (he k).1)
  · exact (k hw h.nb).weaken (fun k => (he k).2)

theorem FineB.tok {e : Bool} {t : Token} {c : List Token} (h1 : t ≠ .openParen) (h2 : t ≠ .builtin)
    (h3 : ∀ x, t ≠ .identifier x) (h4 : e = false → t ≠ .closeBrace) : FineB e (t :: c) :=
  ⟨by simpa using h1, by simpa using h2, fun x r h => h3 x (by injection h), fun k => by simpa using h4 k⟩
''')
A=['/-- what a derivable word ends with -/',
   'theorem Derives.fine {n : NT} {w : List STok} {v : Val n} (d : Derives n w v) :',
   '    ∀ b : List Token, w ≠ [] → NB b → FineB (endsBrace n) ((bare w).reverse ++ b) := by','  induction d with']
FTOK='FineB.tok (by decide) (by decide) (by intro _ h; cases h) (by decide)'
def fine_case(name,eq,subs,items):
    k=len(subs)
    ds=' '.join(f'd{i+1}' for i in range(k)); ihs=' '.join(f'ih{i+1}' for i in range(k))
    A.append(f'  | {name}{" h" if eq else ""}{" "+ds+" "+ihs if k else ""} =>')
    if name in('starNil','optNone'):
        A.append('    intro b hw; exact absurd rfl hw'); return
    if name=='optSome':
        A.append('    intro b hw hb; exact ih1 b hw hb'); return
    if name in('starCons','plusIntro'):
        A.append('''    rename_i n w1 v w2 vs
    intro b hw hb
    by_cases h1 : w1 = []
    · subst h1
      exact ih2 b (by simpa using hw) hb
    · have f1 := ih1 b h1 hb
      have := FineB.step (e := endsBrace n) f1 (ih2 _) (fun k => ⟨k, k⟩)
      simpa [bare_append, endsBrace] using this'''); return
    if name=='exprBuiltin':
        A.append('''    subst h
    intro b hw hb
    cases d1 with | regularId hr =>
    subst hr
    rename_i w2 w3 _ _ _ _ x _ _
    have nb : NB ((bare w2).reverse ++ (.identifier x :: .builtin :: b)) := by
      by_cases h2 : w2 = []
      · subst h2; simp [NB, bare]
      · exact (ih2 _ h2 (by simp [NB])).nb
    have f3 := ih3 _ (d3.ne_nil rfl) nb
    refine FineB.weaken (e := endsBrace .builtinArgs) ?_ (by decide)
    simpa [bare_append, bare_cons, bare_nil] using f3'''); return
    if eq is None and k==1:
        A.append('    intro b hw hb; exact (ih1 b hw hb).weaken (by decide)'); return
    A.append('    subst h')
    A.append('    intro b hw hb')
    if not subs and name in ('regularId',):
        A.append('''    refine ⟨by simp [bare], by simp [bare], ?_, by simp [bare]⟩
    intro x r e
    simp only [bare, List.map_cons, List.map_nil, List.reverse_cons, List.reverse_nil,
      List.nil_append, List.cons_append, List.cons.injEq] at e
    rw [e.2] at hb
    exact hb rfl'''); return
    if items[-1][0]=='tok':
        A.append('    refine ⟨by simp [bare], by simp [bare], ?_, by simp [bare, endsBrace]⟩')
        A.append('    intro x r e; simp [bare] at e'); return
    # walk
    f='hb';kind='nb';E=None
    for j,(kd,x) in enumerate(items):
        if kd=='tok':
            if x=='.openParen':
                f=f'(show NB (Token.openParen :: _) from by simp [NB])';kind='nb'
            else:
                E='true' if x=='.closeBrace' else 'false'
                f=f'(FineB.tok (e := {E}) (t := {x}) (by decide) (by decide) (by intro _ h; cases h) (by decide))';kind='fine'
        else:
            i=[s[1] for s in subs].index(x);nt=subs[i][0]
            if NULL(nt):
                assert kind=='fine',name
                E2=f'({E} || endsBrace {nt})'
                f=f'(FineB.step (e := {E2}) {f} (ih{i+1} _) (by decide))'
                E=E2
            else:
                nb=f if kind=='nb' else f'(FineB.nb {f})'
                f=f'(ih{i+1} _ (d{i+1}.ne_nil rfl) {nb})'
                E=f'(endsBrace {nt})'
            kind='fine'
    A.append(f'    refine FineB.weaken (e := {E}) ?_ (by decide)')
    A.append(f'    simpa [bare_append, bare_cons] using {f}')
for pr in prods: fine_case(*pr)
p('\n'.join(A)+'\n')
p("""/-! ### what is kept of a word, given what stands before and after it -/

def kept (b : List Token) : List Token → List Token → List Token
  | [], _ => []
  | t :: r, a => (if forgotten b t (r ++ a) then [] else [t]) ++ kept (t :: b) r a

theorem essentialFrom_eq : ∀ (w b : List Token), essentialFrom b w = kept b w []
  | [], _ => rfl
  | t :: r, b => by
    simp only [essentialFrom, kept, essentialFrom_eq r, List.append_nil]
    split <;> simp

def K (b : List Token) (w : List STok) (a r : List Token) : Prop := kept b (bare w) a = r

theorem K.nil {b a : List Token} : K b [] a [] := rfl

theorem K.tok {b a r : List Token} {w : List STok} {t : Token} {s e : Pos}
    (h : forgotten b t (bare w ++ a) = false) (k : K (t :: b) w a r) :
    K b (⟨s, t, e⟩ :: w) a (t :: r) := by
  simp only [K, bare_cons, kept, h, Bool.false_eq_true, if_false] at k ⊢
  rw [k]; rfl

theorem K.drop {b a r : List Token} {w : List STok} {t : Token} {s e : Pos}
    (h : forgotten b t (bare w ++ a) = true) (k : K (t :: b) w a r) :
    K b (⟨s, t, e⟩ :: w) a r := by
  simp only [K, bare_cons, kept, h, if_true] at k ⊢
  rw [k]; rfl

theorem kept_append : ∀ (w1 w2 b a : List Token),
    kept b (w1 ++ w2) a = kept b w1 (w2 ++ a) ++ kept (w1.reverse ++ b) w2 a
  | [], _, _, _ => rfl
  | t :: r, w2, b, a => by
    simp only [List.cons_append, kept, kept_append r w2, List.append_assoc, List.reverse_cons,
      List.nil_append]

theorem K.app {b a r1 r2 : List Token} {w1 w2 : List STok} (k1 : K b w1 (bare w2 ++ a) r1)
    (k2 : K ((bare w1).reverse ++ b) w2 a r2) : K b (w1 ++ w2) a (r1 ++ r2) := by
  simp only [K, bare_append, kept_append] at k1 k2 ⊢
  rw [k1, k2]

theorem K.to {b a r r' : List Token} {w : List STok} (k : K b w a r) (h : r = r') : K b w a r' :=
  h ▸ k

/-- what must be known about the tokens before a word -/
def Ctx (b : List Token) (w : List STok) : Prop :=
  (b.head? = some .openParen → (bare w).head? ≠ some .comma) ∧ NB b ∧
    (argumentsBegin b = true → (bare w).head? ≠ some .openParen)

theorem Ctx.left {b : List Token} {w1 w2 : List STok} (h : Ctx b (w1 ++ w2)) : Ctx b w1 := by
  cases w1 with
  | nil => exact ⟨fun _ => by simp [bare], h.2.1, fun _ => by simp [bare]⟩
  | cons t w1 => exact ⟨fun k => by simpa [bare] using h.1 k, h.2.1, fun k => by simpa [bare] using h.2.2 k⟩

theorem head_of {n : NT} {w : List STok} {v : Val n} (d : Derives n w v) {t : Token}
    (h : t.kind ∉ heads n) : (bare w).head? ≠ some t := by
  intro e
  cases w with
  | nil => simp [bare] at e
  | cons a w =>
    simp only [bare_cons, List.head?_cons, Option.some.injEq] at e
    exact h (e ▸ d.headed a w rfl)

theorem FineB.noArgs {c : List Token} (h : FineB false c) : argumentsBegin c = false := by
  obtain ⟨h1, h2, h3, h4⟩ := h
  unfold argumentsBegin
  split
  · rename_i x r; exact absurd rfl (h3 x r)
  · exact absurd rfl (h4 rfl)
  · rfl

theorem Ctx.ofFine {E : Bool} {n : NT} {c : List Token} {w : List STok} {v : Val n} (f : FineB E c)
    (d : Derives n w v) (h : E = false ∨ Token.openParen ∉ heads n) : Ctx c w := by
  refine ⟨fun k => absurd k f.1, f.nb, fun k => ?_⟩
  rcases h with rfl | h
  · rw [f.noArgs] at k; exact absurd k (by decide)
  · exact head_of d h

theorem Ctx.ofParen {n : NT} {c : List Token} {w : List STok} {v : Val n} (d : Derives n w v)
    (h : Token.comma ∉ heads n) : Ctx (.openParen :: c) w :=
  ⟨fun _ => head_of d h, by simp [NB], fun k => by simp [argumentsBegin] at k⟩

theorem Ctx.noOpen {b a : List Token} {w : List STok} {s e : Pos}
    (h : Ctx b (⟨s, .openParen, e⟩ :: w)) : forgotten b .openParen a = false := by
  have := h.2.2
  simp only [bare_cons, List.head?_cons, ne_eq, not_true_eq_false, imp_false,
    Bool.not_eq_true] at this
  simp [forgotten, this]

theorem Ctx.noUnit {b a : List Token} {w : List STok} {s e : Pos}
    (h : Ctx b (⟨s, .openParen, e⟩ :: w)) : forgotten (.openParen :: b) .closeParen a = false := by
  have := h.2.2
  simp only [bare_cons, List.head?_cons, ne_eq, not_true_eq_false, imp_false,
    Bool.not_eq_true] at this
  simp [forgotten, this]

theorem Ctx.noComma {b a : List Token} {w : List STok} {s e : Pos}
    (h : Ctx b (⟨s, .comma, e⟩ :: w)) : forgotten b .comma a = false := by
  have := h.1
  simp only [bare_cons, List.head?_cons, ne_eq, not_true_eq_false, imp_false] at this
  simpa [forgotten] using this

theorem FineB.noClose {E : Bool} {c a : List Token} (f : FineB E c) :
    forgotten c .closeParen a = false := by
  simp [forgotten, f.1]

/-- the next token does not start a variable -/
def NotVar (a : List Token) : Prop := a.head?.any startsVariable = false

theorem NotVar.tok {t : Token} {a : List Token} (h : startsVariable t = false) :
    NotVar (t :: a) := by simpa [NotVar] using h

theorem startsVariable_kind (t : Token) : startsVariable t.kind = startsVariable t := by
  cases t <;> rfl

theorem NotVar.app {n : NT} {a : List Token} {w : List STok} {v : Val n} (d : Derives n w v)
    (h : (heads n).all (fun k => !startsVariable k) = true) (k : NotVar a) :
    NotVar (bare w ++ a) := by
  cases w with
  | nil => exact k
  | cons t w =>
    have := List.all_eq_true.mp h _ (d.headed t w rfl)
    simp only [startsVariable_kind, Bool.not_eq_true'] at this
    simpa [NotVar, bare_cons] using this

theorem NotVar.app2 {n : NT} {a : List Token} {w w' : List STok} {v : Val n} (d : Derives n w v)
    (h : (heads n).all (fun k => !startsVariable k) = true) (k : NotVar (bare w' ++ a)) :
    NotVar (bare (w ++ w') ++ a) := by
  rw [bare_append, List.append_assoc]; exact k.app d h

/-- nonterminals whose words contain `import` -/
def impNT : NT → Bool
  | .importDecls | .program => true
  | .star n => impNT n
  | .plus n => impNT n
  | .opt n => impNT n
  | _ => false

/-- nonterminals as they are used in the grammar -/
def okNT : NT → Bool
  | .builtinArgs => false
  | .star n | .plus n =>
    okNT n && !impNT n && !nullable n &&
    (!exprLast n || (heads n).all (fun k => !startsVariable k)) &&
    (!endsBrace n || !(heads n).contains .openParen)
  | .opt n => okNT n
  | _ => true

def Std (n : NT) (w : List STok) (v : Val n) : Prop :=
  okNT n = true → ∀ b a, Ctx b w → (impNT n = true → Token.import_ ∉ b) →
    (exprLast n = true → NotVar a) → K b w a (unparse n v)

def Else : (n : NT) → List STok → Val n → Prop
  | .builtinArgs, w, v => ∀ b a, argumentsBegin b = true →
    K b w a (if v.node.arguments = [] then
        (if a.head?.any startsVariable then [] else [.openParen, .closeParen])
      else v.node.arguments.flatMap (·.node.toks))
  | .nextParamPair, w, v => ∀ b a, K (.openParen :: b) w a v.node.toks
  | .star .nextParamPair, w, vs => ∀ b a,
    K (.openParen :: b) w a (sepBy .comma (·.node.toks) vs)
  | _, _, _ => True

theorem argumentsBegin_nb {b : List Token} (h : argumentsBegin b = true) :
    b.head? ≠ some .openParen ∧ NB b := by
  unfold argumentsBegin at h
  split at h
  · simp [NB]
  · simp [NB]
  · cases h
""")
M=['/-- the essential tokens of a derivable word, in any context it may stand in -/',
   'theorem Derives.kept {n : NT} {w : List STok} {v : Val n} (d : Derives n w v) :',
   '    Decent w → Std n w v ∧ Else n w v := by','  induction d with']
SP={}
SP['starNil']="""    intro hd
    refine ⟨fun _ b a _ _ _ => K.nil, ?_⟩
    rename_i n
    cases n
    case nextParamPair => intro b a; exact K.nil
    all_goals trivial"""
SP['optNone']="""    intro hd
    exact ⟨fun _ b a _ _ _ => K.nil, trivial⟩"""
SP['optSome']="""    intro hd
    refine ⟨fun ok b a hc hi ha => ?_, trivial⟩
    exact ((ih1 hd).1 ok b a hc hi ha).to (by simp [unparse])"""
CONS="""    intro hd
    rename_i n w1 v w2 vs
    have g1 := ih1 hd.left
    have g2 := ih2 hd.right
    have std : Std (.%s n) (w1 ++ w2) (v :: vs) := by
      intro ok b a hc hi ha
      have ok0 : okNT (.star n) = true := ok
      simp only [okNT, Bool.and_eq_true, Bool.or_eq_true, Bool.not_eq_true'] at ok
      obtain ⟨⟨⟨⟨o1, o2⟩, o3⟩, o4⟩, o5⟩ := ok
      have f := d1.fine b (d1.ne_nil o3) hc.2.1
      refine ((g1.1 o1 b _ hc.left (fun h => absurd h (by simp [o2])) (fun h => ?_)).app
        (g2.1 ok0 _ a (Ctx.ofFine f d2 ?_) (fun h => absurd (show impNT n = true from h) (by simp [o2]))
          (fun h => ha h))).to (by simp [unparse])
      · rcases o4 with o4 | o4
        · rw [o4] at h; cases h
        · exact NotVar.app d2 o4 (ha h)
      · rcases o5 with o5 | o5
        · exact .inl o5
        · exact .inr (by simpa [heads] using o5)"""
SP['starCons']=CONS%'star'+"""
    refine ⟨std, ?_⟩
    cases n
    case nextParamPair =>
      intro b a
      have f := d1.fine (.openParen :: b) (d1.ne_nil rfl) (by simp [NB])
      exact ((g1.2 b _).app (g2.1 (by decide) _ a (Ctx.ofFine f d2 (.inl rfl))
        (fun h => absurd h (by decide)) (fun h => absurd h (by decide)))).to
          (by simp [sepBy, unparse])
    all_goals trivial"""
SP['plusIntro']=CONS%'plus'+"""
    exact ⟨std, trivial⟩"""
SP['exprBuiltin']="""    subst h
    intro hd
    rename_i w1 w2 w3 b0 targs xs _ _
    have g2 := ih2 (fun t ht => hd t (by simp [ht]))
    have g3 := ih3 (fun t ht => hd t (by simp [ht]))
    refine ⟨fun hok b a hc hi ha => ?_, trivial⟩
    cases d1 with | regularId hr =>
    subst hr
    rename_i x _ _
    have hab : argumentsBegin ((bare w2).reverse ++ .identifier x :: .builtin :: b) = true := by
      cases d2 with
      | optNone => rfl
      | optSome d2 =>
        cases d2 with
        | contractTypeArgs h _ => subst h; simp [bare, argumentsBegin]
    have k2 := fun a => g2.1 (by decide) (.identifier x :: .builtin :: b) a
      ⟨fun h => by simp at h, by simp [NB], fun _ => head_of d2 (by decide)⟩
      (fun h => absurd h (by decide)) (fun h => absurd h (by decide))
    have k3 := g3.2 _ a hab
    refine (K.tok rfl (K.tok rfl (K.app (k2 _) k3))).to ?_
    have := ha rfl
    simp only [NotVar] at this
    simp [unparse, mkW, NodeFullExpression.toks, NodeBuiltinArguments.toks, this]"""
SP['importMore']="""    subst h
    intro hd
    have g1 := ih1 hd.left
    have g2 := ih2 hd.right.tail
    refine ⟨fun hok b a hc hi ha => ?_, trivial⟩
    rename_i w1 _ _ _ _ _
    have hin : ∀ a, forgotten ((bare w1).reverse ++ b) .import_ a = true := by
      intro a
      cases w1 with
      | nil => exact absurd rfl (d1.ne_nil rfl)
      | cons t w1 =>
        have := d1.headed t w1 rfl
        have ht : t.tok = .import_ := by
          revert this
          cases t.tok <;> simp [Token.kind, heads, first]
        simp [forgotten, bare_cons, ht]
    refine (K.app (g1.1 rfl b _ hc.left hi (fun h => absurd h (by decide))) (K.drop (hin _)
      (g2.1 rfl _ a (Ctx.ofFine (E := false) (FineB.tok (by decide) (by decide) (by intro _ h; cases h) (by decide))
        d2 (.inl rfl)) (fun h => absurd h (by decide)) (fun h => absurd h (by decide))))).to ?_
    unparse_simp"""
SP['builtinMore']="""    subst h
    intro hd
    have g1 := ih1 hd.left
    have g2 := ih2 hd.right
    refine ⟨fun h => absurd h (by decide), fun b a hb => ?_⟩
    have f := d1.fine b (d1.ne_nil rfl) (argumentsBegin_nb hb).2
    have k1 := g1.2 b
    refine (K.app (k1 _ hb) (g2.1 rfl _ a (Ctx.ofFine f d2 (.inl rfl)) (fun h => absurd h (by decide))
      (fun h => absurd h (by decide)))).to ?_
    have hv := d2.startsVar (a := a)
    rename_i prev _
    by_cases he : prev.node.arguments = []
    · simp only [mkW, he, hv, unparse]; simp
    · simp [mkW, he, unparse]"""
SP['builtinOne']="""    intro hd
    have g1 := ih1 hd
    refine ⟨fun h => absurd h (by decide), fun b a hb => ?_⟩
    refine (g1.1 rfl b a ⟨fun h => absurd h (argumentsBegin_nb hb).1, (argumentsBegin_nb hb).2,
      fun _ => head_of d1 (by decide)⟩ (fun h => absurd h (by decide)) (fun h => absurd h (by decide))).to ?_
    simp [mkW, unparse]"""
SP['builtinUnit']="""    subst h
    intro hd
    refine ⟨fun h => absurd h (by decide), fun b a hb => ?_⟩
    by_cases hv : a.head?.any startsVariable = true
    · refine (K.drop ?_ (K.drop ?_ K.nil)).to (by simp only [mkW, hv]; simp)
      · simp [forgotten, hb, bare, hv]
      · simp [forgotten, hb, bare, hv]
    · refine (K.tok ?_ (K.tok ?_ K.nil)).to (by simp only [mkW, hv]; simp)
      · simp [forgotten, hb, bare, hv]
      · simp [forgotten, hb, bare, hv]"""
SP['nextParamPair']="""    subst h
    intro hd
    have g1 := ih1 hd.tail
    have k := fun b a => g1.1 rfl (.comma :: b) a (Ctx.ofFine (E := false) (FineB.tok (by decide) (by decide) (by intro _ h; cases h) (by decide))
        d1 (.inl rfl)) (fun h => absurd h (by decide)) (fun h => absurd h (by decide))
    exact ⟨fun _ b a hc _ _ => K.tok hc.noComma (k b a), fun b a => K.drop rfl (k _ a)⟩"""
SP['compParams']="""    subst h
    intro hd
    have g1 := ih1 hd.tail.left
    have g2 := ih2 hd.tail.right.left
    refine ⟨fun hok b a hc hi ha => ?_, trivial⟩
    cases d1 with
    | optNone =>
      cases d2 with
      | starNil => exact K.tok hc.noOpen (K.tok hc.noUnit K.nil)
      | starCons d3 d4 =>
        have f := (Derives.starCons d3 d4).fine (.openParen :: b)
          (by intro h; exact d3.ne_nil rfl (List.append_eq_nil_iff.mp h).1) (by simp [NB])
        exact (K.tok hc.noOpen (K.app (g2.2 b _) (K.tok f.noClose K.nil))).to
          (by unparse_simp)
    | optSome d1 =>
      have f := d1.fine (.openParen :: b) (d1.ne_nil rfl) (by simp [NB])
      have f2 := FineB.step (e := false) f (d2.fine _) (by decide)
      exact (K.tok hc.noOpen (K.app (g1.1 rfl _ _ (Ctx.ofParen d1 (by decide))
        (fun h => absurd h (by decide)) (fun h => absurd h (by decide)))
        (K.app (g2.1 rfl _ _ (Ctx.ofFine f d2 (.inl rfl)) (fun h => absurd h (by decide))
          (fun h => absurd h (by decide))) (K.tok f2.noClose K.nil)))).to (by unparse_simp)"""
FT='(FineB.tok (e := %s) (t := %s) (by decide) (by decide) (by intro _ h; cases h) (by decide))'
EXPR='.fullExpr .pmExprClause .statement .nextStatement .stmtBlock .pmClause .librarySingle .libraryDef .contractField .contractDef .program'.split()
def exprlast(nt): return any(q in EXPR for q in re.findall(r'\.\w+',nt))
def main_case(name,eq,subs,items):
    k=len(subs)
    ds=' '.join(f'd{i+1}' for i in range(k)); ihs=' '.join(f'ih{i+1}' for i in range(k))
    M.append(f'  | {name}{" h" if eq else ""}{" "+ds+" "+ihs if k else ""} =>')
    if name in SP: M.append(SP[name]); return
    if eq: M.append('    subst h')
    M.append('    intro hd')
    for i in range(k):
        M.append(f'    have g{i+1} := ih{i+1} (fun t ht => hd t (by simp [ht]))')
    M.append('    refine ⟨fun hok b a hc hi ha => ?_, trivial⟩')
    idx=[s[1] for s in subs]
    def after(j):
        """NotVar of what follows item j"""
        if j+1==len(items): return '(ha rfl)'
        kd,x=items[j+1]
        if kd=='tok': return '(NotVar.tok rfl)'
        i=idx.index(x)
        if j+2==len(items): return f'(NotVar.app d{i+1} (by decide) (ha rfl))'
        return f'(NotVar.app2 d{i+1} (by decide) {after(j+1)})'
    def term(j,f,kind,E):
        if j==len(items): return 'K.nil'
        kd,x=items[j]
        if kd=='tok':
            if x=='.openParen': pf='hc.noOpen' if j==0 else 'rfl'
            elif x=='.closeParen': pf=f'(FineB.noClose {f})'
            elif x=='.comma': pf='hc.noComma'
            elif x=='.import_': pf='(by simpa [forgotten] using hi rfl)'
            else: pf='rfl'
            if x=='.openParen': r=term(j+1,'(show NB (Token.openParen :: _) from by simp [NB])','paren',None)
            else:
                e='true' if x=='.closeBrace' else 'false'
                r=term(j+1,FT%(e,x),'fine',e) if j+1<len(items) else 'K.nil'
            return f'(K.tok {pf} {r})'
        i=idx.index(x);nt=subs[i][0]
        if j==0: ctx='hc.left' if len(items)>1 else 'hc'
        elif kind=='paren': ctx=f'(Ctx.ofParen d{i+1} (by decide))'
        else: ctx=f'(Ctx.ofFine (E := {E}) {f} d{i+1} (by decide))'
        imp='(fun h => absurd h (by decide))'
        if nt in('.importDecls','(.opt .importDecls)'): imp='(fun _ => himp)'
        aft=f'(fun _ => {after(j)})' if exprlast(nt) else '(fun h => absurd h (by decide))'
        c=f'(g{i+1}.1 (by decide) _ _ {ctx} {imp} {aft})'
        if j+1==len(items): return c
        if NULL(nt):
            E2=f'({E} || endsBrace {nt})'
            f2=f'(FineB.step (e := {E2}) {f} (d{i+1}.fine _) (by decide))'
        else:
            nb=f if kind in('nb','paren') else f'(FineB.nb {f})'
            f2=f'(d{i+1}.fine _ (d{i+1}.ne_nil rfl) {nb})';E2=f'(endsBrace {nt})'
        return f'(K.app {c} {term(j+1,f2,"fine",E2)})'
    if name=='program':
        M.append("""    rename_i w1 _ _ _ _ _ _ _ _ _
    have himp : Token.import_ ∉ (bare w1).reverse ++ Token.scillaVersion :: b := by
      cases d1 with | signedInt hs =>
      subst hs
      have := hi rfl
      simp [bare, this]""")
    if name=='compBody':
        M.append("""    refine (K.app (g1.1 (by decide) _ _ hc.left (fun h => absurd h (by decide)) (fun _ => NotVar.tok rfl)) (K.tok rfl K.nil)).to ?_
    unparse_simp"""); return
    if name=='addrSpecial':
        M.append('    cases d2 with | specialId hs =>')
        M.append('    subst hs')
        M.append('    obtain ⟨q1, q2, q3⟩ := hd _ (List.mem_append_right _ (List.mem_cons_of_mem _ List.mem_cons_self)) _ rfl')
        M.append(f'    refine (K.app (g1.1 (by decide) _ _ hc.left (fun h => absurd h (by decide)) (fun h => absurd h (by decide))) (K.tok rfl (K.tok rfl (K.tok rfl K.nil)))).to ?_')
        M.append('    simp [unparse, mkW, NodeAddressType.toks, addressTag, q1, q2, q3]'); return
    if name=='addrContract': M.append('    rename_i fs _ _ _ _ _ _')
    t=term(0,'hc.2.1','nb',None)
    M.append(f'    refine {t}.to ?_')
    if name=='addrContract': M.append('    cases fs <;> unparse_simp')
    else: M.append('    first | rfl | unparse_simp')
for pr in prods: main_case(*pr)
p("""theorem Derives.startsVar {a : List Token} {w : List STok} {v : Val .varId}
    (d : Derives .varId w v) : (bare w ++ a).head?.any startsVariable = true := by
  cases w with
  | nil => exact absurd rfl (d.ne_nil rfl)
  | cons t w =>
    have := d.headed t w rfl
    rw [bare_cons, List.cons_append, List.head?_cons, Option.any_some, ← startsVariable_kind]
    have h : (heads .varId).all startsVariable = true := by decide
    exact List.all_eq_true.mp h _ this
""")
p('\n'.join(M)+'\n')
p('end Verif')
open(root+'/Proofs/EssentialDerives.lean','w').write('\n'.join(P)+'\n')
