#!/usr/bin/env python3
"""Writes lean/Verif/Proofs/GrammarFile.lean: one lemma per production of the grammar file."""
import re,sys
import os; sys.path.insert(0,os.path.dirname(os.path.abspath(__file__)))
from grammar import productions
from grammar_lean import tok, names
table, ps = productions()
src=open('/verif/lean/Verif/Spec/Grammar.lean').read()
src=src[src.index('inductive Derives'):]
ctors=re.findall(r'^  \| (\w+) :',src,re.M)
nts=re.findall(r'\w+',re.search(r'inductive NT where(.*?)\| star',open('/verif/lean/Verif/Spec/Grammar.lean').read(),re.S).group(1))
ntof=dict(zip([n for n in names if True],nts))
# check vs Lean mapping
g=open('/verif/lean/Verif/Spec/Generates.lean').read()
mp=dict(re.findall(r'\.(\w+) => \.(\w+)',g[g.index('def GName.nt'):]))
base=ctors[5:]
text=base[:7]; rest=base[7:]
order=rest+text
assert len(order)==len(ps),(len(order),len(ps))
idx={c:i for i,c in enumerate(order)}
o=[]
o.append('''import Verif.Spec.Generates
import Verif.Proofs.ParserSound
/-
The grammar file generates exactly the token sequences of the specification `Derives`.
-/
namespace Verif

set_option linter.unusedSimpArgs false

/-- the symbol of the file for a nonterminal -/
def NT.gname : NT → Option GName''')
for n in names: o.append('  | .%s => some .%s'%(mp[n],n))
o.append('''  | _ => none

def NT.fsym : NT → Option FSym
  | .star n => n.gname.map .star
  | .plus n => n.gname.map .plus
  | .opt n => n.gname.map .opt
  | n => n.gname.map .non

theorem Gen.app {α β : List FSym} {u w : List Token} (h : Gen α u) (h' : Gen β w) : Gen (α ++ β) (u ++ w) := by
  induction h with
  | nil => exact h'
  | tok hk _ ih => exact .tok hk ih
  | non hq hu _ _ ih => rw [List.append_assoc]; exact .non hq hu ih
  | optNone _ ih => exact .optNone ih
  | optSome hu _ _ ih => rw [List.append_assoc]; exact .optSome hu ih
  | starNil _ ih => exact .starNil ih
  | starCons hu _ _ ih => rw [List.append_assoc]; exact .starCons hu ih
  | plus hu _ _ ih => rw [List.append_assoc]; exact .plus hu ih

theorem Gen.cons {f : FSym} {β : List FSym} {u w : List Token} (h : Gen [f] u) (h' : Gen β w) :
    Gen (f :: β) (u ++ w) := h.app h'

theorem Gen.rule (i : Nat) {l : Nat} {x : GName} {β : List FSym} {w : List Token}
    (h : grammarFile[i]? = some ⟨l, x, β⟩) (hg : Gen β w) : Gen [.non x] w := by
  have := Gen.non (q := ⟨l, x, β⟩) (List.mem_of_getElem? h) hg .nil
  simpa using this

macro "genstep" : tactic => `(tactic| (
  intro f hf
  simp only [NT.fsym, NT.gname, Option.map_some, Option.some.injEq] at hf
  subst hf
  try subst_vars
  try simp only [NT.fsym, NT.gname, Option.map_some, Option.some.injEq, forall_eq'] at *
  try simp only [List.map_append, List.map_cons, List.map_nil]))

macro "gensteps" : tactic => `(tactic| repeat' (first
  | assumption | exact Gen.nil | refine Gen.cons (by assumption) ?_ | refine Gen.tok rfl ?_))

theorem Derives.gen {n : NT} {w : List STok} {v : Val n} (d : Derives n w v) :
    ∀ f, n.fsym = some f → Gen [f] (w.map (·.tok)) := by
  induction d''')
o.append('''  case starNil => 
    intro f hf
    rename_i n
    simp only [NT.fsym, Option.map_eq_some_iff] at hf
    obtain ⟨x, _, rfl⟩ := hf
    exact .starNil .nil
  case starCons ih1 ih2 =>
    intro f hf
    have hf' := hf
    simp only [NT.fsym, Option.map_eq_some_iff] at hf
    obtain ⟨x, hx, rfl⟩ := hf
    rw [List.map_append]
    exact .starCons (ih1 _ (fsym_non hx)) (ih2 _ hf')
  case plusIntro ih1 ih2 =>
    intro f hf
    simp only [NT.fsym, Option.map_eq_some_iff] at hf
    obtain ⟨x, hx, rfl⟩ := hf
    rw [List.map_append]
    exact .plus (ih1 _ (fsym_non hx)) (ih2 _ (by simp only [NT.fsym, hx, Option.map_some]))
  case optNone =>
    intro f hf
    simp only [NT.fsym, Option.map_eq_some_iff] at hf
    obtain ⟨x, _, rfl⟩ := hf
    exact .optNone .nil
  case optSome ih =>
    intro f hf
    simp only [NT.fsym, Option.map_eq_some_iff] at hf
    obtain ⟨x, hx, rfl⟩ := hf
    have := Gen.optSome (ih _ (fsym_non hx)) .nil
    simpa using this''')
for c in order:
    o.append('  case %s => genstep; refine Gen.rule %d rfl ?_; gensteps'%(c,idx[c]))
# fsym_non lemma placed before
lem='''theorem fsym_non {n : NT} {x : GName} (h : n.gname = some x) : n.fsym = some (.non x) := by
  cases n <;> first | (simp [NT.gname] at h; done) | (simp only [NT.fsym, h, Option.map_some])

'''
k=[i for i,x in enumerate(o) if x.startswith('  | _ => none')][0]
o[k]=o[k].replace('theorem Derives.gen',lem+'theorem Derives.gen')
o.append('''
/-! ### The converse -/

/-- the symbols derive the spanned tokens, by the specification `Derives` -/
def DL : List FSym → List STok → Prop
  | [], w => w = []
  | .tok k :: α, w => ∃ t w', w = t :: w' ∧ t.tok.kind = k ∧ DL α w'
  | .non x :: α, w => ∃ u w' v, w = u ++ w' ∧ Derives x.nt u v ∧ DL α w'
  | .star x :: α, w => ∃ u w' v, w = u ++ w' ∧ Derives (.star x.nt) u v ∧ DL α w'
  | .plus x :: α, w => ∃ u w' v, w = u ++ w' ∧ Derives (.plus x.nt) u v ∧ DL α w'
  | .opt x :: α, w => ∃ u w' v, w = u ++ w' ∧ Derives (.opt x.nt) u v ∧ DL α w'

theorem tok_plain {t : STok} {k : Token} (hk : k.plain = true) (h : t.tok.kind = k) :
    ∃ s e, t = ⟨s, k, e⟩ := ⟨t.start, t.stop, by rw [← kind_plain hk h]⟩
''')
for c in order:
    l,a,b=ps[idx[c]]
    pats=[]; pre=[]; 
    o.append('theorem rule_%s {w : List STok} (h : DL [%s] w) : ∃ v, Derives GName.nt .%s w v := by'%(c,', '.join({'t':lambda s:'.tok '+tok(s[1]),'n':lambda s:{'':'.non','*':'.star','+':'.plus','?':'.opt'}[s[2]]+' .'+s[1]}[s[0]](s) for s in b),a) if False else 'theorem rule_%s {w : List STok} (h : DL [%s] w) : ∃ v, Derives (GName.nt .%s) w v := by'%(c,', '.join(('.tok '+tok(s[1])) if s[0]=='t' else {'':'.non','*':'.star','+':'.plus','?':'.opt'}[s[2]]+' .'+s[1] for s in b),a))
    pat='rfl'; lines=[]; args=[]
    for j in reversed(range(len(b))):
        if b[j][0]=='t': pat='t%d, w%d, rfl, k%d, %s'%(j,j,j,pat)
        else: pat='u%d, w%d, v%d, rfl, d%d, %s'%(j,j,j,j,pat)
    o.append('  obtain ⟨%s⟩ := h'%pat)
    from grammar_lean import TEXT
    for j in range(len(b)):
        if b[j][0]=='t':
            if b[j][1] in TEXT:
                kl={'ByStrWithSize':'kind_by','Number':'kind_num','HexNumber':'kind_hex','Identifier':'kind_id','TemplateIdentifier':'kind_te','CustomIdentifier':'kind_cu','SpecialIdentifier':'kind_sp','StringLiteral':'kind_st'}[b[j][1]]
                o.append('  obtain ⟨s%d, t%d, e%d⟩ := t%d; obtain ⟨x%d, hx⟩ := %s k%d; dsimp only at hx; subst hx'%(j,j,j,j,j,kl,j))
            else:
                o.append('  obtain ⟨s%d, e%d, rfl⟩ := tok_plain rfl k%d'%(j,j,j))
        else: args.append('d%d'%j)
    o.append('  try simp only [List.append_nil]')
    # does ctor take an equation?
    m=re.search(r'^  \| %s :(.*?)(?=^  \||^  --|^end)'%c,src,re.M|re.S).group(1)
    eq = 'rfl ' if re.match(r'\s*w = ',m) else ''
    o.append('  exact ⟨_, .%s %s%s⟩'%(c,eq,' '.join(args)))
    o.append('')

inv={idx[c]:c for c in order}
o.append('''theorem DL.rule {q : FProd} (hq : q ∈ grammarFile) {w : List STok} (h : DL q.rhs w) : ∃ v, Derives q.lhs.nt w v := by
  simp only [grammarFile, List.mem_cons, List.not_mem_nil, or_false] at hq
  rcases hq with '''+(' |\n    '.join(' | '.join(['rfl']*len(ps[k:k+17])) for k in range(0,len(ps),17))))
o.append('\n'.join('  · exact rule_%s h'%inv[i] for i in range(len(ps))))
o.append('''
theorem DL.single {x : GName} {w : List STok} (h : DL [.non x] w) : ∃ v, Derives x.nt w v := by
  obtain ⟨u, w', v, rfl, d, rfl⟩ := h
  rw [List.append_nil]
  exact ⟨v, d⟩

theorem Gen.dl {α : List FSym} {w : List Token} (h : Gen α w) :
    ∀ toks : List STok, toks.map (·.tok) = w → DL α toks := by
  induction h with
  | nil => intro toks ht; simpa [DL] using ht
  | tok hk _ ih =>
    intro toks ht
    obtain ⟨t, l, rfl, h1, h2⟩ := List.map_eq_cons_iff.1 ht
    exact ⟨t, l, rfl, by rw [h1]; exact hk, ih l h2⟩
  | non hq _ _ ih1 ih2 =>
    intro toks ht
    obtain ⟨l1, l2, rfl, h1, h2⟩ := List.map_eq_append_iff.1 ht
    obtain ⟨v, d⟩ := DL.rule hq (ih1 l1 h1)
    exact ⟨l1, l2, v, rfl, d, ih2 l2 h2⟩
  | optNone _ ih => intro toks ht; exact ⟨[], toks, _, rfl, .optNone, ih toks ht⟩
  | optSome _ _ ih1 ih2 =>
    intro toks ht
    obtain ⟨l1, l2, rfl, h1, h2⟩ := List.map_eq_append_iff.1 ht
    obtain ⟨v, d⟩ := DL.single (ih1 l1 h1)
    exact ⟨l1, l2, _, rfl, .optSome d, ih2 l2 h2⟩
  | starNil _ ih => intro toks ht; exact ⟨[], toks, _, rfl, .starNil, ih toks ht⟩
  | starCons _ _ ih1 ih2 =>
    intro toks ht
    obtain ⟨l1, l2, rfl, h1, h2⟩ := List.map_eq_append_iff.1 ht
    obtain ⟨v, d⟩ := DL.single (ih1 l1 h1)
    obtain ⟨u, w', v', rfl, d', h'⟩ := ih2 l2 h2
    exact ⟨l1 ++ u, w', _, (List.append_assoc ..).symm, .starCons d d', h'⟩
  | plus _ _ ih1 ih2 =>
    intro toks ht
    obtain ⟨l1, l2, rfl, h1, h2⟩ := List.map_eq_append_iff.1 ht
    obtain ⟨v, d⟩ := DL.single (ih1 l1 h1)
    obtain ⟨u, w', v', rfl, d', h'⟩ := ih2 l2 h2
    exact ⟨l1 ++ u, w', _, (List.append_assoc ..).symm, .plusIntro d d', h'⟩

/-- the tokens derived from a nonterminal are those its name generates with the productions of the file -/
theorem derives_iff_gen (x : GName) (toks : List STok) :
    (∃ v, Derives x.nt toks v) ↔ Gen [.non x] (toks.map (·.tok)) := by
  constructor
  · rintro ⟨v, d⟩
    exact d.gen _ (fsym_non (by cases x <;> rfl))
  · intro h
    exact (h.dl toks rfl).single

end Verif''')
open('/verif/lean/Verif/Proofs/GrammarFile.lean','w').write('\n'.join(o)+'\n')
