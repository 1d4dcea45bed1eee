#!/usr/bin/env python3
"""Generates lean/Verif/Proofs/ParserComplete.lean: for every production of Spec/Grammar.lean a
proof that the parser parses its words.  Output is ordinary Lean; this is only a typing aid."""
import re,os
here=os.path.dirname(os.path.abspath(__file__))
root=os.path.join(here,'..','lean','Verif')
G=open(root+'/Spec/Grammar.lean').read()
P=open(root+'/Model/Parser.lean').read()
body=G[G.index('inductive Derives'):]
pOf={}
for m in re.finditer(r'^  \| \.(\w+) => (p\w+)( rec)?$',P,re.M): pOf['.'+m.group(1)]=m.group(2)
manual={'starNil','starCons','plusIntro','optNone','optSome','hexNumber','signedInt','regularId','specialId','customId','templateId','stringLit','byteString','importMore','importFirst','builtinMore','builtinOne','builtinUnit','funSigMore','funSigLast','typeFun','typeRem','exprAtomic','mvNoArgs','stRemote'}
singles={'.typeName':None,'.regularId':'.identifier []','.specialId':'.specialIdentifier []','.hexNumber':'.hexNumber []','.signedInt':'.number []','.componentId':None,'.templateId':'.templateIdentifier []','.customId':'.customIdentifier []','.stringLit':'.stringLiteral []','.byteString':'.byStrWithSize []'}
metaAddr={'remGeneric','argMeta','keyMeta','keyParenMeta','valMeta','mvWithArgs'}
out=[];assembly=[]
for m in re.finditer(r'^  \| (\w+) : (.*?)(?=^  \||^  --|^end)',body,re.S|re.M):
    name,txt=m.group(1),' '.join(m.group(2).split())
    txt=re.sub(r'\bbody\b','bdy',txt)
    parts=[p.strip() for p in txt.split('→')]
    concl=parts[-1]; eq=None; subs=[]
    for p in parts[:-1]:
        if p.startswith('Derives'):
            mm=re.match(r'Derives (\.\w+|\(\.\w+ \.\w+\)|\w+|\(\.star n\)) (w\d*) (.*)$',p)
            subs.append((mm.group(1),mm.group(2),mm.group(3)))
        else: eq=p
    mm=re.match(r'Derives (\.\w+|\(\.\w+ \w+\)) (\S+|\(.*?\)) (.*)$',concl)
    nt,val=mm.group(1),mm.group(3)
    ds=' '.join(f'd{i+1}' for i in range(len(subs)))
    if name in manual: continue
    assembly.append(f'  | {name} {"h " if eq else ""}{ds} => exact c_{name} ih {ds} {"h " if eq else ""}hl hF')
    o=[]
    o.append('set_option autoImplicit true in')
    o.append(f'theorem c_{name} (ih : Comp fu)')
    for i,(n,w,v) in enumerate(subs): o.append(f'    (d{i+1} : Derives {n} {w} {v})')
    if eq: o.append(f'    (heq : {eq})')
    o.append(f'    (hl : 32 * w.length + rank {nt} ≤ fu + 1) (hF : Follow (bad {nt}) rest) :')
    o.append(f'    {pOf[nt]} (parse fu) ⟨po, w ++ rest⟩ = some (({val} : Val {nt}), ⟨stopFrom po w, rest⟩) := by')
    rhs=eq.split(' = ',1)[1] if eq else 'w'
    items=[]
    for t in re.finditer(r'⟨\w+, (\.\w+), \w+⟩|\b(w\d*)\b',rhs):
        if t.group(1): items.append(('tok',t.group(0)))
        else: items.append(('sub',t.group(2)))
    idx={w:i for i,(n,w,v) in enumerate(subs)}
    nullable=lambda n: n.startswith('(.star') or n.startswith('(.opt')
    def cont(j):
        if j==len(items): return 'rest'
        k,x=items[j]
        return f'{x} :: ({cont(j+1)})' if k=='tok' else f'{x} ++ ({cont(j+1)})'
    def fol(j):
        if j==len(items): return '(hF.mono (by decide))'
        k,x=items[j]
        if k=='tok': return '(.tok (by decide))'
        i=idx[x]
        if nullable(subs[i][0]): return f'(.app\' d{i+1} (by decide) {fol(j+1)})'
        return f'(.app d{i+1} (by decide) rfl)'
    for i,(n,w,v) in enumerate(subs):
        if not nullable(n): o.append(f'  have l{i+1} := d{i+1}.length_pos rfl')
    if eq: o.append('  subst heq')
    o.append('  simp only [List.length_append, List.length_cons, List.length_nil, rank] at hl')
    facts=[]
    o.append('  have hA := fun p k hk => hF.at p k hk')
    o.append('  have hB := fun p M hM => hF.among (M := M) p hM')
    facts+=['hA','hB']
    for j,(k,x) in enumerate(items):
        if k=='tok': continue
        i=idx[x]; n,w,v=subs[i]; I=i+1
        K=cont(j+1)
        o.append(f'  have r{I} : ∀ pp, parse fu {n} ⟨pp, {w} ++ ({K})⟩ = some ({v}, ⟨stopFrom pp {w}, {K}⟩) :=')
        o.append(f'    fun p => ih _ _ _ d{I} rfl (by simp only [rank]; omega) p _ {fol(j+1)}')
        facts.append(f'r{I}')
        if nullable(n) and name in('stReadBC','stCall'):
            L='[.dot]' if name=='stReadBC' else '[.colonEquals, .equals, .openBracket, .leftArrow]'
            o.append(f'  have f{I} := fun p k hk => Follow.at (L := {L}) (ts := {w} ++ ({K})) {fol(j)} p k hk'); facts.append(f'f{I}')
        if not nullable(n):
            o.append(f'  have a{I} := fun p k hk => d{I}.at0 (K := {K}) rfl p k hk')
            o.append(f'  have b{I} := fun p L hk => d{I}.among0 (K := {K}) rfl p L hk')
            o.append(f'  have c{I} := fun p L hk => d{I}.among0_false (K := {K}) rfl p L hk')
            o.append(f'  have g{I} := fun K => d{I}.startOf_app (K := K) rfl')
            o.append(f'  have e{I}e := fun p => d{I}.stop_eq rfl p')
            facts+=[f'a{I}',f'b{I}',f'c{I}',f'g{I}',f'e{I}e']
            if n in singles:
                for q in range(1,5):
                    o.append(f'  have s{I}_{q} : ∀ p k, (PS.mk p ({w} ++ ({K}))).at? {q} k = (PS.mk p ({K})).at? {q-1} k := fun p k => d{I}.single_at (K := {K}) rfl p {q-1} k')
                    o.append(f'  have t{I}_{q} : ∀ p k, (PS.mk p ({w} ++ ({K}))).among {q} k = (PS.mk p ({K})).among {q-1} k := fun p k => d{I}.single_among (K := {K}) rfl p {q-1} k')
                    facts+=[f's{I}_{q}',f't{I}_{q}']
                if singles[n]:
                    o.append(f'  have u{I} := fun p => d{I}.at0_true (K := {K}) (k := {singles[n]}) rfl rfl p')
                    facts.append(f'u{I}')
            if n=='.varId':
                o.append(f'  have v{I} := fun p => isVar_varId (K := {K}) d{I} p'); facts.append(f'v{I}')
            if n in('.transDef','(.plus .mapAccess)'):
                o.append(f'  have u{I} := fun p => d{I}.at0_true (K := {K}) (k := {".transition" if n==".transDef" else ".openBracket"}) rfl rfl p'); facts.append(f'u{I}')
            if n=='.addressType':
                o.append(f'  have v{I} := fun p => isAddr_addressType (K := {K}) d{I} p'); facts.append(f'v{I}')
            if n=='.valueLit':
                o.append(f'  have v{I} := fun p => isVar_valueLit (K := {K}) d{I} p'); facts.append(f'v{I}')
            if n=='.metaId' and name in metaAddr:
                o.append(f'  have v{I} := fun p => isAddr_metaId (K := {K}) d{I} p {fol(j+1)}'); facts.append(f'v{I}')
            if n=='.metaId' and name=='exprConstr':
                o.append(f'  have v{I} := fun p => isVar_metaId (K := {K}) d{I} p {fol(j+1)}'); facts.append(f'v{I}')
                o.append(f'  have z{I} := fun p => isLit_metaId (K := {K}) d{I} p {fol(j+1)}'); facts.append(f'z{I}')
    pre='  '
    if (name in('stLoad','rfState','rfCast')):
        I={'stLoad':2,'rfState':3,'rfCast':2}[name]; w=subs[I-1][1]
        j=[j for j,it in enumerate(items) if it[1]==w][0]
        o.append(f'  rcases varId_shape (K := {cont(j+1)}) d{I} with x{I} | x{I} <;>')
        facts.append(f'x{I}'); pre='    '
    o.append(pre+f'simp (decide := true) [{pOf[nt]}, expect_cons, PS.wrap, mkW, startOf_cons, stopOf, stopFrom, stopFrom_append, {", ".join(facts)}]')
    if name=='compBody': o.append('  cases w1 <;> rfl')
    out.append('\n'.join(o)+'\n')
tmpl=open(here+'/complete_template.txt').read()
open(root+'/Proofs/ParserComplete.lean','w').write(tmpl.replace('--GENERATED--','\n'.join(out)).replace('  --ASSEMBLY--','\n'.join(assembly)))
