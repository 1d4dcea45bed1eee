#!/usr/bin/env python3
"""Generates lean/Verif/Proofs/ParserSound.lean: for every parsing function `pX` of
Model/Parser.lean a proof that what it returns is derivable in Spec/Grammar.lean.
The output is ordinary Lean, checked by the kernel; this script is only a typing aid."""
import re,sys,os
root=os.path.join(os.path.dirname(__file__),'..','lean','Verif')
G=open(root+'/Spec/Grammar.lean').read()
Psrc=open(root+'/Model/Parser.lean').read()
# ---- constructors
body=G[G.index('inductive Derives'):]
ctors=[]
for m in re.finditer(r'^  \| (\w+) : (.*?)(?=^  \||^  --|^end)',body,re.S|re.M):
    name,txt=m.group(1),' '.join(m.group(2).split())
    parts=[p.strip() for p in txt.split('→')]
    concl=parts[-1]
    eq=None; subs=[]
    for p in parts[:-1]:
        if p.startswith('Derives'): subs.append(p)
        else: eq=p
    mm=re.match(r'Derives (\.\w+|\(\.\w+ \w+\)) (\S+|\(.*?\)) (.*)$',concl)
    ctors.append(dict(name=name,nt=mm.group(1),val=mm.group(3),eq=eq,subs=subs))
def find(nt,valhead):
    c=[c for c in ctors if c['nt']==nt]
    if len(c)==1: return c[0]
    c2=[x for x in c if re.search(r'[( ]'+re.escape(valhead)+r'(?![\w])',' '+x['val'])]
    return c2[0] if len(c2)==1 else None
# ---- parser functions
ntOf={}
for m in re.finditer(r'^  \| \.(\w+) => (p\w+)( rec)?$',Psrc,re.M): ntOf[m.group(2)]='.'+m.group(1)
defs=re.findall(r'^def (p\w+) : P .*? := fun s =>( do)?\n(.*?)(?=^\n|^/--|^def|^end)',Psrc,re.S|re.M)
def parse_block(lines,i,ind):
    """returns node, next index; lines: list of (indent,text)"""
    d,t=lines[i]
    m=re.match(r'let \((\w+), (s\d*)\) ← (.*) (s\d*)$',t)
    if m:
        nxt,j=parse_block(lines,i+1,ind)
        return ('let',m.group(1),m.group(2),m.group(3),m.group(4),nxt),j
    if t.startswith('if ') or t.startswith('else if '):
        cond=re.match(r'(?:else )?if (.*) then( do)?$',t).group(1)
        th,j=parse_block(lines,i+1,ind)
        d2,t2=lines[j]
        if t2.startswith('else if'):
            el,j=parse_block(lines,j,ind)
        elif t2 in('else do','else'):
            el,j=parse_block(lines,j+1,ind)
        else:
            assert t2.startswith('else '),t2
            lines[j]=(d2,t2[5:])
            el,j=parse_block(lines,j,ind)
        return ('if',cond,th,el),j
    if t.startswith('some (') or t.startswith('rec '):
        return ('ret',t),i+1
    raise Exception(t)
out=[]
manual={'pImportDecls','pBuiltinArgs','pFunSig','pScillaType','pStar','pPlus','pOpt','pByteString'}
def emit(node,nt,ind,steps):
    P=lambda s: out.append('  '*ind+s)
    if node[0]=='if':
        P('rcases ite_or h with ⟨_, h⟩ | ⟨_, h⟩')
        out.append('  '*ind+'· '+'skip'); emit(node[2],nt,ind+1,steps)
        out.append('  '*ind+'· '+'skip'); emit(node[3],nt,ind+1,steps)
    elif node[0]=='let':
        _,var,so,call,si,nxt=node
        k=len(steps)+1
        P(f'obtain ⟨⟨v{k}, q{k}⟩, h{k}, h⟩ := bind_some h')
        P('dsimp only at h')
        emit(nxt,nt,ind,steps+[(var,call,k)])
    else:
        t=node[1]
        if t.startswith('rec '):
            m=re.match(r'rec (\S+|\(.*\)) (s\d*)$',t)
            k=len(steps)+1
            P(f'have h{k} := h')
            steps=steps+[('_tail','rec '+m.group(1),k)]
            tail=True; val=None
        else:
            tail=False
            val=re.match(r'some \((.*), (s\d*)\)$',t).group(1)
            P('obtain ⟨rfl, rfl⟩ := some_pair h')
        # find constructor
        if tail: vh='__'
        else:
            m=re.match(r's\.wrap s\d* \(?(\.\w+|⟨)',val) or re.match(r'\(?(\.\w+|⟨)',val)
            vh=m.group(1) if m else '__'
        nested=None
        c=find(nt,vh)
        if val and 'typeMapValueNoArgs (s.wrap' in val: nested=('mvNoArgs','valMeta')
        if val and 'expressionAtomic (s.wrap' in val: nested=('exprAtomic','atomicVar')
        if nt=='.librarySingle' and vh=='.typeDefinition':
            c=[x for x in ctors if x['name']==('libTypeAlts' if 'some' in val else 'libType')][0]
        if nt=='.addressType':
            nm='addrEmpty' if 'wrap s3 [])' in val else 'addrContract' if '"contract"' in val else 'addrLibrary' if '"library"' in val else 'addrSpecial'
            c=[x for x in ctors if x['name']==nm][0]
        assert c or nested,(nt,vh,t)
        rhs='w'
        if c and c['eq'] and not nested: rhs=c['eq'].split(' = ',1)[1]
        rhs=re.sub(r'⟨s(\d*), (\.\w+), e(\d*)⟩',lambda m:'⟨a%s, %s, b%s⟩'%(m.group(1) or '0',m.group(2),m.group(3) or '0'),rhs)
        toks=re.findall(r'⟨(a\d*), (\.\w+), (b\d*)⟩',rhs)
        ws=re.findall(r'\b(w\d*)\b',rhs)
        ti=wi=0
        oks=[];ds=[]
        prev='s'
        for var,call,k in steps:
            if call.startswith('expect '):
                a,kk,b=toks[ti];ti+=1
                P(f'obtain ⟨{a}, {b}, k{k}⟩ := expect_ok rfl h{k}')
            else:
                w=ws[wi];wi+=1
                P(f'obtain ⟨{w}, k{k}, d{k}⟩ := hr _ _ _ _ h{k}')
                ds.append((w,f'd{k}'))
            oks.append(f'k{k}')
            if k==len(steps) and tail: pass
        assert ti==len(toks) and wi==len(ws),(nt,t,rhs)
        # order ds by constructor premises
        if nested:
            dd=['d1']
        else:
            dd=[]
            for sp in c['subs']:
                w=re.match(r'Derives (\.\w+|\(\.\w+ [\.\w]+\)) (w\d*) ',sp).group(2)
                dd.append([x for (ww,x) in ds if ww==w][0])
        # combine Ok chain right-assoc
        pf=oks[-1]
        expr=oks[0] if len(oks)==1 else None
        P('have ok : Ok s (%s) %s := by'%(rhs,"s'" if tail else 'q%d'%steps[-1][2]))
        P('  have := '+ ('%s'%oks[0] if len(oks)==1 else '.trans ('.join(['']*0)+ '('.join([])+chain(oks)))
        P('  simpa only [List.append_assoc, List.cons_append, List.nil_append] using this')
        P('refine ⟨_, ok, ?_⟩')
        if not tail and 's.wrap' in val:
            if nested:
                P('simp only [ok.wrap (by simp [d1.ne_nil rfl])]')
                P(f'exact .{nested[0]} (.{nested[1]} d1)')
                return
            ne=[f'{d}.ne_nil rfl' for (w,d) in ds if True]
            P('simp only [ok.wrap (by %s)]'%nonempty(rhs,ds,steps))
        P('exact .'+c['name']+(' rfl' if c['eq'] else '')+''.join(' '+x for x in dd))
def nonempty(rhs,ds,steps):
    if '⟨' in rhs: return 'simp'
    for (w,d),(var,call,k) in zip(ds,[st for st in steps if not st[1].startswith('expect')]):
        if '.star' not in call and '.opt' not in call:
            return f'simp [{d}.ne_nil rfl]'
    raise Exception(rhs)
def chain(oks):
    if len(oks)==1: return oks[0]
    return f'{oks[0]}.trans ({chain(oks[1:])})'
for name,do,b in defs:
    if name in manual: continue
    nt=ntOf.get(name)
    if not nt: continue
    lines=[(len(l)-len(l.lstrip()),l.strip()) for l in b.rstrip('\n').split('\n') if l.strip()]
    node,j=parse_block(lines,0,0)
    assert j==len(lines),(name,j,len(lines),lines[j:])
    out.append(f'theorem {name}_sound (hr : Sound r) {{s s\' : PS}} {{v : Val {nt}}}')
    out.append(f'    (h : {name} r s = some (v, s\')) : ∃ w, Ok s w s\' ∧ Derives {nt} w v := by')
    out.append(f'  unfold {name} at h' if name=='pStatement' else f'  simp only [{name}] at h')
    emit(node,nt,1,[])
    out.append('')
open(os.path.join(os.path.dirname(__file__),'sound_body.txt'),'w').write('\n'.join(out))
tmpl=open(os.path.join(os.path.dirname(__file__),'sound_template.txt')).read()
open(root+'/Proofs/ParserSound.lean','w').write(tmpl.replace('--GENERATED--','\n'.join(out)))
os.remove(os.path.join(os.path.dirname(__file__),'sound_body.txt'))
