"""Parses lean/Verif/Model/Ast.lean into a list of blocks of types (typing aid for generators)."""
import re,os
here=os.path.dirname(os.path.abspath(__file__))
root=os.path.join(here,'..','lean','Verif')
def load():
    src=open(root+'/Model/Ast.lean').read()
    src=src[:src.index('/-! ### `Display`')]
    src=re.sub(r'/-.*?-/','',src,flags=re.S)
    blocks=[];cur=None;lines=src.split('\n');i=0
    types=None;inmut=False;t=None
    def add(t):
        if inmut: blocks[-1].append(t)
        else: blocks.append([t])
    buf=[]
    for ln in lines:
        if ln.strip()=='mutual': blocks.append([]);inmut=True;continue
        if ln.strip()=='end': inmut=False;continue
        m=re.match(r'(inductive|structure) (\w+)( \(.*\))? where',ln)
        if m:
            t=dict(kind=m.group(1),name=m.group(2),lines=[])
            if m.group(2)!='W': add(t)
            continue
        if t is not None and ln.startswith('  '): t['lines'].append(ln)
        elif ln.strip() and not ln.startswith('deriving'): t=None
    for b in blocks:
        for t in b:
            if t['kind']=='structure':
                fs=[]
                for l in t['lines']:
                    m=re.match(r'  ([\w ]+) : (.*)$',l)
                    for n in m.group(1).split(): fs.append((n,m.group(2).strip()))
                t['ctors']=[('mk',fs)]
            else:
                txt='\n'.join(t['lines'])
                cs=[]
                for part in re.split(r'\n?  \| ',txt):
                    part=' '.join(part.split())
                    if not part: continue
                    name=part.split(' ')[0]
                    fs=[]
                    # args
                    j=len(name);depth=0;st=None
                    for idx,ch in enumerate(part):
                        if ch=='(':
                            if depth==0: st=idx
                            depth+=1
                        elif ch==')':
                            depth-=1
                            if depth==0:
                                a,ty=part[st+1:idx].split(' : ',1)
                                for n in a.split(): fs.append((n,ty.strip()))
                    cs.append((name,fs))
                t['ctors']=cs
    return blocks
def parse_ty(s):
    s=s.strip()
    if s.startswith('(') and s.endswith(')'): return parse_ty(s[1:-1])
    for w in('W','List','Option'):
        if s.startswith(w+' '): return (w,parse_ty(s[len(w)+1:]))
    return s
if __name__=='__main__':
    for b in load():
        for t in b: print(t['name'],t['ctors'])
        print('--')
