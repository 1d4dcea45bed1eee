#!/usr/bin/env python3
"""Generate lean/Verif/Conformance/*.lean from the project's own tests (/repo/tests): every check_ok!/check_err! of
parser_tests.rs and the smaller contracts of full_contract_tests.rs, evaluated on the model by the kernel."""
import re,json
R='/repo/tests/'
O='/verif/lean/Verif/Conformance/'
src=open(R+'parser_tests.rs').read()
src=re.sub(r'^\s*//.*$','',src,flags=re.M)
m={'ByteString':'byteString','TypeNameIdentifier':'typeName','ImportedName':'importedName','ImportDeclarations':'importDecls','MetaIdentifier':'metaId','VariableIdentifier':'varId','BuiltinArguments':'builtinArgs','ScillaType':'scillaType','AddressType':'addressType','TypeMapKey':'mapKey','TypeMapValue':'mapValue','TypeMapValueArguments':'mapValueArgs','TypeArgument':'typeArg','FullExpression':'fullExpr','AtomicExpression':'atomic','ValueLiteral':'valueLit','MapAccess':'mapAccess','Pattern':'pattern','ArgumentPattern':'argPattern','PatternMatchExpressionClause':'pmExprClause','MessageEntry':'messageEntry','TypeAnnotation':'typeAnn','TypedIdentifier':'typedId','Statement':'statement','BlockchainFetchArguments':'bcFetchArgs','StatementBlock':'stmtBlock','ParameterPair':'paramPair','ComponentDefinition':'compDef','ProcedureDefinition':'procDef','TransitionDefinition':'transDef','ComponentId':'componentId','ComponentParameters':'compParams','ComponentBody':'compBody','ContractField':'contractField','WithConstraint':'withConstraint','ContractDefinition':'contractDef','TypeAlternativeClause':'typeAlt','LibrarySingleDefinition':'librarySingle','LibraryDefinition':'libraryDef','RemoteFetchStatement':'remoteFetch','PatternMatchClause':'pmClause','TypeMapValueAllowingTypeArguments':'mapValueAllowing','ContractTypeArguments':'contractTypeArgs','Program':'program','AddressTypeField':'addressField'}
def q(s): return json.dumps(s,ensure_ascii=False)
tests=[]
for x in re.finditer(r'check_(ok|err)!\(\s*parser::(\w+)Parser,\s*("(?:\\.|[^"\\])*"|r#"(.*?)"#)\s*,?\s*\)',src,flags=re.S):
    s=x.group(3)
    if s.startswith('r#'): s=x.group(4)
    else:
        s=re.sub(r'\\\n\s*','',s[1:-1]); s=s.replace('\\"','"').replace('\\n','\n').replace("\\'","'").replace('\\t','\t').replace('\\\\','\\')
    tests.append((x.group(1),m[x.group(2)],s))
assert len(tests)==src.count('check_ok!(')+src.count('check_err!(')
N=110
files=[tests[i:i+N] for i in range(0,len(tests),N)]
for k,f in enumerate(files):
    with open(O+f'Parsers{k+1}.lean','w') as o:
        o.write('''import Verif.Props.Parser1
/-
Generated by tools/conformance.py from /repo/tests/parser_tests.rs: the cases of the project's own tests, evaluated
on the model.  (Validation of the model, not proofs of properties.)
-/
namespace Verif

''')
        for r,n,s in f:
            o.write(f'example : (lexDoc demoU (str! {q(s)})).map (fun ts => (parseAs .{n} ts).isSome) = some {"true" if r=="ok" else "false"} := by\n  decide +kernel\n')
        o.write('\nend Verif\n')
print(len(tests),len(files))

# full_contract_tests.rs
full=open(R+'full_contract_tests.rs').read()
tok=re.compile(r'"[^"]*"|[A-Za-z_][A-Za-z0-9_:!]*|\d+|[()\[\]{},.&;=:]')
def parse(ts,i):
    t=ts[i]
    if t=='&': return parse(ts,i+1)
    if t.startswith('"'):
        i+=1; v=t[1:-1]
    elif t.isdigit(): i+=1; v=int(t)
    elif t=='[':
        v=[];i+=1
        while ts[i]!=']':
            x,i=parse(ts,i); v.append(x)
            if ts[i]==',': i+=1
        i+=1
    else:
        name=t;i+=1
        if i<len(ts) and ts[i] =='[' and name.endswith('!'):
            v,i=parse(ts,i)
        elif i<len(ts) and ts[i]=='(':
            args=[];i+=1
            while ts[i]!=')':
                x,i=parse(ts,i);args.append(x)
                if ts[i]==',': i+=1
            i+=1
            v=(name,args)
        elif i<len(ts) and ts[i]=='{' :
            d={};i+=1
            while ts[i]!='}':
                k=ts[i].rstrip(':')
                i+=1
                if ts[i]==':': i+=1
                x,i=parse(ts,i); d[k]=x
                if ts[i]==',': i+=1
            i+=1; v=(name,d)
        else: v=(name,[])
    while i<len(ts) and ts[i]=='.':
        i+=2
        if ts[i]=='(': i+=2
    return v,i
def st(s): return f'(str! {q(s)})'
def ty(v):
    n,a=v
    n=n.split('::')[-1]
    if n in('new','Box','from'): return ty(a[0])
    if n in('Map','Option','List','Pair'): return f'(.{n.lower()} '+' '.join(ty(x) for x in a)+')'
    if n=='ByStrX': return f'(.byStrX {a[0]})'
    if n=='Other': return f'(.other {st(a[0])})'
    if n=='ByStr20With': return f'(.byStr20With {st(a["type_name"])} {fl(a["fields"])})'
    return {'BNum':'.bNum','ByStr':'.byStr','ByStr20':'.byStr20'}.get(n,'.'+n[0].lower()+n[1:])
def vec(v):
    n,a=v
    if n.endswith('default'): return []
    return a[0]
def fl(v): return '['+', '.join(f'⟨{st(f[1][0])}, {ty(f[1][1])}⟩' for f in vec(v))+']'
def tr(v):
    n,a=v
    if n.endswith('new_without_param'): return f'⟨{st(a[0])}, []⟩'
    return f'⟨{st(a[0])}, {fl(a[1])}⟩'
def lines(name):
    doc=open(R+f'contracts/{name}.scilla').read()
    ls=doc.split('\n'); ls=[l+'\n' for l in ls[:-1]]+([ls[-1]] if ls[-1] else [])
    joined=',\n'.join('  str! '+q(l) for l in ls)
    return len(doc), f"""/-- tests/contracts/{name}.scilla -/
def doc{name} : Str := List.flatten [
{joined}]
"""
out=[]
seen=set()
for x in re.finditer(r'PathBuf::from\("tests/contracts/(\w+)\.scilla"\);.*?assert_eq!\(\s*contract,\s*(Contract \{.*?)\n    \);',full,flags=re.S):
    name=x.group(1); seen.add(name)
    (_,d),_=parse(tok.findall(x.group(2)),0)
    n,dd=lines(name)
    out.append((n,dd+f"""
/-- full_contract_tests.rs: the contract it must give -/
example : fromStr demoEnv doc{name} = .ok ⟨{st(d['name'])},
    {fl(d['init_params'])},
    {fl(d['fields'])},
    [{', '.join(tr(t) for t in vec(d['transitions']))}]⟩ := by
  decide +kernel
"""))
import os
for f in sorted(os.listdir(R+'contracts')):
    name=f[:-7]
    if name in seen: continue
    n,dd=lines(name)
    out.append((n,dd+f"""
/-- full_contract_tests.rs, test_parse: it must be accepted -/
example : (fromStr demoEnv doc{name}).isOk = true := by
  decide +kernel
"""))
LIMITS=[(0,9000),(9000,14000),(14000,20000),(20000,40000)]
for k,(a,b) in enumerate(LIMITS):
    l=[t for n,t in out if a<=n<b]
    open(O+f'Contracts{k+1}.lean','w').write("""import Verif.Conformance.Basic
/-
Generated by tools/conformance.py from /repo/tests/full_contract_tests.rs and /repo/tests/contracts: the contracts of
the project's own tests (but the three largest), evaluated on the model.  (Validation of the model, not proofs of
properties.)
-/
set_option maxRecDepth 100000
namespace Verif

"""+'\n'.join(l)+'\nend Verif\n')
    print(len(l))
