import re
# (n, m, a, b, constructor term)
steps='''
byteString typeName | | | .typeNameBytes d
typeName metaId | | | .metaName d
importedName importDecls | import_ | | .importFirst (by simp) (.plusIntro d .starNil)
importDecls program | scillaVersion, number | contract, customId, openParen, closeParen | .program (w3 := []) (by simp) sInt (.optSome d) .optNone sContract
metaId remaining | | | .remGeneric (by simp) d .starNil
varId atomic | | | .atomicVar (by simpa using d)
builtinArgs fullExpr | builtin, ident | | .exprBuiltin (w2 := []) (by simp) sReg .optNone d
remaining scillaType | | | .typeRem d
funSig scillaType | | | .typeFun d
scillaType typeAnn | colon | | .typeAnn (by simp) d
typeArg remaining | customId | | .remGeneric (by simp) sMeta (.starCons d .starNil)
addressType remaining | | | .remAddress d
addressFieldList addressType | customId, with_, contract | end_ | .addrContract (by simp) sName (.optSome d)
nextAddressField addressFieldList | field, ident, colon, customId | | .addrFieldList (by simp) sAField (.starCons d .starNil)
addressField addressFieldList | | | .addrFieldList (by simp) d .starNil
mapKey remaining | map | customId | .remMap (by simp) d sVal
mapValue remaining | map, customId | | .remMap (by simp) sKey d
mapValueArgs mapValueAllowing | customId | | .mvWithArgs (by simp) sMeta (.plusIntro d .starNil)
mapValueAllowing mapValue | openParen | closeParen | .valParen (by simp) d
libraryDef program | scillaVersion, number | contract, customId, openParen, closeParen | .program (w2 := []) (by simp) sInt .optNone (.optSome d) sContract
librarySingle libraryDef | library, customId | | .libraryDef (by simp) sName (.starCons d .starNil)
typedId paramPair | | | .paramPair d
typeAnn typedId | ident | | .typedId (by simp) sReg d
typeAlt librarySingle | type, customId, equals | | .libTypeAlts (by simp) sName (.plusIntro d .starNil)
contractTypeArgs fullExpr | customId | | .exprConstr (w3 := []) (by simp) sMeta (.optSome d) .starNil
fullExpr contractField | field, ident, colon, customId, equals | | .contractField (by simp) sTyped d
pmExprClause fullExpr | match_, ident, with_ | end_ | .exprMatch (by simp) sVar (.plusIntro d .starNil)
pattern pmExprClause | pipe | doubleArrow, ident | .pmExprClause (by simp) d sExpr
argPattern pattern | customId | | .patConstr (by simp) sMeta (.starCons d .starNil)
nextMessage fullExpr | openBrace, ident, colon, ident | closeBrace | .exprMessage (by simp) sEntry (.starCons d .starNil)
messageEntry fullExpr | openBrace | closeBrace | .exprMessage (w2 := []) (by simp) d .starNil
atomic fullExpr | | | .exprAtomic d
valueLit atomic | | | .atomicLit d
statement stmtBlock | | | .stmtBlock (by simp) d .starNil
nextStatement stmtBlock | accept | | .stmtBlock (by simp) (.stAccept rfl) (.starCons d .starNil)
stmtBlock compBody | | end_ | .compBody (by simp) (.optSome d)
bcFetchArgs statement | ident, leftArrow, ampersand, customId | | .stReadBC (by simp) sReg sName (.optSome d)
componentId transDef | transition | openParen, closeParen, end_ | .transDef (by simp) d sParams sBody
pmClause statement | match_, ident, with_ | end_ | .stMatch (by simp) sVar (.plusIntro d .starNil)
remoteFetch statement | | | .stRemote d
mapAccess statement | delete, ident | | .stMapDelete (by simp) sReg (.plusIntro d .starNil)
paramPair compParams | openParen | closeParen | .compParams (w2 := []) (by simp) (.optSome d) .starNil
nextParamPair compParams | openParen | closeParen | .compParams (w1 := []) (by simp) .optNone (.starCons d .starNil)
compParams contractDef | contract, customId | | .contractDef (w3 := []) (w4 := []) (w5 := []) (by simp) sName d .optNone .starNil .starNil
compDef contractDef | contract, customId, openParen, closeParen | | .contractDef (w3 := []) (w4 := []) (by simp) sName sParams .optNone .starNil (.starCons d .starNil)
transDef compDef | | | .compTransition d
procDef compDef | | | .compProcedure d
compBody transDef | transition, customId, openParen, closeParen | | .transDef (by simp) sComp sParams d
contractDef program | scillaVersion, number | | .program (w2 := []) (w3 := []) (by simp) sInt .optNone .optNone d
contractField contractDef | contract, customId, openParen, closeParen | | .contractDef (w3 := []) (w5 := []) (by simp) sName sParams .optNone (.starCons d .starNil) .starNil
withConstraint contractDef | contract, customId, openParen, closeParen | | .contractDef (w4 := []) (w5 := []) (by simp) sName sParams (.optSome d) .starNil .starNil
hexNumber valueLit | | | .litHex d
signedInt program | scillaVersion | contract, customId, openParen, closeParen | .program (w2 := []) (w3 := []) (by simp) d .optNone .optNone sContract
regularId varId | | | .varName d
specialId varId | | | .varSpecial d
customId typeName | | | .typeNameCustom d
templateId remaining | | | .remTypeVar d
stringLit valueLit | | | .litString d
'''
toks={'number':'(.number (str! "0"))','customId':'(.customIdentifier (str! "C"))','ident':'(.identifier (str! "x"))'}
def lst(s):
    s=s.strip()
    return '['+', '.join('.'+x if x not in toks else toks[x][1:-1] for x in [y.strip() for y in s.split(',') if y.strip()])+']'
S=[]
AFL='''theorem frame_addressFieldList : Frame .addressFieldList .addressType [.customIdentifier (str! "C"), .with_, .contract] [.end_] := by
  intro w v d
  obtain ⟨_, hsName⟩ := sName
  simp only [List.map_cons, List.map_nil, List.nil_append, List.cons_append]
  refine ⟨_, .addrContract (by word) hsName (.optSome d), ?_⟩
  have e : rv .addressFieldList v = .vec (lWNodeAddressTypeField v) := by rw [lWNodeAddressTypeField_eq]; rfl
  rw [e]
  exact .node (List.Mem.head _) (.node (List.Mem.tail _ (List.Mem.tail _ (List.Mem.head _))) .refl)

'''
for l in steps.strip().split('\n'):
    h,a,b,c=[x.strip() for x in l.split('|')]
    n,m=h.split(); S.append((n,m,a,b,c))
par={n:(m,a,b) for n,m,a,b,c in S}
out='''import Verif.Spec.Occurs
import Verif.Spec.NodeValues
import Verif.Proofs.UnparseDerives
/-
Every category of the grammar is used in a program: for each category a piece of program around it.  Written by
tools/gen_frames.py.
-/
namespace Verif
open RV (Occurs)

theorem RV.Occurs.trans {x y z : RV} (h : Occurs x y) (h' : Occurs y z) : Occurs x z := by
  induction h' with
  | refl => exact h
  | vec hv _ ih => exact .vec hv ih
  | node hv _ ih => exact .node hv ih

/-- Any phrase `w` of the category `n` with the value `v` becomes a phrase of `m` with `a` before and `b` after it, and
its value contains `v`. -/
def Frame (n m : NT) (a b : List Token) : Prop := ∀ w v, Derives n w v →
  ∃ v', Derives m (a.map STok.at0 ++ (w ++ b.map STok.at0)) v' ∧ Occurs (rv n v) (rv m v')

theorem Frame.refl (n : NT) : Frame n n [] [] := fun w v d => ⟨v, by simpa using d, .refl⟩

theorem Frame.trans {n m k : NT} {a b a' b' : List Token} (h : Frame n m a b) (h' : Frame m k a' b') :
    Frame n k (a' ++ a) (b ++ b') := by
  intro w v d
  obtain ⟨v1, d1, o1⟩ := h w v d
  obtain ⟨v2, d2, o2⟩ := h' _ v1 d1
  exact ⟨v2, by simpa using d2, o1.trans o2⟩

macro "occ_step" : tactic => `(tactic| first
  | exact RV.Occurs.refl
  | (refine RV.Occurs.vec (List.Mem.head _) ?_)
  | (refine RV.Occurs.node (List.Mem.head _) ?_))

local macro "occ1" : tactic => `(tactic| exact RV.Occurs.refl)
local macro "occ2" : tactic => `(tactic| first
  | occ1
  | (refine RV.Occurs.node (List.Mem.head _) ?_; occ1) | (refine RV.Occurs.vec (List.Mem.head _) ?_; occ1)
  | (refine RV.Occurs.vec (List.Mem.tail _ (List.Mem.head _)) ?_; occ1)
  | (refine RV.Occurs.node (List.Mem.tail _ (List.Mem.head _)) ?_; occ1)
  | (refine RV.Occurs.node (List.Mem.tail _ (List.Mem.tail _ (List.Mem.head _))) ?_; occ1)
  | (refine RV.Occurs.node (List.Mem.tail _ (List.Mem.tail _ (List.Mem.tail _ (List.Mem.head _)))) ?_; occ1)
  | (refine RV.Occurs.node (List.Mem.tail _ (List.Mem.tail _ (List.Mem.tail _ (List.Mem.tail _ (List.Mem.head _))))) ?_; occ1))
'''
for i in (3,4,5):
    out+=f'''local macro "occ{i}" : tactic => `(tactic| first
  | occ{i-1}
  | (refine RV.Occurs.node (List.Mem.head _) ?_; occ{i-1})
  | (refine RV.Occurs.vec (List.Mem.head _) ?_; occ{i-1})
  | (refine RV.Occurs.node (List.Mem.tail _ (List.Mem.head _)) ?_; occ{i-1})
  | (refine RV.Occurs.node (List.Mem.tail _ (List.Mem.tail _ (List.Mem.head _))) ?_; occ{i-1})
  | (refine RV.Occurs.node (List.Mem.tail _ (List.Mem.tail _ (List.Mem.tail _ (List.Mem.head _)))) ?_; occ{i-1})
  | (refine RV.Occurs.node (List.Mem.tail _ (List.Mem.tail _ (List.Mem.tail _ (List.Mem.tail _ (List.Mem.head _))))) ?_; occ{i-1}))
'''
out=out.replace('''macro "occ_step" : tactic => `(tactic| first
  | exact RV.Occurs.refl
  | (refine RV.Occurs.vec (List.Mem.head _) ?_)
  | (refine RV.Occurs.node (List.Mem.head _) ?_))

''','')
out+='''
-- small phrases
set_option quotPrecheck false in
local notation "C" => STok.at0 (Token.customIdentifier (str! "C"))
set_option quotPrecheck false in
local notation "X" => STok.at0 (Token.identifier (str! "x"))
theorem sInt : ∃ v, Derives .signedInt [STok.at0 (.number (str! "0"))] v := ⟨_, .signedInt rfl⟩
theorem sReg : ∃ v, Derives .regularId [X] v := ⟨_, .regularId rfl⟩
theorem sName : ∃ v, Derives .typeName [C] v := ⟨_, .typeNameCustom (.customId rfl)⟩
theorem sMeta : ∃ v, Derives .metaId [C] v := sName.elim fun _ h => ⟨_, .metaName h⟩
theorem sType : ∃ v, Derives .scillaType [C] v :=
  sMeta.elim fun _ h => ⟨_, .typeRem (.remGeneric (w2 := []) rfl h .starNil)⟩
theorem sVar : ∃ v, Derives .varId [X] v := sReg.elim fun _ h => ⟨_, .varName h⟩
theorem sExpr : ∃ v, Derives .fullExpr [X] v := sVar.elim fun _ h => ⟨_, .exprAtomic (.atomicVar h)⟩
theorem sKey : ∃ v, Derives .mapKey [C] v := sMeta.elim fun _ h => ⟨_, .keyMeta h⟩
theorem sVal : ∃ v, Derives .mapValue [C] v := sMeta.elim fun _ h => ⟨_, .valMeta h⟩
theorem sComp : ∃ v, Derives .componentId [C] v := sName.elim fun _ h => ⟨_, .componentType h⟩
theorem sTyped : ∃ v, Derives .typedId [X, STok.at0 .colon, C] v :=
  sReg.elim fun _ h => sType.elim fun _ h' => ⟨_, .typedId (w1 := [X]) rfl h (.typeAnn rfl h')⟩
theorem sAField : ∃ v, Derives .addressField [STok.at0 .field, X, STok.at0 .colon, C] v :=
  sVar.elim fun _ h => sType.elim fun _ h' => ⟨_, .addrField (w1 := [X]) rfl h h'⟩
theorem sEntry : ∃ v, Derives .messageEntry [X, STok.at0 .colon, X] v :=
  sVar.elim fun _ h => ⟨_, .msgVariable (w1 := [X]) rfl h h⟩
theorem sParams : ∃ v, Derives .compParams [STok.at0 .openParen, STok.at0 .closeParen] v :=
  ⟨_, .compParams (w1 := []) (w2 := []) rfl .optNone .starNil⟩
theorem sBody : ∃ v, Derives .compBody [STok.at0 .end_] v := ⟨_, .compBody (w1 := []) rfl .optNone⟩
theorem sContract : ∃ v, Derives .contractDef
    [STok.at0 .contract, C, STok.at0 .openParen, STok.at0 .closeParen] v :=
  sName.elim fun _ h => sParams.elim fun _ h' => ⟨_, .contractDef (w1 := [C])
    (w2 := [STok.at0 .openParen, STok.at0 .closeParen]) (w3 := []) (w4 := []) (w5 := []) rfl h h' .optNone .starNil .starNil⟩

local macro "word" : tactic => `(tactic| first
  | rfl
  | (simp only [List.append_assoc, List.cons_append, List.nil_append, List.append_nil]; done)
  | (simp only [List.append_assoc, List.cons_append, List.nil_append, List.append_nil]; rfl))

'''
for n,m,a,b,c in S:
    if n=='addressFieldList':
        out+=AFL; continue
    if not a and not b and '(by simp)' not in c and 'simpa' not in c:
        k,dd=c.rsplit(' ',1)
        out+=f'''theorem frame_{n} : Frame .{n} .{m} [] [] := by
  intro w v d
  try (cases v with | mk x p q => ?_)
  simp only [List.map_nil, List.nil_append, List.append_nil]
  exact ⟨_, {c}, by occ5⟩

'''
        continue
    c=c.replace('(by simpa using d)','d').replace('(by simp)','(by word)')
    used=sorted(set(re.findall(r'\bs(?:Int|Reg|Name|Meta|Type|Var|Expr|Key|Val|Comp|Typed|AField|Entry|Params|Body|Contract)\b',c)))
    ob=''.join(f'  obtain ⟨_, h{u}⟩ := {u}\n' for u in used)
    for u in used: c=re.sub(r'\b'+u+r'\b','h'+u,c)
    out+=f'''theorem frame_{n} : Frame .{n} .{m} {lst(a)} {lst(b)} := by
  intro w v d
  try (cases v with | mk x p q => ?_)
  simp only [List.map_cons, List.map_nil, List.nil_append, List.append_nil, List.cons_append]
{ob}  exact ⟨_, {c}, by occ5⟩

'''
def up(n):
    a='';ch=[];aa=[];bb=[]
    while n!='program':
        m,x,y=par[n]
        aa=[t.strip() for t in x.split(',') if t.strip()]+aa; bb=bb+[t.strip() for t in y.split(',') if t.strip()]
        ch.append(n); n=m
    return ch,aa,bb
nts=[n for n,*_ in S]+['program']
out+='/-- what stands before a phrase of the category -/\ndef frameBefore : NT → List Token\n'
for n in nts:
    ch,aa,bb=up(n); out+=f'  | .{n} => {lst(",".join(aa))}\n'
out+='  | _ => []\n\n/-- what stands after it -/\ndef frameAfter : NT → List Token\n'
for n in nts:
    ch,aa,bb=up(n); out+=f'  | .{n} => {lst(",".join(bb))}\n'
out+='  | _ => []\n\n/-- every category is used in a program -/\ntheorem frame_program (n : NT) (hn : n.base = true) : Frame n .program (frameBefore n) (frameAfter n) := by\n  cases n\n'
order=['byteString','typeName','importedName','importDecls','metaId','varId','builtinArgs','remaining','funSig','scillaType','typeArg','addressType','addressFieldList','nextAddressField','addressField','mapKey','mapValue','mapValueArgs','program','libraryDef','librarySingle','typedId','typeAnn','typeAlt','mapValueAllowing','contractTypeArgs','fullExpr','pmExprClause','pattern','argPattern','nextMessage','messageEntry','atomic','valueLit','statement','nextStatement','stmtBlock','bcFetchArgs','componentId','pmClause','remoteFetch','mapAccess','paramPair','nextParamPair','compParams','compDef','transDef','procDef','compBody','contractDef','contractField','withConstraint','hexNumber','signedInt','regularId','specialId','customId','templateId','stringLit']
for n in order:
    ch,aa,bb=up(n)
    if not ch: out+=f'  case {n} => exact .refl _\n'
    else: 
        e=f'frame_{ch[0]}'
        for k in ch[1:]: e=f'({e}).trans frame_{k}'
        out+=f'  case {n} => exact {e}\n'
out+='  all_goals simp [NT.base] at hn\n\nend Verif\n'
open('/verif/lean/Verif/Proofs/Frames.lean','w').write(out)
